import Verif.Conformance.Base

/-! The unit tests of the repository for tags, occurrences, lexical parts, paths, queries and formats, evaluated on the model. -/

namespace Pica.Conformance
open Pica Parser

/-- `test_tag_matcher_serde`, src/matcher/tag.rs -/
example : [
    shown (TagMatcher.new (bs "003@")) (bs "003@"),
    same (TagMatcher.new (bs "003@")) (TagMatcher.new (bs "003@")),
    shown (TagMatcher.new (bs ".0[2-3][A@]")) (bs ".0[2-3][A@]"),
    same (TagMatcher.new (bs ".0[2-3][A@]")) (TagMatcher.new (bs ".0[2-3][A@]"))].all id = true := by
  decide +kernel

/-- `test_parse_tag_matcher`, src/matcher/tag.rs -/
example : [
    parsesTo (pTagMatcher) (bs "003@") (.tag (bs "003@")),
    parsesTo (pTagMatcher) (bs "002@") (.tag (bs "002@")),
    parsesTo (pTagMatcher) (bs ".0[2-4]@") (.pattern (bs "012") (bs "0") (bs "234") (bs "@") (bs ".0[2-4]@")),
    parsesTo (pTagMatcher) (bs "00[23]@") (.pattern (bs "0") (bs "0") (bs "23") (bs "@") (bs "00[23]@"))].all id = true := by
  decide +kernel

/-- `test_parse_occurrence_matcher`, src/matcher/occurrence.rs -/
example : [
    parsesTo (pOccMatcher) (bs "") (.none),
    shown (OccMatcher.new (bs "")) (bs ""),
    parsesTo (pOccMatcher) (bs "/*") (.any),
    shown (OccMatcher.new (bs "/*")) (bs "/*"),
    parsesTo (pOccMatcher) (bs "/01") (.exact (bs "01")),
    shown (OccMatcher.new (bs "/01")) (bs "/01"),
    parsesTo (pOccMatcher) (bs "/999") (.exact (bs "999")),
    shown (OccMatcher.new (bs "/999")) (bs "/999"),
    parsesTo (pOccMatcher) (bs "/01-99") (.range (bs "01") (bs "99")),
    shown (OccMatcher.new (bs "/01-99")) (bs "/01-99"),
    parsesTo (pOccMatcher) (bs "/01-99") (.range (bs "01") (bs "99")),
    shown (OccMatcher.new (bs "/01-99")) (bs "/01-99"),
    parsesTo (pOccMatcher) (bs "/00") (.none)].all id = true := by
  decide +kernel

/-- `test_parse_relational_operator`, src/matcher/operator.rs -/
example : [
    parsesTo (pRelOp) (bs "==") (.eq),
    parsesTo (pRelOp) (bs "!=") (.ne),
    parsesTo (pRelOp) (bs ">=") (.ge),
    parsesTo (pRelOp) (bs ">") (.gt),
    parsesTo (pRelOp) (bs "<=") (.le),
    parsesTo (pRelOp) (bs "<") (.lt),
    parsesTo (pRelOp) (bs "=^") (.startsWith),
    parsesTo (pRelOp) (bs "!^") (.startsNotWith),
    parsesTo (pRelOp) (bs "=$") (.endsWith),
    parsesTo (pRelOp) (bs "!$") (.endsNotWith),
    parsesTo (pRelOp) (bs "=*") (.similar)].all id = true := by
  decide +kernel

/-- `test_parse_quantifier`, src/matcher/quantifier.rs -/
example : [
    parsesTo (pQuantifier) (bs "ALL") (.all),
    parsesTo (pQuantifier) (bs "ANY") (.any)].all id = true := by
  decide +kernel

/-- `test_parse_subfield_code_range`, src/parser.rs -/
example : [
    parsesTo (pCodeRange) (bs "a-b") ((bs "ab")),
    parsesTo (pCodeRange) (bs "a-c") ((bs "abc")),
    parsesTo (pCodeRange) (bs "a-z") ((bs "abcdefghijklmnopqrstuvwxyz")),
    parsesTo (pCodeRange) (bs "0-9") ((bs "0123456789")),
    parsesTo (pCodeRange) (bs "A-Z") ((bs "ABCDEFGHIJKLMNOPQRSTUVWXYZ")),
    rejects (pCodeRange) (bs "a-a"),
    rejects (pCodeRange) (bs "a-!"),
    rejects (pCodeRange) (bs "c-a")].all id = true := by
  decide +kernel

/-- `test_parse_subfield_code_list`, src/parser.rs -/
example : [
    parsesTo (pCodeList) (bs "[ab]") ((bs "ab")),
    parsesTo (pCodeList) (bs "[abc]") ((bs "abc")),
    parsesTo (pCodeList) (bs "[a-z]") ((bs "abcdefghijklmnopqrstuvwxyz")),
    parsesTo (pCodeList) (bs "[0-9]") ((bs "0123456789")),
    parsesTo (pCodeList) (bs "[A-Z]") ((bs "ABCDEFGHIJKLMNOPQRSTUVWXYZ")),
    parsesTo (pCodeList) (bs "[0a-cz]") ((bs "0abcz")),
    rejects (pCodeRange) (bs "[ab!]"),
    rejects (pCodeRange) (bs "[a-a]"),
    rejects (pCodeRange) (bs "[a-!]"),
    rejects (pCodeRange) (bs "[c-a]")].all id = true := by
  decide +kernel

/-- `test_parse_subfield_code_all`, src/parser.rs -/
example : [
    parsesTo (pCodeAll) (bs "*") (bs "0123456789abcdefghijklmnopqrstuvwxyzABCDEFGHIJKLMNOPQRSTUVWXYZ")].all id = true := by
  decide +kernel

/-- `test_parse_string_single_quoted`, src/parser.rs -/
example : [
    parsesTo (pQuoted 0x27) (bs "'abc'") ((bs "abc")),
    parsesTo (pQuoted 0x27) (bs "'a\\nbc'") ([0x61, 0x0A, 0x62, 0x63]),
    parsesTo (pQuoted 0x27) (bs "'a\\rbc'") ([0x61, 0x0D, 0x62, 0x63]),
    parsesTo (pQuoted 0x27) (bs "'a\\tbc'") ([0x61, 0x09, 0x62, 0x63]),
    parsesTo (pQuoted 0x27) (bs "'a\\bbc'") ([0x61, 0x08, 0x62, 0x63]),
    parsesTo (pQuoted 0x27) (bs "'a\\fbc'") ([0x61, 0x0C, 0x62, 0x63]),
    parsesTo (pQuoted 0x27) (bs "'a\\\\c'") ((bs "a\\c")),
    parsesTo (pQuoted 0x27) (bs "'a\\'c'") ((bs "a'c")),
    parsesTo (pQuoted 0x27) (bs "'a\"c'") ((bs "a\"c")),
    parsesTo (pQuoted 0x27) (bs "'a\\/bc'") ((bs "a/bc")),
    parsesTo (pQuoted 0x27) (bs "'a\\ bc'") ((bs "abc"))].all id = true := by
  decide +kernel

/-- `test_parse_string_double_quoted`, src/parser.rs -/
example : [
    parsesTo (pQuoted 0x22) (bs "\"abc\"") ((bs "abc")),
    parsesTo (pQuoted 0x22) (bs "\"a\\nbc\"") ([0x61, 0x0A, 0x62, 0x63]),
    parsesTo (pQuoted 0x22) (bs "\"a\\rbc\"") ([0x61, 0x0D, 0x62, 0x63]),
    parsesTo (pQuoted 0x22) (bs "\"a\\tbc\"") ([0x61, 0x09, 0x62, 0x63]),
    parsesTo (pQuoted 0x22) (bs "\"a\\bbc\"") ([0x61, 0x08, 0x62, 0x63]),
    parsesTo (pQuoted 0x22) (bs "\"a\\fbc\"") ([0x61, 0x0C, 0x62, 0x63]),
    parsesTo (pQuoted 0x22) (bs "\"a\\\\c\"") ((bs "a\\c")),
    parsesTo (pQuoted 0x22) (bs "\"a'c\"") ((bs "a'c")),
    parsesTo (pQuoted 0x22) (bs "\"a\\/bc\"") ((bs "a/bc")),
    parsesTo (pQuoted 0x22) (bs "\"a\\ bc\"") ((bs "abc"))].all id = true := by
  decide +kernel

/-- `test_parse_invalid_byte_seq`, src/parser.rs -/
example : [
    rejects (pString) [39, 255, 255, 255, 255, 255, 255, 255, 255, 255, 255, 255, 255, 255, 255, 255, 255, 255, 255, 255, 255, 255, 255, 255, 255, 255, 61, 92, 92, 4, 39]].all id = true := by
  decide +kernel

/-- `test_parse_subfield_code`, src/primitives/parse.rs -/
example : [
    (List.range 256).all (fun c => decide (parseAll pSubfieldCode [UInt8.ofNat c] = if isAlnum (UInt8.ofNat c) then some (UInt8.ofNat c) else none))].all id = true := by
  decide +kernel

/-- `test_parse_subfield_value_ref`, src/primitives/parse.rs -/
example : [
    peeks pSubfieldValue (bs "abc") (bs "abc") (bs ""),
    peeks pSubfieldValue [0x61, 0x1E, 0x62, 0x63] (bs "a") [0x1E, 0x62, 0x63],
    peeks pSubfieldValue [0x61, 0x1F, 0x62, 0x63] (bs "a") [0x1F, 0x62, 0x63],
    peeks pSubfieldValue (bs "") (bs "") (bs "")].all id = true := by
  decide +kernel

/-- `test_parse_path_simple`, src/path.rs -/
example : [
    parsesTo (pPathSimple) (bs "003@.0") (⟨.tag (bs "003@"), .none, none, [bs "0"], bs "003@.0"⟩)].all id = true := by
  decide +kernel

/-- `test_parse_path_curly`, src/path.rs -/
example : [
    tparsesTo (pPathCurly rx) (bs "045E{ (e, f) | E == 'm' }") ⟨.tag (bs "045E"), .none, (subNew (bs "E == 'm'")), [bs "e", bs "f"], bs "045E{ (e, f) | E == 'm' }"⟩ Path.display].all id = true := by
  decide +kernel

/-- `test_path_new`, src/path.rs -/
example : [
    pathIs (bs "008B.a") ada [(bs "w"), (bs "k"), (bs "v")] false].all id = true := by
  decide +kernel

/-- `test_byte_record_path`, src/path.rs -/
example : [
    pathIs (bs "008A.a") ada [(bs "s"), (bs "z"), (bs "f")] false].all id = true := by
  decide +kernel

/-- `test_string_record_path`, src/path.rs -/
example : [
    pathIs (bs "008A.a") ada [(bs "s"), (bs "z"), (bs "f")] true].all id = true := by
  decide +kernel

/-- `test_path_with_predicate`, src/path.rs -/
example : [
    pathIs (bs "007N{ 0 | a == 'swd'}") ada [(bs "4370325-2")] false].all id = true := by
  decide +kernel

/-- `test_path_first`, src/path.rs -/
example : [
    firstIs (bs "007[KN]{0 | a in ['pnd','swd']}") ada (bs "172642531")].all id = true := by
  decide +kernel

/-- `test_path_ppn`, src/path.rs -/
example : [
    ppnIs ada (bs "119232022")].all id = true := by
  decide +kernel

/-- `test_query_literal`, src/query.rs -/
example : [
    queryIs (bs "'foo'") ⟨false, (bs "|"), false, false⟩ ada [[(bs "foo")]],
    queryIs (bs "'foo','bar'") ⟨false, (bs "|"), false, false⟩ ada [[(bs "foo"), (bs "bar")]]].all id = true := by
  decide +kernel

/-- `test_query_path`, src/query.rs -/
example : [
    queryIs (bs "003@.0") ⟨false, (bs "|"), false, false⟩ ada [[(bs "119232022")]],
    queryIs (bs "003@.0, 002@.0") ⟨false, (bs "|"), false, false⟩ ada [[(bs "119232022"), (bs "Tp1")]],
    queryIs (bs "003@.0, 008A.a") ⟨false, (bs "|"), false, false⟩ ada [[(bs "119232022"), (bs "s")], [(bs "119232022"), (bs "z")], [(bs "119232022"), (bs "f")]],
    queryIs (bs "003@.0, 008X.a") ⟨false, (bs "|"), false, false⟩ ada [[(bs "119232022"), (bs "")]],
    queryIs (bs "008X.a,008Y.a") ⟨false, (bs "|"), false, false⟩ ada [[(bs ""), (bs "")]],
    queryIs (bs "008A.a,008B.a") ⟨false, (bs "|"), false, false⟩ ada [[(bs "s"), (bs "w")], [(bs "s"), (bs "k")], [(bs "s"), (bs "v")], [(bs "z"), (bs "w")], [(bs "z"), (bs "k")], [(bs "z"), (bs "v")], [(bs "f"), (bs "w")], [(bs "f"), (bs "k")], [(bs "f"), (bs "v")]]].all id = true := by
  decide +kernel

/-- `test_query_path_squash`, src/query.rs -/
example : [
    queryIs (bs "003@.0, 008A.a") ⟨false, (bs "|"), true, false⟩ ada [[(bs "119232022"), (bs "s|z|f")]],
    queryIs (bs "008A.a,008B.a") ⟨false, (bs "|"), true, false⟩ ada [[(bs "s|z|f"), (bs "w|k|v")]],
    queryIs (bs "003@.0, 008A.a") ⟨false, (bs "+++"), true, false⟩ ada [[(bs "119232022"), (bs "s+++z+++f")]],
    queryIs (bs "012A{ a, b }") ⟨false, (bs "|"), true, false⟩ (rec [0x30, 0x31, 0x32, 0x41, 0x20, 0x1F, 0x61, 0x58, 0x1F, 0x62, 0x31, 0x1F, 0x62, 0x32, 0x1E, 0x30, 0x31, 0x32, 0x41, 0x20, 0x1F, 0x61, 0x58, 0x1F, 0x62, 0x33, 0x1E, 0x0A]) [[(bs "X"), (bs "1|2")], [(bs "X"), (bs "3")]]].all id = true := by
  decide +kernel

/-- `test_query_path_merge`, src/query.rs -/
example : [
    queryIs (bs "003@.0, 008A.a") ⟨false, (bs "|"), false, true⟩ ada [[(bs "119232022"), (bs "s|z|f")]],
    queryIs (bs "008A.a,008B.a") ⟨false, (bs "|"), false, true⟩ ada [[(bs "s|z|f"), (bs "w|k|v")]],
    queryIs (bs "012A{ a, b }") ⟨false, (bs "|"), false, true⟩ (rec [0x30, 0x31, 0x32, 0x41, 0x20, 0x1F, 0x61, 0x58, 0x1F, 0x62, 0x31, 0x1F, 0x62, 0x32, 0x1E, 0x30, 0x31, 0x32, 0x41, 0x20, 0x1F, 0x61, 0x58, 0x1F, 0x62, 0x33, 0x1E, 0x0A]) [[(bs "X|X|X"), (bs "1|2|3")]]].all id = true := by
  decide +kernel

/-- `test_query_format`, src/query.rs -/
example : [
    queryIs (bs "003@{ 'https://d-nb.info/gnd/' 0 }") ⟨false, (bs "|"), false, false⟩ ada [[(bs "https://d-nb.info/gnd/119232022")]],
    queryIs (bs "003@{'https://d-nb.info/gnd/' 0}, 028A{a <$> ', ' d}") ⟨false, (bs "|"), false, false⟩ ada [[(bs "https://d-nb.info/gnd/119232022"), (bs "Lovelace, Ada King")]],
    queryIs (bs "003@.0, 029A{?u a}") ⟨false, (bs "|"), false, false⟩ ada [[(bs "119232022"), (bs "")]]].all id = true := by
  decide +kernel

/-- `test_format_value`, src/fmt/mod.rs -/
example : [
    formatIs (bs "028A{ a }") ada [(bs "Lovelace")],
    formatIs (bs "028A{ ?t *..2 ' ' }") ada [(bs "Ada King of")]].all id = true := by
  decide +kernel

/-- `test_format_list`, src/fmt/mod.rs -/
example : [
    formatIs (bs "028A{ d ' ' <$> a }") ada [(bs "Ada King Lovelace")],
    formatIs (bs "028A{ x  <$> ' ' a }") ada [],
    formatIs (bs "028A{ d ' ' <*> a }") ada [(bs "Ada King Lovelace")],
    formatIs (bs "028A{ x <*> ' 'a }") ada [(bs " Lovelace")],
    formatIs (bs "028A{ d ' ' <$> c ' ' <*> a }") ada [(bs "Ada King of Lovelace")]].all id = true := by
  decide +kernel

/-- `test_format_group`, src/fmt/mod.rs -/
example : [
    formatIs (bs "028A{ a <$> ( ', ' d <*> ' (' c ')' ) }") ada [(bs "Lovelace, Ada King (of)")],
    formatIs (bs "028A{ (a <$> ( ', ' d <*> ' (' c ')' )) }") ada [(bs "Lovelace, Ada King (of)")]].all id = true := by
  decide +kernel

/-- `test_parse_modifier`, src/fmt/parser.rs -/
example : [
    parsesTo (pModifier) (bs "?o") (some ⟨false, false, false, false, true⟩),
    parsesTo (pModifier) (bs "?l") (some ⟨true, false, false, false, false⟩),
    parsesTo (pModifier) (bs "?u") (some ⟨false, true, false, false, false⟩),
    parsesTo (pModifier) (bs "?w") (some ⟨false, false, true, false, false⟩),
    parsesTo (pModifier) (bs "?t") (some ⟨false, false, false, true, false⟩),
    parsesTo (pModifier) (bs "?luwto") (some ⟨true, true, true, true, true⟩),
    parsesTo (pModifier) (bs "?luwtoluwto") (some ⟨true, true, true, true, true⟩)].all id = true := by
  decide +kernel

/-- `test_parse_value`, src/fmt/parser.rs -/
example : [
    parsesTo (pFmtValue) (bs "a") (⟨(bs "a"), none, none, 1, Modifier.default⟩),
    parsesTo (pFmtValue) (bs "a..2") (⟨(bs "a"), none, none, 2, Modifier.default⟩),
    parsesTo (pFmtValue) (bs "a..") (⟨(bs "a"), none, none, usizeMax, Modifier.default⟩),
    parsesTo (pFmtValue) (bs "a..2 'def'") (⟨(bs "a"), none, (some (bs "def")), 2, Modifier.default⟩),
    parsesTo (pFmtValue) (bs "'abc' a..2 'def'") (⟨(bs "a"), (some (bs "abc")), (some (bs "def")), 2, Modifier.default⟩)].all id = true := by
  decide +kernel

/-- `test_parse_group`, src/fmt/parser.rs -/
example : [
    fparsesTo (pFmtGroup 40) (bs "(a)") (.group (.value ⟨(bs "a"), none, none, 1, Modifier.default⟩) usizeMax Modifier.default)].all id = true := by
  decide +kernel

/-- `test_parse_list_cons`, src/fmt/parser.rs -/
example : [
    fparsesTo (pCons (pFmtGroup 40)) (bs "a <*> b") (.cons [.value ⟨(bs "a"), none, none, 1, Modifier.default⟩, .value ⟨(bs "b"), none, none, 1, Modifier.default⟩]),
    fparsesTo (pCons (pFmtGroup 40)) (bs "a <*> b <*> c") (.cons [.value ⟨(bs "a"), none, none, 1, Modifier.default⟩, .value ⟨(bs "b"), none, none, 1, Modifier.default⟩, .value ⟨(bs "c"), none, none, 1, Modifier.default⟩]),
    fparsesTo (pCons (pFmtGroup 40)) (bs "a <*> (b <*> c)") (.cons [.value ⟨(bs "a"), none, none, 1, Modifier.default⟩, .group (.cons [.value ⟨(bs "b"), none, none, 1, Modifier.default⟩, .value ⟨(bs "c"), none, none, 1, Modifier.default⟩]) usizeMax Modifier.default])].all id = true := by
  decide +kernel

/-- `test_parse_list_and_then`, src/fmt/parser.rs -/
example : [
    fparsesTo (pAndThen (pFmtGroup 40)) (bs "a <$> b") (.andThen [.value ⟨(bs "a"), none, none, 1, Modifier.default⟩, .value ⟨(bs "b"), none, none, 1, Modifier.default⟩]),
    fparsesTo (pAndThen (pFmtGroup 40)) (bs "a <$> (b <*> c)") (.andThen [.value ⟨(bs "a"), none, none, 1, Modifier.default⟩, .group (.cons [.value ⟨(bs "b"), none, none, 1, Modifier.default⟩, .value ⟨(bs "c"), none, none, 1, Modifier.default⟩]) usizeMax Modifier.default])].all id = true := by
  decide +kernel

/-- `test_parse_format`, src/fmt/parser.rs -/
example : [
    (Format.new rx Levels.zero (bs "028[A@]{[aP] <$> (', ' d <*> ' ' c) | !U? || U == 'Latn'}")).1.isSome,
    (Format.new rx Levels.zero (bs "042A{'https://d-nb.info/standards/vocab/gnd/gnd-sc#' a }")).1.isSome,
    (Format.new rx Levels.zero (bs "006Y{(?w 'https://isni.org/isni/' 0) | S == 'isni' }")).1.isSome,
    (Format.new rx Levels.zero (bs "029A{a <$> (' (' g ')' <*> ' / ' [xb] <*> ', ' n)..1}")).1.isSome,
    (Format.new rx Levels.zero (bs "029A{a <$> (' (' g ')' <*> ' / ' [xb] <*> ', ' n)..2}")).1.isSome,
    (Format.new rx Levels.zero (bs "029A{a <$> (' (' g ')' <*> ' / ' [xb] <*> ', ' n)..3}")).1.isSome,
    (Format.new rx Levels.zero (bs "029A{a <$> (' (' g ')' <*> ' / ' [xb] <*> ', ' n)..}")).1.isSome,
    (Format.new rx Levels.zero (bs "029A{a <$> (' (' g ')' <*> ' / ' [xb] <*> ', ' n)}")).1.isSome,
    (Format.new rx Levels.zero (bs "041A{ x.. <$> (a <*> b)..2 <$> (c <*> d).. | a? }")).1.isSome].all id = true := by
  decide +kernel

/-- `test_invalid_byte_seq`, src/fmt/parser.rs -/
example : [
    (Format.new rx Levels.zero [48, 50, 50, 88, 13, 13, 13, 13, 13, 10, 123, 40, 40, 40, 40, 40, 40, 40, 40, 40, 40, 40, 40, 40, 40, 40, 40, 40, 40, 40, 40, 40, 40, 40, 40, 40, 40, 40, 40, 40, 40, 40, 40, 40, 40, 40, 40, 40, 40, 40, 40, 40, 40, 40, 40, 40, 40, 40, 40, 40, 40, 40, 40, 40, 40, 40, 40, 40, 40, 40, 40, 40, 40, 40, 40, 40, 40, 40, 40, 40, 40, 40, 40, 40, 40, 40, 40, 40, 40, 40, 40, 40, 40, 40, 40, 40, 40, 40, 40, 40, 40, 40, 40, 40, 40, 40, 40, 40]).1.isNone,
    (Format.new rx Levels.zero [48, 50, 50, 88, 13, 13, 13, 13, 13, 13, 10, 123, 13, 40, 40, 40, 40, 40, 40, 40, 40, 40, 40, 40, 40, 40, 40, 40, 40, 40, 40, 40, 40, 40, 40, 40, 40, 40, 40, 40, 40, 40, 40, 40, 40, 40, 13, 13, 13, 88, 13, 13, 19, 13, 34, 10, 49, 50, 46, 48, 50, 50, 88, 13, 13, 10, 13, 13, 13, 123, 13, 13, 34, 10, 9, 10, 13, 13, 13, 13, 13, 88]).1.isNone].all id = true := by
  decide +kernel

end Pica.Conformance
