import Verif.Model.Query

/-!
# The feature `compat`

Models the parsers of matchers, paths, formats and queries for both settings of the crate feature
`compat` (Cargo.toml:25), the argument `c`.  With the feature they accept the `$` of PICA Path.  The parsers in which the feature adds an
alternative are `parse_relation_matcher` and `parse_contains_matcher` of subfield/parser.rs,
`parse_subfields_matcher` and `parse_field_exists_matcher` of field/parser.rs, `parse_path_simple` and
`parse_codes` of path.rs; the others are repeated because they use these.
-/

namespace Pica
namespace Compat
open Parser

/-- `#[cfg(feature = "compat")]` in front of an alternative: without the feature there is no such
alternative, as if it always failed -/
def cfg {α : Type} (c : Bool) (p : Parser α) : Parser α := fun i => if c then p i else none

/-- `parse_subfield_code_list_compat`, parser.rs:83-93 -/
def pCodeListCompat : Parser Bytes :=
  map List.flatten (repeat1 (map (fun c => [c]) pSubfieldCode))

/-- `parse_subfield_codes_compat`, parser.rs:95-102 -/
def pCodesCompat : Parser Bytes := alt pCodeListCompat pCodeAll

/-- `preceded(ws('$'), ws(parse_subfield_codes_compat))`, path.rs:86-90, 112-116,
subfield/parser.rs:47-51, 81-85 -/
def pDollar (c : Bool) : Parser Bytes := cfg c (preceded (ws (byte 0x24)) (ws pCodesCompat))

/-- `parse_relation_matcher`, subfield/parser.rs:39-71 -/
def pSubRelation (c : Bool) : Parser SubSingle :=
  map (fun x => .relation x.1.1 x.1.2.1 x.1.2.2.1 x.1.2.2.2 (trimAscii x.2))
    (withTaken
      (seq (map Quantifier.orDefault (opt (ws (terminated pQuantifier multispace1))))
        (seq (alt (ws pCodes) (pDollar c))
          (seq (verify RelOp.strOk (ws pRelOp)) (ws pString)))))

/-- `parse_contains_matcher`, subfield/parser.rs:74-117 -/
def pSubContains (c : Bool) : Parser SubSingle :=
  map (fun x => .contains x.1.1 x.1.2.1 x.1.2.2.2 x.2)
    (withTaken
      (seq (map Quantifier.orDefault (opt (ws pQuantifier)))
        (seq (alt (ws pCodes) (pDollar c))
          (seq (ws (lit (bs "=?")))
            (alt (pBracketList pString) (map (fun v => [v]) (ws pString)))))))

/-- `parse_singleton_matcher`, subfield/parser.rs:259-272 -/
def pSubSingle (c : Bool) (rx : Bytes → Bool) : Parser SubSingle :=
  alt (pSubRelation c) (alt (pSubContains c) (alt pSubIn (alt pSubExists (alt pSubCard
    (alt (pSubRegexSet rx) (pSubRegex rx))))))

/-- `parse_subfield_singleton_matcher`, subfield/parser.rs:275-281 -/
def pSubSingleM (c : Bool) (rx : Bytes → Bool) : TParser SubMatcher :=
  TParser.lift (map SubMatcher.single (pSubSingle c rx))

/-- the tail common to the `atom`s of subfield/parser.rs:353-411 -/
def subAtoms (c : Bool) (rx : Bytes → Bool) (g n : TParser SubMatcher) : TParser SubMatcher :=
  TParser.alt g (TParser.alt (pSubSingleM c rx) n)

mutual

/-- `parse_subfield_group_matcher`, subfield/parser.rs:310-325 -/
def pSubGroup (c : Bool) (rx : Bytes → Bool) : Nat → TParser SubMatcher
  | 0 => TParser.fail
  | k + 1 =>
    TParser.map SubMatcher.group
      (TParser.delimited
        (TParser.terminated (TParser.lift (ws (byte 0x28))) subInc)
        (TParser.alt (composite subSyn (subAtoms c rx (pSubGroup c rx k) (pSubNot c rx k)))
          (TParser.alt (pSubSingleM c rx) (TParser.alt (pSubNot c rx k) (pSubGroup c rx k))))
        (TParser.lift (ws (byte 0x29))))

/-- `parse_subfield_not_matcher`, subfield/parser.rs:338-351 -/
def pSubNot (c : Bool) (rx : Bytes → Bool) : Nat → TParser SubMatcher
  | 0 => TParser.fail
  | k + 1 =>
    TParser.map SubMatcher.not
      (TParser.preceded (TParser.lift (ws (byte 0x21)))
        (TParser.alt (pSubGroup c rx k)
          (TParser.alt (TParser.lift (map SubMatcher.single pSubExists)) (pSubNot c rx k))))

end

/-- `parse_subfield_composite_matcher`, subfield/parser.rs:414-423 -/
def pSubComposite (c : Bool) (rx : Bytes → Bool) (k : Nat) : TParser SubMatcher :=
  composite subSyn (subAtoms c rx (pSubGroup c rx k) (pSubNot c rx k))

/-- `parse_subfield_matcher`, subfield/parser.rs:425-439 -/
def pSubMatcher (c : Bool) (rx : Bytes → Bool) : TParser SubMatcher := fun s i =>
  let k := i.length + 1
  match TParser.alt (pSubComposite c rx k)
      (TParser.alt (pSubSingleM c rx) (TParser.alt (pSubGroup c rx k) (pSubNot c rx k))) s i with
  | (some x, s') => (some x, subReset s')
  | (none, s') => (none, s')

/-- `SubfieldMatcher::new`, subfield/mod.rs:1059-1067 -/
def newSub (c : Bool) (rx : Bytes → Bool) (s : Levels) (text : Bytes) : Option SubMatcher × Levels :=
  TParser.parseAll (pSubMatcher c rx) s text

/-- `parse_subfields_matcher_dot`, field/parser.rs:37-59 -/
def pSubfieldsDot (c : Bool) (rx : Bytes → Bool) : Parser FieldSingle :=
  map (fun x => .subfields x.1.1.1 x.1.1.2.1 x.1.1.2.2 (.single x.1.2) (trimEndAscii x.2))
    (withTaken (seq pFieldHead (preceded (byte 0x2E) (pSubSingle c rx))))

/-- `parse_subfields_matcher_dollar`, field/parser.rs:61-84 -/
def pSubfieldsDollar (c : Bool) (rx : Bytes → Bool) : Parser FieldSingle :=
  map (fun x => .subfields x.1.1.1 x.1.1.2.1 x.1.1.2.2 (.single x.1.2) (trimEndAscii x.2))
    (withTaken (seq pFieldHead (preceded (byte 0x24) (pSubSingle c rx))))

/-- `parse_subfields_matcher_bracket`, field/parser.rs:86-107 -/
def pSubfieldsBracket (c : Bool) (rx : Bytes → Bool) : TParser FieldSingle :=
  TParser.map (fun x => .subfields x.1.1.1 x.1.1.2.1 x.1.1.2.2 x.1.2 x.2)
    (TParser.withTaken (TParser.seq (TParser.lift pFieldHead)
      (TParser.delimited (TParser.lift (ws (byte 0x7B))) (pSubMatcher c rx)
        (TParser.lift (ws (byte 0x7D))))))

/-- `parse_singleton_matcher`, field/parser.rs:125-133, with
`parse_subfields_matcher`, lines 111-121 -/
def pFieldSingle (c : Bool) (rx : Bytes → Bool) : TParser FieldSingle :=
  TParser.alt (TParser.lift pFieldExists)
    (TParser.alt (TParser.lift (pSubfieldsDot c rx))
      (TParser.alt (pSubfieldsBracket c rx) (TParser.lift (cfg c (pSubfieldsDollar c rx)))))

/-- `parse_cardinality_matcher`, field/parser.rs:136-165 -/
def pFieldCard (c : Bool) (rx : Bytes → Bool) : TParser FieldCard :=
  TParser.map (fun x => ⟨x.1.1, x.1.2.1, x.1.2.2.1, x.1.2.2.2.1, x.1.2.2.2.2, x.2⟩)
    (TParser.withTaken (TParser.preceded (TParser.lift (ws (byte 0x23)))
      (TParser.seq (TParser.lift (ws pTagMatcher))
        (TParser.seq (TParser.lift (ws pOccMatcher))
          (TParser.seq
            (TParser.opt (TParser.delimited (TParser.lift (ws (byte 0x7B))) (pSubMatcher c rx)
              (TParser.lift (ws (byte 0x7D)))))
            (TParser.lift (seq (verify RelOp.usizeOk (ws pRelOp)) pUsize)))))))

/-- `parse_field_exists_matcher`, field/parser.rs:186-228 -/
def pFieldExistsM (c : Bool) : Parser FieldMatcher :=
  alt (map FieldMatcher.single pFieldExists)
    (map (fun x => .single (.subfields x.1.1 x.1.2.1 x.1.2.2.1 (.single x.1.2.2.2) x.2))
      (withTaken (seq (map Quantifier.orDefault (opt pQuantifier))
        (seq pTagMatcher (seq pOccMatcher
          (alt (preceded (ws (byte 0x2E)) pSubExists) (cfg c (preceded (ws (byte 0x24)) pSubExists))))))))

/-- `parse_field_singleton_matcher`, field/parser.rs:168-174 -/
def pFieldSingleM (c : Bool) (rx : Bytes → Bool) : TParser FieldMatcher :=
  TParser.map FieldMatcher.single (pFieldSingle c rx)

/-- `parse_field_cardinality_matcher`, field/parser.rs:177-183 -/
def pFieldCardM (c : Bool) (rx : Bytes → Bool) : TParser FieldMatcher :=
  TParser.map FieldMatcher.card (pFieldCard c rx)

/-- the tail common to the `atom`s of field/parser.rs:294-304, 314-324, 334-343 -/
def fieldAtoms (c : Bool) (rx : Bytes → Bool) (g n : TParser FieldMatcher) : TParser FieldMatcher :=
  TParser.alt g (TParser.alt (pFieldCardM c rx) (TParser.alt (pFieldSingleM c rx)
    (TParser.alt n (TParser.lift (pFieldExistsM c)))))

mutual

/-- `parse_field_group_matcher`, field/parser.rs:257-273 -/
def pFieldGroup (c : Bool) (rx : Bytes → Bool) : Nat → TParser FieldMatcher
  | 0 => TParser.fail
  | k + 1 =>
    TParser.map FieldMatcher.group
      (TParser.delimited
        (TParser.terminated (TParser.lift (ws (byte 0x28))) fldInc)
        (TParser.alt (composite fieldSyn (fieldAtoms c rx (pFieldGroup c rx k) (pFieldNot c rx k)))
          (TParser.alt (pFieldSingleM c rx) (TParser.alt (pFieldNot c rx k)
            (TParser.alt (pFieldCardM c rx) (pFieldGroup c rx k)))))
        (TParser.terminated (TParser.lift (ws (byte 0x29))) (TParser.update fldDec)))

/-- `parse_field_not_matcher`, field/parser.rs:276-290 -/
def pFieldNot (c : Bool) (rx : Bytes → Bool) : Nat → TParser FieldMatcher
  | 0 => TParser.fail
  | k + 1 =>
    TParser.map FieldMatcher.not
      (TParser.preceded (TParser.lift (ws (byte 0x21)))
        (TParser.alt (pFieldGroup c rx k)
          (TParser.alt (TParser.map FieldMatcher.single (pSubfieldsBracket c rx))
            (TParser.alt (TParser.lift (pFieldExistsM c)) (pFieldNot c rx k)))))

end

/-- `parse_field_composite_matcher`, field/parser.rs:353-362 -/
def pFieldComposite (c : Bool) (rx : Bytes → Bool) (k : Nat) : TParser FieldMatcher :=
  composite fieldSyn (fieldAtoms c rx (pFieldGroup c rx k) (pFieldNot c rx k))

/-- `parse_field_matcher`, field/parser.rs:365-380 -/
def pFieldMatcher (c : Bool) (rx : Bytes → Bool) : TParser FieldMatcher := fun s i =>
  let k := i.length + 1
  match tws (TParser.alt (pFieldComposite c rx k) (TParser.alt (pFieldGroup c rx k)
      (TParser.alt (pFieldNot c rx k) (TParser.alt (pFieldSingleM c rx) (pFieldCardM c rx))))) s i with
  | (some x, s') => (some x, fldReset s')
  | (none, s') => (none, s')

/-- `FieldMatcher::new`, field/mod.rs:432-438, and `RecordMatcher::new`,
matcher/record.rs:35-48 -/
def newField (c : Bool) (rx : Bytes → Bool) (s : Levels) (text : Bytes) : Option FieldMatcher × Levels :=
  TParser.parseAll (pFieldMatcher c rx) s text

/-- `parse_path_simple`, path.rs:80-105 -/
def pPathSimple (c : Bool) : Parser Path :=
  map (fun x => ⟨x.1.1, x.1.2.1, none, [x.1.2.2], x.2⟩)
    (withTaken (ws (seq pTagMatcher (seq pOccMatcher
      (alt (preceded (byte 0x2E) pCodes) (pDollar c))))))

/-- `parse_codes`, path.rs:107-119 -/
def pPathCode (c : Bool) : Parser Bytes := alt pCodes (pDollar c)

/-- the code lists in braces, path.rs:127-136 -/
def pPathCodes (c : Bool) : Parser (List Bytes) :=
  alt (separated1 (pPathCode c) (ws (byte 0x2C)))
    (delimited (ws (byte 0x28)) (separated1 (pPathCode c) (ws (byte 0x2C))) (ws (byte 0x29)))

/-- `opt(preceded(ws('|'), parse_subfield_matcher))`, path.rs:137, fmt/parser.rs:26 -/
def pFilterOpt (c : Bool) (rx : Bytes → Bool) : TParser (Option SubMatcher) :=
  TParser.opt (TParser.preceded (TParser.lift (ws (byte 0x7C))) (pSubMatcher c rx))

/-- `parse_path_curly`, path.rs:121-153 -/
def pPathCurly (c : Bool) (rx : Bytes → Bool) : TParser Path :=
  TParser.map (fun x => ⟨x.1.1, x.1.2.1, x.1.2.2.2, x.1.2.2.1, x.2⟩)
    (TParser.withTaken (tws
      (TParser.seq (TParser.lift pTagMatcher)
        (TParser.seq (TParser.lift pOccMatcher)
          (TParser.delimited (TParser.lift (ws (byte 0x7B)))
            (TParser.seq (TParser.lift (pPathCodes c)) (pFilterOpt c rx))
            (TParser.lift (ws (byte 0x7D))))))))

/-- `parse_path`, path.rs:155-158 -/
def pPath (c : Bool) (rx : Bytes → Bool) : TParser Path :=
  TParser.alt (TParser.lift (pPathSimple c)) (pPathCurly c rx)

/-- `Path::new`, path.rs:57-61 -/
def newPath (c : Bool) (rx : Bytes → Bool) (s : Levels) (text : Bytes) : Option Path × Levels :=
  TParser.parseAll (pPath c rx) s text

/-- `parse_format`, fmt/parser.rs:18-43; the feature changes only the filter -/
def pFormat (c : Bool) (rx : Bytes → Bool) : TParser Format := fun s i =>
  TParser.map (fun x => ⟨x.1.1, x.1.2.1, x.1.2.2.2, trimAscii x.2, x.1.2.2.1⟩)
    (TParser.withTaken
      (TParser.seq (TParser.lift pTagMatcher)
        (TParser.seq (TParser.lift pOccMatcher)
          (TParser.delimited (TParser.lift (ws (byte 0x7B)))
            (TParser.seq (pFragments (i.length + 1)) (pFilterOpt c rx))
            (TParser.lift (ws (byte 0x7D)))))))
    s i

/-- `Format::new`, fmt/mod.rs:48-52 -/
def newFormat (c : Bool) (rx : Bytes → Bool) (s : Levels) (text : Bytes) : Option Format × Levels :=
  TParser.parseAll (pFormat c rx) s text

/-- `parse_fragment`, query.rs:215-222 -/
def pQFragment (c : Bool) (rx : Bytes → Bool) : TParser QFragment :=
  TParser.alt (TParser.map .path (pPath c rx))
    (TParser.alt (TParser.lift (map .literal pString)) (TParser.map .format (pFormat c rx)))

/-- `parse_query`, query.rs:55-66 -/
def pQuery (c : Bool) (rx : Bytes → Bool) : TParser Query :=
  TParser.map (fun x => ⟨x.1, x.2⟩)
    (TParser.withTaken (TParser.separated 1 (pQFragment c rx) (ws (byte 0x2C))))

/-- `Query::new`, query.rs:45-52 -/
def newQuery (c : Bool) (rx : Bytes → Bool) (s : Levels) (text : Bytes) : Option Query × Levels :=
  TParser.parseAll (pQuery c rx) s text

end Compat
end Pica
