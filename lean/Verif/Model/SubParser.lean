import Verif.Model.Lexical

/-!
# Parsers of subfield matchers

Models `src/matcher/subfield/parser.rs`.  `rx` is the test `Regex::new(s).is_ok()`.
-/

namespace Pica
open Parser

/-- `parse_exists_matcher`, subfield/parser.rs:25-35 -/
def pSubExists : Parser SubSingle :=
  map (fun x => .exists x.1 x.2) (withTaken (terminated pCodes (byte 0x3F)))

/-- `parse_relation_matcher`, subfield/parser.rs:39-71 -/
def pSubRelation : Parser SubSingle :=
  map (fun x => .relation x.1.1 x.1.2.1 x.1.2.2.1 x.1.2.2.2 (trimAscii x.2))
    (withTaken
      (seq (map Quantifier.orDefault (opt (ws (terminated pQuantifier multispace1))))
        (seq (ws pCodes)
          (seq (verify RelOp.strOk (ws pRelOp)) (ws pString)))))

/-- `delimited(ws('['), terminated(separated(1.., p, ws(',')), opt(ws(','))), ws(']'))` -/
def pBracketList {α : Type} (p : Parser α) : Parser (List α) :=
  delimited (ws (byte 0x5B))
    (terminated (separated1 p (ws (byte 0x2C))) (opt (ws (byte 0x2C))))
    (ws (byte 0x5D))

/-- `parse_contains_matcher`, subfield/parser.rs:74-117 -/
def pSubContains : Parser SubSingle :=
  map (fun x => .contains x.1.1 x.1.2.1 x.1.2.2.2 x.2)
    (withTaken
      (seq (map Quantifier.orDefault (opt (ws pQuantifier)))
        (seq (ws pCodes)
          (seq (ws (lit (bs "=?")))
            (alt (pBracketList pString) (map (fun v => [v]) (ws pString)))))))

/-- `alt(("=~".value(false), "!~".value(true)))` -/
def pRegexOp : Parser Bool := alt (value false (lit (bs "=~"))) (value true (lit (bs "!~")))

/-- `parse_regex_matcher`, subfield/parser.rs:120-143 -/
def pSubRegex (rx : Bytes → Bool) : Parser SubSingle :=
  map (fun x => .regex x.1.1 x.1.2.1 x.1.2.2.2 x.1.2.2.1 x.2)
    (withTaken
      (seq (map Quantifier.orDefault (opt (ws pQuantifier)))
        (seq (ws pCodes) (seq (ws pRegexOp) (verify rx pString)))))

/-- `parse_regex_set_matcher`, subfield/parser.rs:146-182 -/
def pSubRegexSet (rx : Bytes → Bool) : Parser SubSingle :=
  map (fun x => .regexSet x.1.1 x.1.2.1 x.1.2.2.2 x.1.2.2.1 x.2)
    (withTaken
      (seq (map Quantifier.orDefault (opt (ws pQuantifier)))
        (seq (ws pCodes) (seq (ws pRegexOp) (pBracketList (verify rx pString))))))

/-- the closure of lines 203-210: the characters of a string of at least two -/
def charsOf (s : Bytes) : Option (List Bytes) :=
  if (utf8Chars s).length > 1 then some (utf8Chars s) else none

/-- `parse_in_matcher`, subfield/parser.rs:185-227 -/
def pSubIn : Parser SubSingle :=
  map (fun x => .isIn x.1.1 x.1.2.1 x.1.2.2.2 x.1.2.2.1 x.2)
    (withTaken
      (seq (map Quantifier.orDefault (opt (ws pQuantifier)))
        (seq (ws pCodes)
          (seq (map Option.isSome (opt (ws (lit (bs "not")))))
            (preceded (ws (lit (bs "in")))
              (alt (pBracketList pString) (verifyMap charsOf pString)))))))

/-- `parse_cardinality_matcher`, subfield/parser.rs:230-256 -/
def pSubCard : Parser SubSingle :=
  map (fun x => .card x.1.1 x.1.2.1 x.1.2.2 x.2)
    (withTaken
      (preceded (ws (byte 0x23))
        (seq (ws pCodes) (seq (verify RelOp.usizeOk (ws pRelOp)) pUsize))))

/-- `parse_singleton_matcher`, subfield/parser.rs:259-272 -/
def pSubSingle (rx : Bytes → Bool) : Parser SubSingle :=
  alt pSubRelation (alt pSubContains (alt pSubIn (alt pSubExists (alt pSubCard
    (alt (pSubRegexSet rx) (pSubRegex rx))))))

/-! ## Expressions

The subfield and the field parsers have the same shape.  `Syntax` collects what
differs; `atoms` below is the common tail of the `alt`s (group, singleton, ...).
-/

/-- operators of an expression language with values in `M` -/
structure Syn (M : Type) where
  opAnd : Parser Unit
  opOr : Parser Unit
  band : M → M → M
  bor : M → M → M
  bxor : M → M → M

/-- `(atom, repeat(1.., preceded(op, atom))).map(fold)` -/
def chain {M : Type} (op : Parser Unit) (atom : TParser M) (f : M → M → M) : TParser M :=
  TParser.map (fun x => x.2.foldl f x.1)
    (TParser.seq atom (TParser.repeat1 (TParser.preceded (TParser.lift op) atom)))

/-- `alt(("^", "XOR"))` -/
def pXorOp : Parser Unit := alt (lit (bs "^")) (lit (bs "XOR"))

/-- `parse_subfield_and_matcher`, subfield/parser.rs:394-411;
`parse_field_and_matcher`, field/parser.rs:333-350 -/
def andChain {M : Type} (S : Syn M) (atoms : TParser M) : TParser M :=
  chain S.opAnd (tws atoms) S.band

/-- `parse_subfield_xor_matcher`, subfield/parser.rs:374-392;
`parse_field_xor_matcher`, field/parser.rs:313-331 -/
def xorChain {M : Type} (S : Syn M) (atoms : TParser M) : TParser M :=
  chain pXorOp (tws (TParser.alt (andChain S atoms) atoms)) S.bxor

/-- `parse_subfield_or_matcher`, subfield/parser.rs:353-372;
`parse_field_or_matcher`, field/parser.rs:292-311 -/
def orChain {M : Type} (S : Syn M) (atoms : TParser M) : TParser M :=
  chain S.opOr
    (tws (TParser.alt (andChain S atoms) (TParser.alt (xorChain S atoms) atoms))) S.bor

/-- `parse_subfield_composite_matcher`, subfield/parser.rs:414-423;
`parse_field_composite_matcher`, field/parser.rs:353-362 -/
def composite {M : Type} (S : Syn M) (atoms : TParser M) : TParser M :=
  TParser.alt (orChain S atoms) (TParser.alt (xorChain S atoms) (andChain S atoms))

/-! ## Subfield expressions -/

/-- operators of subfield expressions -/
def subSyn : Syn SubMatcher :=
  ⟨lit (bs "&&"), lit (bs "||"), SubMatcher.bitand, SubMatcher.bitor, SubMatcher.bitxor⟩

/-- `group_level_inc`, subfield/parser.rs:292-301 -/
def subInc : TParser Unit := fun s i =>
  let s' := { s with sub := s.sub + 1 }
  if s'.sub ≥ 256 then (none, s') else (some ((), i), s')

/-- `group_level_reset`, subfield/parser.rs:288-290 -/
def subReset : Levels → Levels := fun s => { s with sub := 0 }

/-- `parse_subfield_singleton_matcher`, subfield/parser.rs:275-281 -/
def pSubSingleM (rx : Bytes → Bool) : TParser SubMatcher :=
  TParser.lift (map SubMatcher.single (pSubSingle rx))

/-- `alt((group, singleton, not))`, the tail common to the `atom`s -/
def subAtoms (rx : Bytes → Bool) (g n : TParser SubMatcher) : TParser SubMatcher :=
  TParser.alt g (TParser.alt (pSubSingleM rx) n)

mutual

/-- `parse_subfield_group_matcher`, subfield/parser.rs:310-325.  The closing
parenthesis is mapped with `|_| group_level_dec`, which does not call
`group_level_dec`.  The first argument bounds the nesting depth; every level
consumes a byte, so the length of the input suffices. -/
def pSubGroup (rx : Bytes → Bool) : Nat → TParser SubMatcher
  | 0 => TParser.fail
  | k + 1 =>
    TParser.map SubMatcher.group
      (TParser.delimited
        (TParser.terminated (TParser.lift (ws (byte 0x28))) subInc)
        (TParser.alt (composite subSyn (subAtoms rx (pSubGroup rx k) (pSubNot rx k)))
          (TParser.alt (pSubSingleM rx) (TParser.alt (pSubNot rx k) (pSubGroup rx k))))
        (TParser.lift (ws (byte 0x29))))

/-- `parse_subfield_not_matcher`, subfield/parser.rs:338-351 -/
def pSubNot (rx : Bytes → Bool) : Nat → TParser SubMatcher
  | 0 => TParser.fail
  | k + 1 =>
    TParser.map SubMatcher.not
      (TParser.preceded (TParser.lift (ws (byte 0x21)))
        (TParser.alt (pSubGroup rx k)
          (TParser.alt (TParser.lift (map SubMatcher.single pSubExists)) (pSubNot rx k))))

end

/-- `parse_subfield_composite_matcher`, with nesting bound -/
def pSubComposite (rx : Bytes → Bool) (k : Nat) : TParser SubMatcher :=
  composite subSyn (subAtoms rx (pSubGroup rx k) (pSubNot rx k))

/-- `parse_subfield_matcher`, subfield/parser.rs:425-439 -/
def pSubMatcher (rx : Bytes → Bool) : TParser SubMatcher := fun s i =>
  let k := i.length + 1
  match TParser.alt (pSubComposite rx k)
      (TParser.alt (pSubSingleM rx) (TParser.alt (pSubGroup rx k) (pSubNot rx k))) s i with
  | (some x, s') => (some x, subReset s')
  | (none, s') => (none, s')

/-- `SubfieldMatcher::new`, subfield/mod.rs:1059-1067 -/
def SubMatcher.new (rx : Bytes → Bool) (s : Levels) (text : Bytes) : Option SubMatcher × Levels :=
  TParser.parseAll (pSubMatcher rx) s text

end Pica
