import Verif.Model.SubParser

/-!
# Parsers of field and record matchers

Models `src/matcher/field/parser.rs`, `RecordMatcher::new` and
`src/matcher/builder.rs`.
-/

namespace Pica
open Parser

/-- `parse_exists_matcher`, field/parser.rs:26-35 -/
def pFieldExists : Parser FieldSingle :=
  map (fun x => .exists x.1 x.2)
    (terminated (ws (seq pTagMatcher pOccMatcher)) (byte 0x3F))

/-- `(opt(ws(parse_quantifier)), parse_tag_matcher, parse_occurrence_matcher)` -/
def pFieldHead : Parser (Quantifier × TagMatcher × OccMatcher) :=
  seq (map Quantifier.orDefault (opt (ws pQuantifier))) (seq pTagMatcher pOccMatcher)

/-- `parse_subfields_matcher_dot`, field/parser.rs:37-59 -/
def pSubfieldsDot (rx : Bytes → Bool) : Parser FieldSingle :=
  map (fun x => .subfields x.1.1.1 x.1.1.2.1 x.1.1.2.2 (.single x.1.2) (trimEndAscii x.2))
    (withTaken (seq pFieldHead (preceded (byte 0x2E) (pSubSingle rx))))

/-- `parse_subfields_matcher_bracket`, field/parser.rs:86-107 -/
def pSubfieldsBracket (rx : Bytes → Bool) : TParser FieldSingle :=
  TParser.map (fun x => .subfields x.1.1.1 x.1.1.2.1 x.1.1.2.2 x.1.2 x.2)
    (TParser.withTaken (TParser.seq (TParser.lift pFieldHead)
      (TParser.delimited (TParser.lift (ws (byte 0x7B))) (pSubMatcher rx)
        (TParser.lift (ws (byte 0x7D))))))

/-- `parse_singleton_matcher`, field/parser.rs:125-133, with
`parse_subfields_matcher`, lines 111-121 -/
def pFieldSingle (rx : Bytes → Bool) : TParser FieldSingle :=
  TParser.alt (TParser.lift pFieldExists)
    (TParser.alt (TParser.lift (pSubfieldsDot rx)) (pSubfieldsBracket rx))

/-- `parse_cardinality_matcher`, field/parser.rs:136-165 -/
def pFieldCard (rx : Bytes → Bool) : TParser FieldCard :=
  TParser.map (fun x => ⟨x.1.1, x.1.2.1, x.1.2.2.1, x.1.2.2.2.1, x.1.2.2.2.2, x.2⟩)
    (TParser.withTaken (TParser.preceded (TParser.lift (ws (byte 0x23)))
      (TParser.seq (TParser.lift (ws pTagMatcher))
        (TParser.seq (TParser.lift (ws pOccMatcher))
          (TParser.seq
            (TParser.opt (TParser.delimited (TParser.lift (ws (byte 0x7B))) (pSubMatcher rx)
              (TParser.lift (ws (byte 0x7D)))))
            (TParser.lift (seq (verify RelOp.usizeOk (ws pRelOp)) pUsize)))))))

/-- `parse_field_exists_matcher`, field/parser.rs:186-228 -/
def pFieldExistsM : Parser FieldMatcher :=
  alt (map FieldMatcher.single pFieldExists)
    (map (fun x => .single (.subfields x.1.1 x.1.2.1 x.1.2.2.1 (.single x.1.2.2.2) x.2))
      (withTaken (seq (map Quantifier.orDefault (opt pQuantifier))
        (seq pTagMatcher (seq pOccMatcher (preceded (ws (byte 0x2E)) pSubExists))))))

/-- operators of field expressions -/
def fieldSyn : Syn FieldMatcher :=
  ⟨ws (lit (bs "&&")), ws (lit (bs "||")),
    FieldMatcher.bitand, FieldMatcher.bitor, FieldMatcher.bitxor⟩

/-- `group_level_inc`, field/parser.rs:239-248 -/
def fldInc : TParser Unit := fun s i =>
  let s' := { s with fld := s.fld + 1 }
  if s'.fld ≥ 256 then (none, s') else (some ((), i), s')

/-- `group_level_dec`, field/parser.rs:250-254.  The counter is at least 1 when
it is called (see `pFieldGroup`), so the subtraction does not wrap. -/
def fldDec : Levels → Levels := fun s => { s with fld := s.fld - 1 }

/-- `group_level_reset`, field/parser.rs:235-237 -/
def fldReset : Levels → Levels := fun s => { s with fld := 0 }

/-- `parse_field_singleton_matcher`, field/parser.rs:168-174 -/
def pFieldSingleM (rx : Bytes → Bool) : TParser FieldMatcher :=
  TParser.map FieldMatcher.single (pFieldSingle rx)

/-- `parse_field_cardinality_matcher`, field/parser.rs:177-183 -/
def pFieldCardM (rx : Bytes → Bool) : TParser FieldMatcher :=
  TParser.map FieldMatcher.card (pFieldCard rx)

/-- `alt((group, cardinality, singleton, not, exists))`, the tail common to the
`atom`s of field/parser.rs:294-304, 314-324, 334-343 -/
def fieldAtoms (rx : Bytes → Bool) (g n : TParser FieldMatcher) : TParser FieldMatcher :=
  TParser.alt g (TParser.alt (pFieldCardM rx) (TParser.alt (pFieldSingleM rx)
    (TParser.alt n (TParser.lift pFieldExistsM))))

mutual

/-- `parse_field_group_matcher`, field/parser.rs:257-273 -/
def pFieldGroup (rx : Bytes → Bool) : Nat → TParser FieldMatcher
  | 0 => TParser.fail
  | k + 1 =>
    TParser.map FieldMatcher.group
      (TParser.delimited
        (TParser.terminated (TParser.lift (ws (byte 0x28))) fldInc)
        (TParser.alt (composite fieldSyn (fieldAtoms rx (pFieldGroup rx k) (pFieldNot rx k)))
          (TParser.alt (pFieldSingleM rx) (TParser.alt (pFieldNot rx k)
            (TParser.alt (pFieldCardM rx) (pFieldGroup rx k)))))
        (TParser.terminated (TParser.lift (ws (byte 0x29))) (TParser.update fldDec)))

/-- `parse_field_not_matcher`, field/parser.rs:276-290 -/
def pFieldNot (rx : Bytes → Bool) : Nat → TParser FieldMatcher
  | 0 => TParser.fail
  | k + 1 =>
    TParser.map FieldMatcher.not
      (TParser.preceded (TParser.lift (ws (byte 0x21)))
        (TParser.alt (pFieldGroup rx k)
          (TParser.alt (TParser.map FieldMatcher.single (pSubfieldsBracket rx))
            (TParser.alt (TParser.lift pFieldExistsM) (pFieldNot rx k)))))

end

/-- `parse_field_composite_matcher`, with nesting bound -/
def pFieldComposite (rx : Bytes → Bool) (k : Nat) : TParser FieldMatcher :=
  composite fieldSyn (fieldAtoms rx (pFieldGroup rx k) (pFieldNot rx k))

/-- `parse_field_matcher`, field/parser.rs:365-380 -/
def pFieldMatcher (rx : Bytes → Bool) : TParser FieldMatcher := fun s i =>
  let k := i.length + 1
  match tws (TParser.alt (pFieldComposite rx k) (TParser.alt (pFieldGroup rx k)
      (TParser.alt (pFieldNot rx k) (TParser.alt (pFieldSingleM rx) (pFieldCardM rx))))) s i with
  | (some x, s') => (some x, fldReset s')
  | (none, s') => (none, s')

/-- `FieldMatcher::new`, field/mod.rs:432-438, and `RecordMatcher::new`,
matcher/record.rs:35-48 -/
def FieldMatcher.new (rx : Bytes → Bool) (s : Levels) (text : Bytes) :
    Option FieldMatcher × Levels :=
  TParser.parseAll (pFieldMatcher rx) s text

/-- the loops of `RecordMatcherBuilder::and` (28-38), `or` (40-50), `not` (52-62);
`f` is the assignment operator, `none` the error returned by `?`.  The
transformation of the texts is applied by the caller. -/
def builderLoop (rx : Bytes → Bool) (f : FieldMatcher → FieldMatcher → FieldMatcher) :
    List Bytes → Levels → FieldMatcher → Option FieldMatcher × Levels
  | [], s, m => (some m, s)
  | t :: ts, s, m =>
    match FieldMatcher.new rx s t with
    | (some p, s') => builderLoop rx f ts s' (f m p)
    | (none, s') => (none, s')

/-- the builder calls in a chain -/
inductive BuilderCall where
  | and (preds : List Bytes)
  | or (preds : List Bytes)
  | not (preds : List Bytes)
deriving DecidableEq, Repr

/-- one builder call, builder.rs:28-62 -/
def BuilderCall.run (rx : Bytes → Bool) (c : BuilderCall) (s : Levels) (m : FieldMatcher) :
    Option FieldMatcher × Levels :=
  match c with
  | .and ps => builderLoop rx FieldMatcher.bitandAssign ps s m
  | .or ps => builderLoop rx FieldMatcher.bitorAssign ps s m
  | .not ps => builderLoop rx (fun m p => FieldMatcher.bitandAssign m p.bitnot) ps s m

/-- a chain of builder calls with `?` after each -/
def builderCalls (rx : Bytes → Bool) : List BuilderCall → Levels → FieldMatcher →
    Option FieldMatcher × Levels
  | [], s, m => (some m, s)
  | c :: cs, s, m =>
    match c.run rx s m with
    | (some m', s') => builderCalls rx cs s' m'
    | (none, s') => (none, s')

/-- `RecordMatcherBuilder::new(base)?` followed by calls and `build()`,
builder.rs:9-13, 64-66 -/
def RecordMatcher.build (rx : Bytes → Bool) (s : Levels) (base : Bytes) (cs : List BuilderCall) :
    Option FieldMatcher × Levels :=
  match FieldMatcher.new rx s base with
  | (some m, s') => builderCalls rx cs s' m
  | (none, s') => (none, s')

end Pica
