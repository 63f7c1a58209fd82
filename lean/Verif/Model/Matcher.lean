import Verif.Model.TagMatcher

/-!
# Matchers

Models `src/matcher/operator.rs`, `src/matcher/quantifier.rs`,
`src/matcher/subfield/mod.rs`, `src/matcher/field/mod.rs`,
`src/matcher/record.rs` and `src/matcher/builder.rs`.

Evaluation returns `Option Bool`; `none` is a panic (`unreachable!()`,
`unwrap()` on an error).
-/

namespace Pica

/-- `RelationalOp`, operator.rs:8-20 -/
inductive RelOp where
  | eq | ne | gt | ge | lt | le | startsWith | startsNotWith | endsWith | endsNotWith | similar
deriving DecidableEq, Repr

/-- `is_usize_applicable`, operator.rs:46-56 -/
def RelOp.usizeOk : RelOp → Bool
  | .eq | .ne | .ge | .gt | .lt | .le => true
  | _ => false

/-- `is_str_applicable`, operator.rs:81-89 -/
def RelOp.strOk : RelOp → Bool
  | .ge | .gt | .lt | .le => false
  | _ => true

/-- `BooleanOp`, operator.rs:157-162 -/
inductive BoolOp where
  | and | or | xor
deriving DecidableEq, Repr

/-- `Quantifier`, quantifier.rs:6-11 (default `any`) -/
inductive Quantifier where
  | all | any
deriving DecidableEq, Repr

/-- External functions.  They are parameters of the model; nothing is assumed
about them unless a theorem says so. -/
structure Env where
  /-- `bstr::ByteSlice::to_lowercase` -/
  lower : Bytes → Bytes
  /-- `normalized_levenshtein(lhs, rhs) > strsim_threshold`, both sides decoded
  lossily and, if the first argument is set, lowercased; subfield/mod.rs:352-366 -/
  similar : Bool → Bytes → Bytes → Bool
  /-- `RegexBuilder::new(re).case_insensitive(b).build()` and its `is_match` -/
  regex : Bool → Bytes → Option (Bytes → Bool)
  /-- `RegexSetBuilder::new(res).case_insensitive(b).build()` and its `is_match` -/
  regexSet : Bool → List Bytes → Option (Bytes → Bool)

/-- `MatcherOptions`, options.rs:3-8; the similarity threshold is part of
`Env.similar` -/
structure Opts where
  caseIgnore : Bool
deriving DecidableEq, Repr

/-- `Iterator::any` with a closure that may panic -/
def anyP {α : Type} (f : α → Option Bool) : List α → Option Bool
  | [] => some false
  | x :: xs =>
    match f x with
    | none => none
    | some true => some true
    | some false => anyP f xs

/-- `Iterator::all` with a closure that may panic -/
def allP {α : Type} (f : α → Option Bool) : List α → Option Bool
  | [] => some true
  | x :: xs =>
    match f x with
    | none => none
    | some false => some false
    | some true => allP f xs

/-- `match self.quantifier { All => xs.all(f), Any => xs.any(f) }` -/
def Quantifier.run {α : Type} (q : Quantifier) (f : α → Option Bool) (xs : List α) : Option Bool :=
  match q with
  | .all => allP f xs
  | .any => anyP f xs

/-- `bstr::ByteSlice::contains_str` -/
def containsStr : Bytes → Bytes → Bool
  | [], n => n.isEmpty
  | b :: h, n => n.isPrefixOf (b :: h) || containsStr h n

/-- The singleton matchers of subfield/mod.rs: `ExistsMatcher` 29-32,
`RelationMatcher` 126-132, `ContainsMatcher` 393-398, `RegexMatcher` 503-509,
`RegexSetMatcher` 606-612, `InMatcher` 713-719, `CardinalityMatcher` 816-821,
`SingletonMatcher` 926-934.  `raw` is `raw_data`.  The hash set of values of a
`ContainsMatcher` is kept as the list of values it was made from. -/
inductive SubSingle where
  | exists (codes : Bytes) (raw : Bytes)
  | relation (q : Quantifier) (codes : Bytes) (op : RelOp) (value : Bytes) (raw : Bytes)
  | contains (q : Quantifier) (codes : Bytes) (values : List Bytes) (raw : Bytes)
  | regex (q : Quantifier) (codes : Bytes) (re : Bytes) (invert : Bool) (raw : Bytes)
  | regexSet (q : Quantifier) (codes : Bytes) (res : List Bytes) (invert : Bool) (raw : Bytes)
  | isIn (q : Quantifier) (codes : Bytes) (values : List Bytes) (invert : Bool) (raw : Bytes)
  | card (codes : Bytes) (op : RelOp) (value : Nat) (raw : Bytes)
deriving DecidableEq, Repr

namespace SubSingle

/-- `subfields.into_iter().filter(|s| self.codes.contains(s.code()))` -/
def pick (codes : Bytes) (sf : List Subfield) : List Subfield :=
  sf.filter (fun s => codes.contains s.code)

/-- `compare`, subfield/mod.rs:234-244 (`rhs` is the value of the matcher) -/
def compare (E : Env) (o : Opts) (rhs v : Bytes) : Bool :=
  if v.length != rhs.length then false
  else if o.caseIgnore then E.lower rhs == E.lower v
  else rhs == v

/-- `starts_with`, subfield/mod.rs:268-285 -/
def startsWith (E : Env) (o : Opts) (rhs v : Bytes) (invert : Bool) : Bool :=
  let r := if o.caseIgnore then (E.lower rhs).isPrefixOf (E.lower v) else rhs.isPrefixOf v
  if invert then !r else r

/-- `ends_with`, subfield/mod.rs:309-326 -/
def endsWith (E : Env) (o : Opts) (rhs v : Bytes) (invert : Bool) : Bool :=
  let r := if o.caseIgnore then (E.lower rhs).isSuffixOf (E.lower v) else rhs.isSuffixOf v
  if invert then !r else r

/-- the closure `check`, subfield/mod.rs:191-204 -/
def relCheck (E : Env) (o : Opts) (op : RelOp) (rhs v : Bytes) : Option Bool :=
  match op with
  | .eq => some (compare E o rhs v)
  | .ne => some (!compare E o rhs v)
  | .startsWith => some (startsWith E o rhs v false)
  | .startsNotWith => some (startsWith E o rhs v true)
  | .endsWith => some (endsWith E o rhs v false)
  | .endsNotWith => some (endsWith E o rhs v true)
  | .similar => some (E.similar o.caseIgnore rhs v)
  | _ => none

/-- the closure of `ContainsMatcher::is_match`, subfield/mod.rs:460-472 -/
def containsCheck (E : Env) (o : Opts) (values : List Bytes) (v : Bytes) : Bool :=
  if o.caseIgnore then values.any (fun n => containsStr (E.lower v) (E.lower n))
  else values.any (fun n => containsStr v n)

/-- the closure of `InMatcher::is_match`, subfield/mod.rs:774-785 -/
def inCheck (E : Env) (o : Opts) (values : List Bytes) (invert : Bool) (v : Bytes) : Bool :=
  let r := values.any (fun rhs => if o.caseIgnore then E.lower v == E.lower rhs else v == rhs)
  if invert then !r else r

/-- comparison of a count, subfield/mod.rs:889-897 and field/mod.rs:367-375 -/
def cardCheck (op : RelOp) (count value : Nat) : Option Bool :=
  match op with
  | .eq => some (count == value)
  | .ne => some (count != value)
  | .ge => some (decide (count ≥ value))
  | .gt => some (decide (count > value))
  | .le => some (decide (count ≤ value))
  | .lt => some (decide (count < value))
  | _ => none

/-- `SingletonMatcher::is_match`, subfield/mod.rs:984-998, with the `is_match` of
the seven matchers (lines 92, 180, 451, 557, 662, 765, 879) -/
def eval (E : Env) (o : Opts) : SubSingle → List Subfield → Option Bool
  | .exists codes _, sf => some (sf.any (fun s => codes.contains s.code))
  | .relation q codes op value _, sf =>
    q.run (fun s => relCheck E o op value s.value) (pick codes sf)
  | .contains q codes values _, sf =>
    q.run (fun s => some (containsCheck E o values s.value)) (pick codes sf)
  | .regex q codes re invert _, sf =>
    match E.regex o.caseIgnore re with
    | none => none
    | some f => q.run (fun s => some (if invert then !f s.value else f s.value)) (pick codes sf)
  | .regexSet q codes res invert _, sf =>
    match E.regexSet o.caseIgnore res with
    | none => none
    | some f => q.run (fun s => some (if invert then !f s.value else f s.value)) (pick codes sf)
  | .isIn q codes values invert _, sf =>
    q.run (fun s => some (inCheck E o values invert s.value)) (pick codes sf)
  | .card codes op value _, sf => cardCheck op (pick codes sf).length value

end SubSingle

/-- evaluation of `Composite`, subfield/mod.rs:1098-1105, field/mod.rs:471-478:
the right hand side is a thunk -/
def BoolOp.run (op : BoolOp) (l : Option Bool) (r : Unit → Option Bool) : Option Bool :=
  match l with
  | none => none
  | some l =>
    match op with
    | .xor => (r ()).map (fun r => l != r)
    | .and => if l then r () else some false
    | .or => if l then some true else r ()

/-- `SubfieldMatcher`, subfield/mod.rs:1031-1040 -/
inductive SubMatcher where
  | single (m : SubSingle)
  | group (m : SubMatcher)
  | not (m : SubMatcher)
  | comp (lhs : SubMatcher) (op : BoolOp) (rhs : SubMatcher)
deriving DecidableEq, Repr

namespace SubMatcher

/-- `SubfieldMatcher::is_match`, subfield/mod.rs:1087-1107 -/
def eval (E : Env) (o : Opts) : SubMatcher → List Subfield → Option Bool
  | .single m, sf => m.eval E o sf
  | .group m, sf => m.eval E o sf
  | .not m, sf => (m.eval E o sf).map (!·)
  | .comp l op r, sf => op.run (l.eval E o sf) (fun _ => r.eval E o sf)

/-- the closure `maybe_group` of `bitand`, subfield/mod.rs:1174-1184, 1215-1225 -/
def groupOrXor : SubMatcher → SubMatcher
  | .comp l .or r => .group (.comp l .or r)
  | .comp l .xor r => .group (.comp l .xor r)
  | m => m

/-- the closure `maybe_group` of `bitxor`, subfield/mod.rs:1318-1327, 1357-1364 -/
def groupOr : SubMatcher → SubMatcher
  | .comp l .or r => .group (.comp l .or r)
  | m => m

/-- `BitAnd`, subfield/mod.rs:1173-1191 -/
def bitand (a b : SubMatcher) : SubMatcher := .comp (groupOrXor a) .and (groupOrXor b)
/-- `BitAndAssign`, subfield/mod.rs:1214-1232 -/
def bitandAssign (a b : SubMatcher) : SubMatcher := .comp (groupOrXor a) .and (groupOrXor b)
/-- `BitOr`, subfield/mod.rs:1257-1263 -/
def bitor (a b : SubMatcher) : SubMatcher := .comp a .or b
/-- `BitOrAssign`, subfield/mod.rs:1286-1292 -/
def bitorAssign (a b : SubMatcher) : SubMatcher := .comp a .or b
/-- `BitXor`, subfield/mod.rs:1317-1333 -/
def bitxor (a b : SubMatcher) : SubMatcher := .comp (groupOr a) .xor (groupOr b)
/-- `BitXorAssign`, subfield/mod.rs:1356-1371 -/
def bitxorAssign (a b : SubMatcher) : SubMatcher := .comp (groupOr a) .xor (groupOr b)

/-- `Not`, subfield/mod.rs:1398-1405 -/
def bitnot : SubMatcher → SubMatcher
  | .single (.exists c raw) => .not (.single (.exists c raw))
  | .group m => .not (.group m)
  | .not m => .not (.not m)
  | m => .not (.group m)

end SubMatcher

/-- field/mod.rs: `ExistsMatcher` 26-29, `SubfieldsMatcher` 106-112,
`SingletonMatcher` 202-205.  `raw` is `raw_data`. -/
inductive FieldSingle where
  | exists (tag : TagMatcher) (occ : OccMatcher)
  | subfields (q : Quantifier) (tag : TagMatcher) (occ : OccMatcher) (m : SubMatcher) (raw : Bytes)
deriving DecidableEq, Repr

/-- `CardinalityMatcher`, field/mod.rs:291-298 -/
structure FieldCard where
  tag : TagMatcher
  occ : OccMatcher
  sub : Option SubMatcher
  op : RelOp
  value : Nat
  raw : Bytes
deriving DecidableEq, Repr

/-- `iter.filter(f).count()` with a closure that may panic -/
def countP {α : Type} (f : α → Option Bool) : List α → Option Nat
  | [] => some 0
  | x :: xs =>
    match f x with
    | none => none
    | some b => (countP f xs).map (fun n => if b then n + 1 else n)

/-- tag and occurrence of a field match -/
def fieldSel (t : TagMatcher) (oc : OccMatcher) (f : Field) : Bool :=
  t.isMatch f.tag && oc.isMatch f.occ

/-- `SingletonMatcher::is_match`, field/mod.rs:257-266 (`ExistsMatcher` 74-83,
`SubfieldsMatcher` 160-178) -/
def FieldSingle.eval (E : Env) (o : Opts) : FieldSingle → List Field → Option Bool
  | .exists t oc, fs => some (fs.any (fieldSel t oc))
  | .subfields q t oc m _, fs =>
    q.run (fun f => m.eval E o f.subfields) (fs.filter (fieldSel t oc))

/-- `CardinalityMatcher::is_match`, field/mod.rs:347-376 -/
def FieldCard.eval (E : Env) (o : Opts) (m : FieldCard) (fs : List Field) : Option Bool :=
  match countP (fun f =>
      match m.sub with
      | some sm => if fieldSel m.tag m.occ f then sm.eval E o f.subfields else some false
      | none => some (fieldSel m.tag m.occ f)) fs with
  | none => none
  | some n => SubSingle.cardCheck m.op n m.value

/-- `FieldMatcher`, field/mod.rs:401-411 -/
inductive FieldMatcher where
  | single (m : FieldSingle)
  | card (m : FieldCard)
  | group (m : FieldMatcher)
  | not (m : FieldMatcher)
  | comp (lhs : FieldMatcher) (op : BoolOp) (rhs : FieldMatcher)
deriving DecidableEq, Repr

namespace FieldMatcher

/-- `FieldMatcher::is_match`, field/mod.rs:459-480 -/
def eval (E : Env) (o : Opts) : FieldMatcher → List Field → Option Bool
  | .single m, fs => m.eval E o fs
  | .card m, fs => m.eval E o fs
  | .group m, fs => m.eval E o fs
  | .not m, fs => (m.eval E o fs).map (!·)
  | .comp l op r, fs => op.run (l.eval E o fs) (fun _ => r.eval E o fs)

/-- the closure `group` of `bitand`, field/mod.rs:543-553, 584-594 -/
def groupOrXor : FieldMatcher → FieldMatcher
  | .comp l .or r => .group (.comp l .or r)
  | .comp l .xor r => .group (.comp l .xor r)
  | m => m

/-- the closure `group` of `bitxor`, field/mod.rs:691-700, 731-738 -/
def groupOr : FieldMatcher → FieldMatcher
  | .comp l .or r => .group (.comp l .or r)
  | m => m

/-- `BitAnd`, field/mod.rs:542-560 -/
def bitand (a b : FieldMatcher) : FieldMatcher := .comp (groupOrXor a) .and (groupOrXor b)
/-- `BitAndAssign`, field/mod.rs:583-601 -/
def bitandAssign (a b : FieldMatcher) : FieldMatcher := .comp (groupOrXor a) .and (groupOrXor b)
/-- `BitOr`, field/mod.rs:628-634 -/
def bitor (a b : FieldMatcher) : FieldMatcher := .comp a .or b
/-- `BitOrAssign`, field/mod.rs:657-663 -/
def bitorAssign (a b : FieldMatcher) : FieldMatcher := .comp a .or b
/-- `BitXor`, field/mod.rs:690-707 -/
def bitxor (a b : FieldMatcher) : FieldMatcher := .comp (groupOr a) .xor (groupOr b)
/-- `BitXorAssign`, field/mod.rs:730-745 -/
def bitxorAssign (a b : FieldMatcher) : FieldMatcher := .comp (groupOr a) .xor (groupOr b)

/-- `Not`, field/mod.rs:772-787 -/
def bitnot : FieldMatcher → FieldMatcher
  | .single (.subfields q t oc (.single (.exists c raw)) raw') =>
    .not (.single (.subfields q t oc (.single (.exists c raw)) raw'))
  | .group m => .not (.group m)
  | .not m => .not (.not m)
  | m => .not (.group m)

end FieldMatcher

/-- `RecordMatcher(FieldMatcher)`, record.rs:15; operators 99-300 delegate -/
abbrev RecordMatcher := FieldMatcher

/-- `RecordMatcher::is_match`, matcher/record.rs:71-77 -/
def RecordMatcher.isMatch (E : Env) (o : Opts) (m : RecordMatcher) (r : Record) : Option Bool :=
  m.eval E o r

end Pica
