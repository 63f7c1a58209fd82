import Verif.Model.Construct
import Verif.Model.Display
import Verif.Model.Query
import Verif.Model.Similar
import Verif.Model.Trim

/-!
# Oracles for the tests of the repository

The model has parameters for what other crates do (`Env`, `rx`).  The tests of the repository use
the real crates.  Here are small computable stand-ins that are good enough for the inputs of the tests:
lower case of ASCII letters and regular expressions by derivatives.  Similarity, trimming and the text
of a byte string are those of the model.
Nothing is proved about them and no property depends on them.
-/

namespace Pica.Conformance
open Pica

/-! ## regular expressions -/

/-- symbols are bytes; 256 and 257 mark the ends of the text -/
inductive Re
  | none
  | eps
  | sym (neg : Bool) (cs : List (Nat × Nat))
  | seq (a b : Re)
  | alt (a b : Re)
  | star (a : Re)

def Re.nullable : Re → Bool
  | .none => false
  | .eps => true
  | .sym _ _ => false
  | .seq a b => a.nullable && b.nullable
  | .alt a b => a.nullable || b.nullable
  | .star _ => true

def mkSeq : Re → Re → Re
  | .none, _ => .none
  | _, .none => .none
  | .eps, b => b
  | a, b => .seq a b

def mkAlt : Re → Re → Re
  | .none, b => b
  | a, .none => a
  | a, b => .alt a b

def lowerByte (b : Nat) : Nat := if 65 ≤ b ∧ b ≤ 90 then b + 32 else b

def upperByte (b : Nat) : Nat := if 97 ≤ b ∧ b ≤ 122 then b - 32 else b

def Re.deriv (ci : Bool) (c : Nat) : Re → Re
  | .none => .none
  | .eps => .none
  | .sym neg cs =>
    let hit := fun c => cs.any (fun r => decide (r.1 ≤ c) && decide (c ≤ r.2))
    let h := hit c || (ci && (hit (lowerByte c) || hit (upperByte c)))
    if (if neg then !h && decide (c < 256) else h) then .eps else .none
  | .seq a b =>
    let d := mkSeq (a.deriv ci c) b
    if a.nullable then mkAlt d (b.deriv ci c) else d
  | .alt a b => mkAlt (a.deriv ci c) (b.deriv ci c)
  | .star a => mkSeq (a.deriv ci c) (.star a)

def Re.run (ci : Bool) : Re → List Nat → Bool
  | _, [] => false
  | r, c :: cs =>
    let d := r.deriv ci c
    d.nullable || d.run ci cs

/-- a match somewhere in the text -/
def Re.search (ci : Bool) (r : Re) (t : List Nat) : Bool :=
  r.nullable || go r ([256] ++ t ++ [257])
where
  go (r : Re) : List Nat → Bool
    | [] => false
    | c :: cs => r.run ci (c :: cs) || go r cs

mutual
/-- alternatives -/
def pRe : Nat → List Nat → Option (Re × List Nat)
  | 0, _ => none
  | k + 1, i =>
    match pReSeq k i with
    | none => none
    | some (a, 0x7C :: r) => (pRe k r).map (fun x => (.alt a x.1, x.2))
    | some (a, r) => some (a, r)
/-- sequences -/
def pReSeq : Nat → List Nat → Option (Re × List Nat)
  | 0, _ => none
  | k + 1, i =>
    match pReRep k i with
    | none => some (.eps, i)
    | some (a, r) => (pReSeq k r).map (fun x => (.seq a x.1, x.2))
/-- an item with its repetition -/
def pReRep : Nat → List Nat → Option (Re × List Nat)
  | 0, _ => none
  | k + 1, i =>
    match pReAtom k i with
    | none => none
    | some (a, 0x2A :: r) => some (.star a, r)
    | some (a, 0x2B :: r) => some (.seq a (.star a), r)
    | some (a, 0x3F :: r) => some (.alt a .eps, r)
    | some (a, r) => some (a, r)
/-- `^`, `$`, `.`, classes, groups, escapes, letters -/
def pReAtom : Nat → List Nat → Option (Re × List Nat)
  | 0, _ => none
  | k + 1, i =>
    match i with
    | [] => none
    | 0x5E :: r => some (.sym false [(256, 256)], r)
    | 0x24 :: r => some (.sym false [(257, 257)], r)
    | 0x2E :: r => some (.sym true [(10, 10)], r)
    | 0x28 :: r =>
      match pRe k r with
      | some (a, 0x29 :: r') => some (a, r')
      | _ => none
    | 0x5B :: 0x5E :: r => pReClass true [] k r
    | 0x5B :: r => pReClass false [] k r
    | 0x5C :: 0x64 :: r => some (.sym false [(48, 57)], r)
    | 0x5C :: c :: r => some (.sym false [(c, c)], r)
    | c :: r => if c = 0x29 ∨ c = 0x7C ∨ c = 0x2A ∨ c = 0x2B ∨ c = 0x3F then none else some (.sym false [(c, c)], r)
/-- the rest of a class -/
def pReClass (neg : Bool) (acc : List (Nat × Nat)) : Nat → List Nat → Option (Re × List Nat)
  | 0, _ => none
  | k + 1, i =>
    match i with
    | [] => none
    | 0x5D :: r => some (.sym neg acc, r)
    | 0x5B :: _ => none
    | a :: 0x2D :: b :: r =>
      if b = 0x5D then pReClass neg ((a, a) :: (0x2D, 0x2D) :: acc) k (0x5D :: r)
      else pReClass neg ((a, b) :: acc) k r
    | a :: r => pReClass neg ((a, a) :: acc) k r
end

def nats (t : Bytes) : List Nat := t.map UInt8.toNat

/-- the whole expression, with `(?i)` in front -/
def compile (re : Bytes) : Option (Bool × Re) :=
  let t := nats re
  let (ci, t) := match t with
    | 0x28 :: 0x3F :: 0x69 :: 0x29 :: r => (true, r)
    | t => (false, t)
  match pRe (4 * t.length + 8) t with
  | some (a, []) => some (ci, a)
  | _ => none

/-! ## the rest -/

def lowerText (t : Bytes) : Bytes := t.map (fun b => if 65 ≤ b ∧ b ≤ 90 then b + 32 else b)

/-- the score is above the threshold in percent, Model/Similar -/
def similarText (percent : Nat) (ci : Bool) (a b : Bytes) : Bool := decide (percentage percent < simScore lowerText ci a b)

/-- the oracles, with the threshold in percent -/
def env (percent : Nat) : Env where
  lower := lowerText
  similar := similarText percent
  regex := fun ci re => (compile re).map (fun r v => r.2.search (ci || r.1) (nats v))
  regexSet := fun ci res =>
    if res.all (fun re => (compile re).isSome) then
      some (fun v => res.any (fun re => ((compile re).map (fun r => r.2.search (ci || r.1) (nats v))).getD false))
    else none

/-- the expression compiles -/
def rx (re : Bytes) : Bool := (compile re).isSome

/-- the oracles of formats -/
def fenv : FmtEnv where
  toEnv := env 80
  trim := trimText
  upper := fun t => t.map (fun b => if 97 ≤ b ∧ b ≤ 122 then b - 32 else b)

/-! ## how the tests are written -/

/-- `SubfieldMatcher::new(text)` -/
def subNew (text : Bytes) : Option SubMatcher := (SubMatcher.new rx Levels.zero text).1

/-- `FieldMatcher::new(text)`, also `RecordMatcher::new(text)` -/
def fieldNew (text : Bytes) : Option FieldMatcher := (FieldMatcher.new rx Levels.zero text).1

/-- an operator on two matchers that were read -/
def ap2 {α : Type} (f : α → α → α) (a b : Option α) : Option α :=
  match a, b with
  | some x, some y => some (f x y)
  | _, _ => none

/-- `assert!(matcher.is_match(..))` or `assert!(!matcher.is_match(..))` -/
def subHolds (percent : Nat) (ci : Bool) (m : Option SubMatcher) (fs : List Subfield) (r : Bool) : Bool :=
  match m with
  | some m => decide (m.eval (env percent) ⟨ci⟩ fs = some r)
  | none => false

def fieldHolds (percent : Nat) (ci : Bool) (m : Option FieldMatcher) (fs : List Field) (r : Bool) : Bool :=
  match m with
  | some m => decide (m.eval (env percent) ⟨ci⟩ fs = some r)
  | none => false

/-- `assert_eq!` of two values that exist -/
def same {α : Type} [DecidableEq α] (a b : Option α) : Bool :=
  match a, b with
  | some x, some y => decide (x = y)
  | _, _ => false

class Shows (α : Type) where
  text : α → Bytes

instance : Shows SubMatcher := ⟨SubMatcher.display⟩
instance : Shows FieldMatcher := ⟨FieldMatcher.display⟩
instance : Shows TagMatcher := ⟨TagMatcher.display⟩
instance : Shows OccMatcher := ⟨OccMatcher.display⟩

/-- the value exists and is displayed as the text -/
def shown {α : Type} [Shows α] (a : Option α) (text : Bytes) : Bool :=
  match a with
  | some x => decide (Shows.text x = text)
  | none => false

/-- `assert_eq!(p.parse(text).unwrap(), value)` -/
def parsesTo {α : Type} [DecidableEq α] (p : Parser α) (text : Bytes) (a : α) : Bool :=
  decide (Parser.parseAll p text = some a)

/-- `assert!(p.parse(text).is_err())` -/
def rejects {α : Type} (p : Parser α) (text : Bytes) : Bool := (Parser.parseAll p text).isNone

/-- `assert_eq!(p.parse_peek(text).unwrap(), (rest, value))` -/
def peeks {α : Type} [DecidableEq α] (p : Parser α) (text : Bytes) (a : α) (rest : Bytes) : Bool :=
  decide (p text = some (a, rest))

/-- the parsed value has a form and is displayed as the text -/
def parsesAs {α : Type} (p : Parser α) (text : Bytes) (form : α → Bool) (display : α → Bytes) : Bool :=
  match Parser.parseAll p text with
  | some a => form a && decide (display a = text)
  | none => false

/-- the same for parsers with a state; the argument bounds the depth -/
def tparsesAs {α : Type} (p : Nat → TParser α) (text : Bytes) (form : α → Bool) (display : α → Bytes) : Bool :=
  match (TParser.parseAll (p (text.length + 1)) Levels.zero text).1 with
  | some a => form a && decide (display a = text)
  | none => false

def trejects {α : Type} (p : Nat → TParser α) (text : Bytes) : Bool :=
  (TParser.parseAll (p (text.length + 1)) Levels.zero text).1.isNone

def tparsesTo {α : Type} [DecidableEq α] (p : TParser α) (text : Bytes) (a : α) (display : α → Bytes) : Bool :=
  decide ((TParser.parseAll p Levels.zero text).1 = some a) && decide (display a = text)

def lift {α : Type} (p : Parser α) : TParser α := TParser.lift p

def subAtomsAt (k : Nat) : TParser SubMatcher := subAtoms rx (pSubGroup rx k) (pSubNot rx k)

def subAnd (k : Nat) : TParser SubMatcher := andChain subSyn (subAtomsAt k)

def subXor (k : Nat) : TParser SubMatcher := xorChain subSyn (subAtomsAt k)

def subOr (k : Nat) : TParser SubMatcher := orChain subSyn (subAtomsAt k)

/-- `parse_subfields_matcher`, field/parser.rs:111-121 -/
def subfieldsP : TParser FieldSingle := TParser.alt (TParser.lift (pSubfieldsDot rx)) (pSubfieldsBracket rx)

mutual
/-- equality of fragments -/
def fragEq : Fragments → Fragments → Bool
  | .group f b m, .group f' b' m' => fragEq f f' && decide (b = b') && decide (m = m')
  | .value v, .value v' => decide (v = v')
  | .andThen fs, .andThen fs' => fragsEq fs fs'
  | .cons fs, .cons fs' => fragsEq fs fs'
  | _, _ => false
def fragsEq : List Fragments → List Fragments → Bool
  | [], [] => true
  | f :: fs, f' :: fs' => fragEq f f' && fragsEq fs fs'
  | _, _ => false
end

def fparsesTo (p : TParser Fragments) (text : Bytes) (f : Fragments) : Bool :=
  match (TParser.parseAll p Levels.zero text).1 with
  | some a => fragEq a f
  | none => false

/-- `ByteRecord::from_bytes(data)?` -/
def rec (data : Bytes) : Record := (Record.fromBytes data).getD []

/-- `record.path(&path, &options).collect()` -/
def pathIs (path : Bytes) (r : Record) (vs : List Bytes) (string : Bool) : Bool :=
  match (Path.new rx Levels.zero path).1 with
  | some p => decide ((if string then p.stringValues (env 80) ⟨false⟩ r else p.values (env 80) ⟨false⟩ r) = some vs)
  | none => false

def firstIs (path : Bytes) (r : Record) (v : Bytes) : Bool :=
  match (Path.new rx Levels.zero path).1 with
  | some p => decide (p.first (env 80) ⟨false⟩ r = some (some v))
  | none => false

def ppnIs (r : Record) (v : Bytes) : Bool := decide (r.ppn (env 80) ⟨false⟩ = some (some v))

def formatIs (format : Bytes) (r : Record) (vs : List Bytes) : Bool :=
  match (Format.new rx Levels.zero format).1 with
  | some f => decide (f.run fenv ⟨false, false⟩ r = some vs)
  | none => false

def queryIs (query : Bytes) (o : QueryOpts) (r : Record) (rows : List (List Bytes)) : Bool :=
  match (Query.new rx Levels.zero query).1 with
  | some q => decide (q.run fenv o r = some rows)
  | none => false

/-- the file tests/data/ada.dat -/
def adaData : Bytes :=
  [0x30, 0x30, 0x31, 0x41, 0x20, 0x1F, 0x30, 0x30, 0x33, 0x38, 0x36, 0x3A, 0x31, 0x36, 0x2D, 0x30,
   0x33, 0x2D, 0x39, 0x35, 0x1E, 0x30, 0x30, 0x31, 0x42, 0x20, 0x1F, 0x30, 0x38, 0x39, 0x39, 0x39,
   0x3A, 0x32, 0x30, 0x2D, 0x30, 0x37, 0x2D, 0x32, 0x30, 0x1F, 0x74, 0x31, 0x33, 0x3A, 0x31, 0x39,
   0x3A, 0x34, 0x39, 0x2E, 0x30, 0x30, 0x30, 0x1E, 0x30, 0x30, 0x31, 0x44, 0x20, 0x1F, 0x30, 0x39,
   0x39, 0x39, 0x39, 0x3A, 0x30, 0x36, 0x2D, 0x30, 0x34, 0x2D, 0x30, 0x38, 0x1E, 0x30, 0x30, 0x31,
   0x55, 0x20, 0x1F, 0x30, 0x75, 0x74, 0x66, 0x38, 0x1E, 0x30, 0x30, 0x31, 0x58, 0x20, 0x1F, 0x30,
   0x30, 0x1E, 0x30, 0x30, 0x32, 0x40, 0x20, 0x1F, 0x30, 0x54, 0x70, 0x31, 0x1E, 0x30, 0x30, 0x33,
   0x40, 0x20, 0x1F, 0x30, 0x31, 0x31, 0x39, 0x32, 0x33, 0x32, 0x30, 0x32, 0x32, 0x1E, 0x30, 0x30,
   0x33, 0x55, 0x20, 0x1F, 0x61, 0x68, 0x74, 0x74, 0x70, 0x3A, 0x2F, 0x2F, 0x64, 0x2D, 0x6E, 0x62,
   0x2E, 0x69, 0x6E, 0x66, 0x6F, 0x2F, 0x67, 0x6E, 0x64, 0x2F, 0x31, 0x31, 0x39, 0x32, 0x33, 0x32,
   0x30, 0x32, 0x32, 0x1F, 0x7A, 0x68, 0x74, 0x74, 0x70, 0x3A, 0x2F, 0x2F, 0x64, 0x2D, 0x6E, 0x62,
   0x2E, 0x69, 0x6E, 0x66, 0x6F, 0x2F, 0x67, 0x6E, 0x64, 0x2F, 0x31, 0x37, 0x32, 0x36, 0x34, 0x32,
   0x35, 0x33, 0x31, 0x1E, 0x30, 0x30, 0x34, 0x42, 0x20, 0x1F, 0x61, 0x70, 0x69, 0x6B, 0x1E, 0x30,
   0x30, 0x37, 0x4B, 0x20, 0x1F, 0x61, 0x67, 0x6E, 0x64, 0x1F, 0x30, 0x31, 0x31, 0x39, 0x32, 0x33,
   0x32, 0x30, 0x32, 0x32, 0x1E, 0x30, 0x30, 0x37, 0x4E, 0x20, 0x1F, 0x61, 0x67, 0x6E, 0x64, 0x1F,
   0x30, 0x31, 0x37, 0x32, 0x36, 0x34, 0x32, 0x35, 0x33, 0x31, 0x1E, 0x30, 0x30, 0x37, 0x4E, 0x20,
   0x1F, 0x61, 0x70, 0x6E, 0x64, 0x1F, 0x30, 0x31, 0x37, 0x32, 0x36, 0x34, 0x32, 0x35, 0x33, 0x31,
   0x1F, 0x76, 0x7A, 0x67, 0x1E, 0x30, 0x30, 0x37, 0x4E, 0x20, 0x1F, 0x61, 0x70, 0x6E, 0x64, 0x1F,
   0x30, 0x31, 0x31, 0x39, 0x32, 0x33, 0x32, 0x30, 0x32, 0x32, 0x1F, 0x76, 0x7A, 0x67, 0x1E, 0x30,
   0x30, 0x37, 0x4E, 0x20, 0x1F, 0x61, 0x73, 0x77, 0x64, 0x1F, 0x30, 0x34, 0x33, 0x37, 0x30, 0x33,
   0x32, 0x35, 0x2D, 0x32, 0x1F, 0x76, 0x7A, 0x67, 0x1E, 0x30, 0x30, 0x38, 0x41, 0x20, 0x1F, 0x61,
   0x73, 0x1F, 0x61, 0x7A, 0x1F, 0x61, 0x66, 0x1E, 0x30, 0x30, 0x38, 0x42, 0x20, 0x1F, 0x61, 0x77,
   0x1F, 0x61, 0x6B, 0x1F, 0x61, 0x76, 0x1E, 0x30, 0x31, 0x30, 0x45, 0x20, 0x1F, 0x65, 0x72, 0x64,
   0x61, 0x1E, 0x30, 0x32, 0x38, 0x40, 0x20, 0x1F, 0x64, 0x41, 0x64, 0x61, 0x20, 0x4B, 0x2E, 0x1F,
   0x63, 0x6F, 0x66, 0x1F, 0x61, 0x4C, 0x6F, 0x76, 0x65, 0x6C, 0x61, 0x63, 0x65, 0x1E, 0x30, 0x32,
   0x38, 0x40, 0x20, 0x1F, 0x64, 0x41, 0x75, 0x67, 0x75, 0x73, 0x74, 0x61, 0x20, 0x41, 0x64, 0x61,
   0x1F, 0x63, 0x6F, 0x66, 0x1F, 0x61, 0x4C, 0x6F, 0x76, 0x65, 0x6C, 0x61, 0x63, 0x65, 0x1E, 0x30,
   0x32, 0x38, 0x40, 0x20, 0x1F, 0x64, 0x41, 0x64, 0x61, 0x20, 0x41, 0x75, 0x67, 0x75, 0x73, 0x74,
   0x61, 0x1F, 0x63, 0x6F, 0x66, 0x1F, 0x61, 0x4C, 0x6F, 0x76, 0x65, 0x6C, 0x61, 0x63, 0x65, 0x1E,
   0x30, 0x32, 0x38, 0x40, 0x20, 0x1F, 0x64, 0x41, 0x64, 0x61, 0x1F, 0x61, 0x42, 0x79, 0x72, 0x6F,
   0x6E, 0x1E, 0x30, 0x32, 0x38, 0x40, 0x20, 0x1F, 0x64, 0x41, 0x75, 0x67, 0x75, 0x73, 0x74, 0x61,
   0x20, 0x41, 0x64, 0x61, 0x1F, 0x61, 0x42, 0x79, 0x72, 0x6F, 0x6E, 0x20, 0x4B, 0x69, 0x6E, 0x67,
   0x1E, 0x30, 0x32, 0x38, 0x40, 0x20, 0x1F, 0x64, 0x41, 0x75, 0x67, 0x75, 0x73, 0x74, 0x61, 0x20,
   0x41, 0x64, 0x61, 0x1F, 0x61, 0x4B, 0x69, 0x6E, 0x67, 0x1E, 0x30, 0x32, 0x38, 0x40, 0x20, 0x1F,
   0x64, 0x41, 0x64, 0x61, 0x1F, 0x61, 0x4B, 0x69, 0x6E, 0x67, 0x1E, 0x30, 0x32, 0x38, 0x40, 0x20,
   0x1F, 0x64, 0x41, 0x64, 0x61, 0x20, 0x41, 0x75, 0x67, 0x75, 0x73, 0x74, 0x61, 0x1F, 0x61, 0x42,
   0x79, 0x72, 0x6F, 0x6E, 0x1F, 0x34, 0x6E, 0x61, 0x66, 0x72, 0x1E, 0x30, 0x32, 0x38, 0x40, 0x20,
   0x1F, 0x64, 0x41, 0x75, 0x67, 0x75, 0x73, 0x74, 0x61, 0x20, 0x41, 0x64, 0x61, 0x1F, 0x61, 0x42,
   0x79, 0x72, 0x6F, 0x6E, 0x1E, 0x30, 0x32, 0x38, 0x40, 0x20, 0x1F, 0x64, 0x41, 0x64, 0x61, 0x1F,
   0x61, 0x42, 0x79, 0x72, 0x6F, 0x6E, 0x20, 0x4C, 0x6F, 0x76, 0x65, 0x6C, 0x61, 0x63, 0x65, 0x1E,
   0x30, 0x32, 0x38, 0x40, 0x20, 0x1F, 0x64, 0x41, 0x64, 0x61, 0x1F, 0x61, 0x4C, 0x6F, 0x76, 0x65,
   0x6C, 0x61, 0x63, 0x65, 0x1E, 0x30, 0x32, 0x38, 0x40, 0x20, 0x1F, 0x64, 0x41, 0x64, 0x61, 0x20,
   0x4B, 0x69, 0x6E, 0x67, 0x2C, 0x20, 0x43, 0x6F, 0x75, 0x6E, 0x74, 0x65, 0x73, 0x73, 0x20, 0x6F,
   0x66, 0x1F, 0x61, 0x4C, 0x6F, 0x76, 0x65, 0x6C, 0x61, 0x63, 0x65, 0x1E, 0x30, 0x32, 0x38, 0x40,
   0x20, 0x1F, 0x64, 0x41, 0x75, 0x67, 0x75, 0x73, 0x74, 0x61, 0x20, 0x41, 0x64, 0x61, 0x20, 0x4B,
   0x69, 0x6E, 0x67, 0x1F, 0x61, 0x4C, 0x6F, 0x76, 0x65, 0x6C, 0x61, 0x63, 0x65, 0x1E, 0x30, 0x32,
   0x38, 0x40, 0x20, 0x1F, 0x64, 0x41, 0x75, 0x67, 0x75, 0x73, 0x74, 0x61, 0x20, 0x41, 0x64, 0x61,
   0x1F, 0x61, 0x4C, 0x6F, 0x76, 0x65, 0x6C, 0x61, 0x63, 0x65, 0x1E, 0x30, 0x32, 0x38, 0x41, 0x20,
   0x1F, 0x64, 0x41, 0x64, 0x61, 0x20, 0x4B, 0x69, 0x6E, 0x67, 0x1F, 0x63, 0x6F, 0x66, 0x1F, 0x61,
   0x4C, 0x6F, 0x76, 0x65, 0x6C, 0x61, 0x63, 0x65, 0x1E, 0x30, 0x32, 0x38, 0x52, 0x20, 0x1F, 0x39,
   0x31, 0x31, 0x38, 0x35, 0x31, 0x38, 0x32, 0x30, 0x38, 0x1F, 0x37, 0x54, 0x70, 0x31, 0x1F, 0x56,
   0x70, 0x69, 0x7A, 0x1F, 0x41, 0x67, 0x6E, 0x64, 0x1F, 0x30, 0x31, 0x31, 0x38, 0x35, 0x31, 0x38,
   0x32, 0x30, 0x38, 0x1F, 0x45, 0x31, 0x37, 0x38, 0x38, 0x1F, 0x47, 0x31, 0x38, 0x32, 0x34, 0x1F,
   0x64, 0x47, 0x65, 0x6F, 0x72, 0x67, 0x65, 0x20, 0x47, 0x6F, 0x72, 0x64, 0x6F, 0x6E, 0x20, 0x42,
   0x79, 0x72, 0x6F, 0x6E, 0x1F, 0x61, 0x42, 0x79, 0x72, 0x6F, 0x6E, 0x1F, 0x6C, 0x42, 0x61, 0x72,
   0x6F, 0x6E, 0x1F, 0x34, 0x62, 0x65, 0x7A, 0x66, 0x1F, 0x76, 0x56, 0x61, 0x74, 0x65, 0x72, 0x1E,
   0x30, 0x32, 0x38, 0x52, 0x20, 0x1F, 0x39, 0x31, 0x31, 0x38, 0x36, 0x33, 0x38, 0x31, 0x33, 0x30,
   0x1F, 0x37, 0x54, 0x70, 0x31, 0x1F, 0x56, 0x70, 0x69, 0x7A, 0x1F, 0x41, 0x67, 0x6E, 0x64, 0x1F,
   0x30, 0x31, 0x31, 0x38, 0x36, 0x33, 0x38, 0x31, 0x33, 0x30, 0x1F, 0x45, 0x31, 0x37, 0x39, 0x32,
   0x1F, 0x47, 0x31, 0x38, 0x36, 0x30, 0x1F, 0x64, 0x41, 0x6E, 0x6E, 0x65, 0x20, 0x49, 0x73, 0x61,
   0x62, 0x65, 0x6C, 0x6C, 0x61, 0x20, 0x4D, 0x69, 0x6C, 0x62, 0x61, 0x6E, 0x6B, 0x65, 0x20, 0x42,
   0x79, 0x72, 0x6F, 0x6E, 0x1F, 0x61, 0x42, 0x79, 0x72, 0x6F, 0x6E, 0x1F, 0x34, 0x62, 0x65, 0x7A,
   0x66, 0x1F, 0x76, 0x4D, 0x75, 0x74, 0x74, 0x65, 0x72, 0x1E, 0x30, 0x32, 0x38, 0x52, 0x20, 0x1F,
   0x39, 0x31, 0x31, 0x39, 0x33, 0x38, 0x39, 0x39, 0x39, 0x31, 0x1F, 0x37, 0x54, 0x70, 0x31, 0x1F,
   0x56, 0x70, 0x69, 0x7A, 0x1F, 0x41, 0x67, 0x6E, 0x64, 0x1F, 0x30, 0x31, 0x31, 0x39, 0x33, 0x38,
   0x39, 0x39, 0x39, 0x31, 0x1F, 0x45, 0x31, 0x38, 0x33, 0x37, 0x1F, 0x47, 0x31, 0x39, 0x31, 0x37,
   0x1F, 0x64, 0x41, 0x6E, 0x6E, 0x65, 0x20, 0x49, 0x73, 0x61, 0x62, 0x65, 0x6C, 0x6C, 0x61, 0x1F,
   0x61, 0x42, 0x6C, 0x75, 0x6E, 0x74, 0x1F, 0x34, 0x62, 0x65, 0x7A, 0x66, 0x1F, 0x76, 0x54, 0x6F,
   0x63, 0x68, 0x74, 0x65, 0x72, 0x1E, 0x30, 0x32, 0x38, 0x52, 0x20, 0x1F, 0x64, 0x77, 0x69, 0x6C,
   0x6C, 0x69, 0x61, 0x6D, 0x1F, 0x61, 0x6B, 0x69, 0x6E, 0x67, 0x1F, 0x34, 0x62, 0x65, 0x7A, 0x66,
   0x1E, 0x30, 0x33, 0x32, 0x54, 0x20, 0x1F, 0x61, 0x66, 0x1E, 0x30, 0x34, 0x31, 0x52, 0x20, 0x1F,
   0x39, 0x30, 0x34, 0x32, 0x35, 0x32, 0x37, 0x38, 0x38, 0x30, 0x1F, 0x37, 0x54, 0x73, 0x31, 0x1F,
   0x56, 0x73, 0x61, 0x7A, 0x1F, 0x41, 0x67, 0x6E, 0x64, 0x1F, 0x30, 0x34, 0x32, 0x35, 0x32, 0x37,
   0x38, 0x38, 0x2D, 0x30, 0x1F, 0x61, 0x4D, 0x61, 0x74, 0x68, 0x65, 0x6D, 0x61, 0x74, 0x69, 0x6B,
   0x65, 0x72, 0x69, 0x6E, 0x1F, 0x34, 0x62, 0x65, 0x72, 0x63, 0x1E, 0x30, 0x34, 0x32, 0x41, 0x20,
   0x1F, 0x61, 0x32, 0x38, 0x70, 0x1F, 0x61, 0x39, 0x2E, 0x35, 0x70, 0x1E, 0x30, 0x34, 0x32, 0x42,
   0x20, 0x1F, 0x61, 0x58, 0x41, 0x2D, 0x47, 0x42, 0x1E, 0x30, 0x34, 0x37, 0x41, 0x2F, 0x30, 0x33,
   0x20, 0x1F, 0x65, 0x44, 0x45, 0x2D, 0x33, 0x38, 0x36, 0x1E, 0x30, 0x34, 0x37, 0x41, 0x2F, 0x30,
   0x33, 0x20, 0x1F, 0x72, 0x44, 0x45, 0x2D, 0x35, 0x37, 0x36, 0x1E, 0x30, 0x34, 0x37, 0x43, 0x20,
   0x1F, 0x53, 0x70, 0x6E, 0x64, 0x1F, 0x69, 0x61, 0x1F, 0x61, 0x4C, 0x6F, 0x76, 0x65, 0x6C, 0x61,
   0x63, 0x65, 0x2C, 0x20, 0x41, 0x64, 0x61, 0x20, 0x4B, 0x69, 0x6E, 0x67, 0x20, 0x2F, 0x6F, 0x66,
   0x1F, 0x30, 0x31, 0x31, 0x39, 0x32, 0x33, 0x32, 0x30, 0x32, 0x32, 0x1E, 0x30, 0x34, 0x37, 0x43,
   0x20, 0x1F, 0x53, 0x70, 0x6E, 0x64, 0x1F, 0x69, 0x61, 0x1F, 0x61, 0x4C, 0x6F, 0x76, 0x65, 0x6C,
   0x61, 0x63, 0x65, 0x2C, 0x20, 0x41, 0x64, 0x61, 0x20, 0x4B, 0x2E, 0x20, 0x2F, 0x6F, 0x66, 0x1F,
   0x30, 0x31, 0x37, 0x32, 0x36, 0x34, 0x32, 0x35, 0x33, 0x31, 0x1E, 0x30, 0x35, 0x30, 0x43, 0x20,
   0x1F, 0x61, 0x44, 0x65, 0x72, 0x20, 0x45, 0x68, 0x65, 0x6D, 0x61, 0x6E, 0x6E, 0x20, 0x42, 0x61,
   0x72, 0x6F, 0x6E, 0x20, 0x57, 0x69, 0x6C, 0x6C, 0x69, 0x61, 0x6D, 0x20, 0x4B, 0x69, 0x6E, 0x67,
   0x20, 0x28, 0x31, 0x38, 0x30, 0x35, 0x2D, 0x31, 0x38, 0x39, 0x33, 0x29, 0x20, 0x77, 0x75, 0x72,
   0x64, 0x65, 0x20, 0x31, 0x38, 0x33, 0x38, 0x20, 0x7A, 0x75, 0x6D, 0x20, 0x31, 0x2E, 0x20, 0x45,
   0x61, 0x72, 0x6C, 0x20, 0x6F, 0x66, 0x20, 0x4C, 0x6F, 0x76, 0x65, 0x6C, 0x61, 0x63, 0x65, 0x20,
   0x65, 0x72, 0x68, 0x6F, 0x62, 0x65, 0x6E, 0x2E, 0x1E, 0x30, 0x35, 0x30, 0x45, 0x20, 0x1F, 0x61,
   0x4C, 0x6F, 0x43, 0x2D, 0x4E, 0x61, 0x20, 0x67, 0x65, 0x67, 0x65, 0x6E, 0x20, 0x4D, 0x6F, 0x64,
   0x65, 0x72, 0x6E, 0x20, 0x45, 0x6E, 0x67, 0x6C, 0x2E, 0x20, 0x62, 0x69, 0x6F, 0x67, 0x72, 0x2E,
   0x1E, 0x30, 0x35, 0x30, 0x45, 0x20, 0x1F, 0x61, 0x68, 0x74, 0x74, 0x70, 0x73, 0x3A, 0x2F, 0x2F,
   0x64, 0x65, 0x2E, 0x77, 0x69, 0x6B, 0x69, 0x70, 0x65, 0x64, 0x69, 0x61, 0x2E, 0x6F, 0x72, 0x67,
   0x2F, 0x77, 0x69, 0x6B, 0x69, 0x2F, 0x41, 0x64, 0x61, 0x5F, 0x4C, 0x6F, 0x76, 0x65, 0x6C, 0x61,
   0x63, 0x65, 0x1E, 0x30, 0x35, 0x30, 0x45, 0x20, 0x1F, 0x61, 0x4C, 0x43, 0x41, 0x75, 0x74, 0x68,
   0x2C, 0x20, 0x28, 0x4F, 0x47, 0x4E, 0x44, 0x29, 0x1E, 0x30, 0x35, 0x30, 0x47, 0x20, 0x1F, 0x62,
   0x42, 0x72, 0x69, 0x74, 0x2E, 0x20, 0x4D, 0x61, 0x74, 0x68, 0x65, 0x6D, 0x61, 0x74, 0x69, 0x6B,
   0x65, 0x72, 0x69, 0x6E, 0x3B, 0x20, 0x43, 0x6F, 0x75, 0x6E, 0x74, 0x65, 0x73, 0x73, 0x20, 0x6F,
   0x66, 0x20, 0x4C, 0x6F, 0x76, 0x65, 0x6C, 0x61, 0x63, 0x65, 0x1E, 0x30, 0x35, 0x30, 0x47, 0x20,
   0x1F, 0x62, 0x49, 0x6E, 0x66, 0x6F, 0x72, 0x6D, 0x61, 0x74, 0x69, 0x6B, 0x65, 0x72, 0x69, 0x6E,
   0x2C, 0x20, 0x4D, 0x61, 0x74, 0x68, 0x65, 0x6D, 0x61, 0x74, 0x69, 0x6B, 0x65, 0x72, 0x69, 0x6E,
   0x2C, 0x20, 0x47, 0x72, 0x6F, 0x73, 0x73, 0x62, 0x72, 0x69, 0x74, 0x61, 0x6E, 0x6E, 0x69, 0x65,
   0x6E, 0x1E, 0x30, 0x36, 0x30, 0x52, 0x20, 0x1F, 0x61, 0x31, 0x30, 0x2E, 0x31, 0x32, 0x2E, 0x31,
   0x38, 0x31, 0x35, 0x1F, 0x62, 0x32, 0x37, 0x2E, 0x31, 0x32, 0x2E, 0x31, 0x38, 0x35, 0x32, 0x1F,
   0x34, 0x64, 0x61, 0x74, 0x78, 0x1E, 0x30, 0x36, 0x30, 0x52, 0x20, 0x1F, 0x61, 0x31, 0x38, 0x31,
   0x35, 0x1F, 0x62, 0x31, 0x38, 0x35, 0x32, 0x1F, 0x34, 0x64, 0x61, 0x74, 0x6C, 0x1E, 0x30, 0x36,
   0x35, 0x52, 0x20, 0x1F, 0x39, 0x30, 0x34, 0x30, 0x37, 0x34, 0x33, 0x33, 0x35, 0x37, 0x1F, 0x37,
   0x54, 0x67, 0x7A, 0x1F, 0x56, 0x67, 0x69, 0x6B, 0x1F, 0x41, 0x67, 0x6E, 0x64, 0x1F, 0x30, 0x34,
   0x30, 0x37, 0x34, 0x33, 0x33, 0x35, 0x2D, 0x34, 0x1F, 0x61, 0x4C, 0x6F, 0x6E, 0x64, 0x6F, 0x6E,
   0x1F, 0x34, 0x6F, 0x72, 0x74, 0x67, 0x1E, 0x30, 0x36, 0x35, 0x52, 0x20, 0x1F, 0x39, 0x30, 0x34,
   0x30, 0x37, 0x34, 0x33, 0x33, 0x35, 0x37, 0x1F, 0x37, 0x54, 0x67, 0x7A, 0x1F, 0x56, 0x67, 0x69,
   0x6B, 0x1F, 0x41, 0x67, 0x6E, 0x64, 0x1F, 0x30, 0x34, 0x30, 0x37, 0x34, 0x33, 0x33, 0x35, 0x2D,
   0x34, 0x1F, 0x61, 0x4C, 0x6F, 0x6E, 0x64, 0x6F, 0x6E, 0x1F, 0x34, 0x6F, 0x72, 0x74, 0x73, 0x1E,
   0x30, 0x37, 0x30, 0x41, 0x2F, 0x30, 0x33, 0x20, 0x1F, 0x30, 0x28, 0x44, 0x45, 0x2D, 0x35, 0x38,
   0x38, 0x29, 0x31, 0x31, 0x39, 0x32, 0x33, 0x32, 0x30, 0x32, 0x32, 0x1E, 0x0A]

/-- `ada_lovelace()` as a record -/
def ada : Record := rec adaData

end Pica.Conformance
