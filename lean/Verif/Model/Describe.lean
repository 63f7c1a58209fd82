import Verif.Model.Command
import Verif.Base.Order

/-! Models `crates/pica-cli/src/commands/describe.rs`. -/

namespace Pica

/-- the map `fields`, describe.rs:66-67: lists with distinct keys -/
abbrev TagTable := List (Bytes × List (Byte × Nat))

/-- `entry(code).and_modify(|e| *e += 1).or_insert(1)`, describe.rs:103-106; overflow
is not modelled -/
def codeAdd (t : List (Byte × Nat)) (code : Byte) : List (Byte × Nat) :=
  if t.any (fun x => x.1 == code) then t.map (fun x => if x.1 == code then (x.1, x.2 + 1) else x)
  else t ++ [(code, 1)]

/-- one field, describe.rs:95-107 -/
def fieldAdd (t : TagTable) (f : Field) : TagTable :=
  let codes := f.subfields.map (·.code)
  if t.any (fun x => x.1 == f.tag) then
    t.map (fun x => if x.1 == f.tag then (x.1, codes.foldl codeAdd x.2) else x)
  else t ++ [(f.tag, codes.foldl codeAdd [])]

/-- `fields.get(tag).unwrap().get(code).unwrap_or(&0)`, describe.rs:135-136 -/
def cellOf (t : TagTable) (tag : Bytes) (code : Byte) : Nat :=
  match t.find? (fun x => x.1 == tag) with
  | none => 0
  | some x =>
    match x.2.find? (fun y => y.1 == code) with
    | none => 0
    | some y => y.2

/-- the options of `Describe`, describe.rs:13-45; `iter` is the order in which the
hash map is iterated -/
structure DescribeCmd where
  skip : Bool
  limit : Nat
  discard : List FieldPred
  keep : List FieldPred
  iter : TagTable → TagTable
  sel : Selection

/-- `fields` and `count` -/
structure DescribeState where
  fields : TagTable
  count : Nat
deriving DecidableEq, Repr

/-- the data frame: codes and rows -/
structure Description where
  codes : List Byte
  rows : List (Bytes × List Nat)
deriving DecidableEq, Repr

namespace DescribeCmd

/-- describe.rs:91-110 -/
def step (c : DescribeCmd) (s : DescribeState) (r : ByteRecord) : DescribeState :=
  ⟨((r.discard c.discard).keep c.keep).record.foldl fieldAdd s.fields, s.count + 1⟩

/-- the record loop, describe.rs:69-120 -/
def loop (c : DescribeCmd) (files : List (String × Bytes)) : LoopResult DescribeState :=
  filesLoop c.skip id
    (selBody c.sel.test (fun s r => limitStep c.limit (DescribeState.count (c.step s r)) (c.step s r)))
    files ⟨[], 0⟩

/-- describe.rs:122-147, with the order of polars on strings -/
def frame (c : DescribeCmd) (t : TagTable) : Description :=
  let codes := dedupAdj (sortBy (fun a b => decide (a ≤ b)) ((c.iter t).flatMap (fun x => x.2.map (·.1))))
  ⟨codes, sortBy (fun a b => bleq a.1 b.1)
    (((c.iter t).map (·.1)).map (fun tag => (tag, codes.map (cellOf t tag))))⟩

/-- `Describe::execute`, describe.rs:47-195: the data frame -/
def run (c : DescribeCmd) (files : List (String × Bytes)) : LoopResult Description :=
  match c.loop files with
  | .ok s => .ok (c.frame s.fields)
  | .err e _ => .err e ⟨[], []⟩
  | .panic => .panic

end DescribeCmd
end Pica
