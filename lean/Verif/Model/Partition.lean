import Verif.Model.Command
import Verif.Model.Files
import Verif.Base.Order

/-! Models `crates/pica-cli/src/commands/partition.rs`. -/

namespace Pica

/-- the options of `Partition`, partition.rs:23-56; `template` after
partition.rs:71-75; `lossy` is `to_string` of a byte string -/
structure PartitionCmd where
  skip : Bool
  template : Bytes
  limit : Nat
  path : Path
  lossy : Bytes → Bytes
  sel : Selection

/-- the writers by value, with what each has written, and the number of writes -/
structure PartitionState where
  writers : List (Bytes × Bytes)
  count : Nat
deriving DecidableEq, Repr

namespace PartitionCmd

/-- partition.rs:114-136: the writer of a value is created on first use -/
def put (s : PartitionState) (v data : Bytes) : PartitionState :=
  if s.writers.any (fun w => w.1 == v) then
    ⟨s.writers.map (fun w => if w.1 == v then (w.1, w.2 ++ data) else w), s.count + 1⟩
  else ⟨s.writers ++ [(v, data)], s.count + 1⟩

/-- the name of the file of a value, partition.rs:118-124 (without the directory) -/
def name (c : PartitionCmd) (v : Bytes) : Bytes := replaceBraces (c.lossy v) c.template

/-- partition.rs:113-143 -/
def puts (c : PartitionCmd) (r : ByteRecord) : List Bytes → PartitionState → Step PartitionState
  | [], s => .next s
  | v :: vs, s =>
    let s' := put s v r.write
    if decide (c.limit > 0) && decide (s'.count ≥ c.limit) then .stop s' else c.puts r vs s'

/-- partition.rs:108-143 -/
def body (c : PartitionCmd) (s : PartitionState) (r : ByteRecord) : Step PartitionState :=
  match c.path.values c.sel.E c.sel.o r.record with
  | none => .panic
  | some values => c.puts r (sortDedup values) s

/-- `Partition::execute`, partition.rs:58-155 -/
def run (c : PartitionCmd) (files : List (String × Bytes)) : LoopResult PartitionState :=
  filesLoop c.skip id (selBody c.sel.test c.body) files ⟨[], 0⟩

/-- the files at the end.  Only meaningful if the names are different: otherwise
several writers overwrite each other in the same file. -/
def files (c : PartitionCmd) (s : PartitionState) : Store :=
  s.writers.map (fun w => (c.name w.1, w.2))

end PartitionCmd
end Pica
