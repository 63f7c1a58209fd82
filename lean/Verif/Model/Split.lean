import Verif.Model.Command
import Verif.Model.Files

/-! Models `crates/pica-cli/src/commands/split.rs`. -/

namespace Pica

/-- the options of `Split`, split.rs:16-47; `template` after split.rs:65-69 -/
structure SplitCmd where
  skip : Bool
  chunkSize : Nat
  template : Bytes
  limit : Nat
  sel : Selection

/-- the files, the number of the current one, and the number of records written -/
structure SplitState where
  store : Store
  chunks : Nat
  count : Nat
deriving DecidableEq, Repr

namespace SplitCmd

/-- the name of a chunk, split.rs:79 and 109-113 (without the directory) -/
def name (c : SplitCmd) (chunk : Nat) : Bytes := replaceBraces (decimal chunk) c.template

/-- split.rs:104-120: `count` is a `usize` and is cast to `u32`; `chunks` is a
`u32` (wrapping, as in a release build) -/
def step (c : SplitCmd) (s : SplitState) (r : ByteRecord) : SplitState :=
  let s := if decide (s.count > 0) && s.count % 2 ^ 32 % c.chunkSize == 0 then
      let chunks := (s.chunks + 1) % 2 ^ 32
      { s with store := s.store.create (c.name chunks), chunks := chunks }
    else s
  { s with store := s.store.append (c.name s.chunks) r.write, count := s.count + 1 }

/-- `Split::execute`, split.rs:49-136, for an empty directory -/
def run (c : SplitCmd) (files : List (String × Bytes)) : LoopResult SplitState :=
  filesLoop c.skip id
    (selBody c.sel.test (fun s r => limitStep c.limit (c.step s r).count (c.step s r)))
    files ⟨Store.create [] (c.name 0), 0, 0⟩

end SplitCmd
end Pica
