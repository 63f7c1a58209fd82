import Verif.Model.Command

/-! Models `crates/pica-cli/src/commands/slice.rs`. -/

namespace Pica

/-- the options of `Slice`, slice.rs:17-81.  `end` and `length` are not both
given (clap, slice.rs:34-54). -/
structure SliceCmd where
  skip : Bool
  start : Nat
  «end» : Nat
  length : Nat
  limit : Nat
  sel : Selection

/-- `range.end`, `i`, `count` and what has been written -/
structure SliceState where
  rangeEnd : Nat
  i : Nat
  count : Nat
  out : Bytes
deriving DecidableEq, Repr

namespace SliceCmd

/-- the end of the range, slice.rs:100-106; the sum wraps in a release build -/
def rangeEnd (c : SliceCmd) : Nat :=
  if c.end > 0 then c.end
  else if c.length > 0 then (c.start + c.length) % 2 ^ 64
  else 2 ^ 64 - 1

/-- slice.rs:117-123 -/
def onSkip (c : SliceCmd) (s : SliceState) : SliceState :=
  if decide (c.length > 0) && decide (s.rangeEnd < 2 ^ 64 - 1) then { s with rangeEnd := s.rangeEnd + 1 }
  else s

/-- slice.rs:138-156 -/
def act (c : SliceCmd) (s : SliceState) (r : ByteRecord) : Step SliceState :=
  if decide (c.start ≤ s.i) && decide (s.i < s.rangeEnd) then
    let s' := { s with out := s.out ++ r.write, count := s.count + 1 }
    if decide (c.limit > 0) && decide (s'.count ≥ c.limit) then .stop s'
    else .next { s' with i := s'.i + 1 }
  else if s.i < c.start then .next { s with i := s.i + 1 }
  else .stop s

/-- `Slice::execute`, slice.rs:83-164 -/
def run (c : SliceCmd) (files : List (String × Bytes)) : LoopResult SliceState :=
  filesLoop c.skip c.onSkip (selBody c.sel.test c.act) files ⟨c.rangeEnd, 0, 0, []⟩

end SliceCmd
end Pica
