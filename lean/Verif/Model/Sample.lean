import Verif.Model.Command

/-! Models `crates/pica-cli/src/commands/sample.rs`. -/

namespace Pica

/-- the options of `Sample`, sample.rs:13-44 (`size` is at least 1 by clap).
`draw c` is the number `rng.random_range(0..c)` drawn when `count` is `c`; every
value of `count` occurs at most once. -/
structure SampleCmd where
  skip : Bool
  size : Nat
  limit : Nat
  draw : Nat → Nat
  sel : Selection

/-- `reservoir` and `count` -/
structure SampleState where
  reservoir : List Bytes
  count : Nat
deriving DecidableEq, Repr

namespace SampleCmd

/-- sample.rs:96-109 -/
def step (c : SampleCmd) (s : SampleState) (r : ByteRecord) : SampleState :=
  let data := r.write
  if s.count < c.size then ⟨s.reservoir ++ [data], s.count + 1⟩
  else
    let j := c.draw s.count
    if j < c.size then ⟨s.reservoir.set j data, s.count + 1⟩ else ⟨s.reservoir, s.count + 1⟩

/-- sample.rs:119-122; `none` is a panic of `unwrap` -/
def output : List Bytes → Option Bytes
  | [] => some []
  | data :: l =>
    match ByteRecord.fromBytes data with
    | none => none
    | some r => (output l).map (r.write ++ ·)

/-- the record loop, sample.rs:72-117 -/
def loop (c : SampleCmd) (files : List (String × Bytes)) : LoopResult SampleState :=
  filesLoop c.skip id
    (selBody c.sel.test (fun s r => limitStep c.limit (c.step s r).count (c.step s r))) files ⟨[], 0⟩

/-- `Sample::execute`, sample.rs:46-128 -/
def run (c : SampleCmd) (files : List (String × Bytes)) : LoopResult Bytes :=
  match c.loop files with
  | .ok s =>
    match output s.reservoir with
    | none => .panic
    | some out => .ok out
  | .err e _ => .err e []
  | .panic => .panic

end SampleCmd
end Pica
