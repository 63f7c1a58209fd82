import Verif.Base.Bytes

/-! # Ranges next to each other -/

namespace Pica.Spec

/-- `--start` and `--end` of the ranges between the cuts, without `--length` -/
def between : Nat → List Nat → List (Nat × Nat × Nat)
  | _, [] => []
  | a, b :: cuts => (a, b, 0) :: between b cuts

/-- the last cut -/
def lastCut : Nat → List Nat → Nat
  | a, [] => a
  | _, b :: cuts => lastCut b cuts

/-- the cuts grow, and none is 0 -/
def Growing : Nat → List Nat → Prop
  | _, [] => True
  | a, b :: cuts => a ≤ b ∧ 0 < b ∧ Growing b cuts

/-- `--start` and `--length` of pages of the same length -/
def pages (n : Nat) (k : Nat) : List (Nat × Nat × Nat) := (List.range k).map (fun i => (i * n, 0, n))

end Pica.Spec
