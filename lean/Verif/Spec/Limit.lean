import Verif.Spec.Command

/-! # Runs with a limit -/

namespace Pica.Spec
open Pica

/-- `n` results are not fewer than `m`; 0 means all -/
def LimitLe (m n : Nat) : Prop := n = 0 ∨ (0 < m ∧ m ≤ n)

/-- the first run has ended like the second one, or it has succeeded with a part of what the second
run has done until it ended (`R` compares what has been done), however this was -/
def Shorter {S : Type} (R : S → S → Prop) (x y : LoopResult S) : Prop :=
  x = y ∨ ∃ t, x = .ok t ∧ (y = .panic ∨ ∃ t', R t t' ∧ (y = .ok t' ∨ ∃ e, y = .err e t'))

/-- the files, and after them further lines and files -/
inductive MoreInput : List (String × Bytes) → List (String × Bytes) → Prop
  | files (fs more) : MoreInput fs (fs ++ more)
  | lines (fs name a b ls ls' more) : Lines a ls → Lines b (ls ++ ls') →
      MoreInput (fs ++ [(name, a)]) (fs ++ (name, b) :: more)

end Pica.Spec
