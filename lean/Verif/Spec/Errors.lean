import Verif.Spec.Command

/-! # The first invalid line of an input -/

namespace Pica.Spec
open Pica

/-- the message for an invalid line -/
def badLine (n : Nat) (name : String) : String :=
  "invalid record on line " ++ toString n ++ " (" ++ (if name = "-" then "<stdin>" else name) ++ ")."

/-- `FirstBad files cut n name`: line `n` of the file `name` is the first invalid
line, and `cut` is the input up to it -/
inductive FirstBad : List (String × Bytes) → List (String × Bytes) → Nat → String → Prop
  | intro (pre : List (String × Bytes)) (name : String) (content : Bytes) (post : List (String × Bytes))
      (good : List Bytes) (bad : Bytes) (more : List Bytes) :
      AllValid pre → Lines content (good ++ bad :: more) →
      (∀ l ∈ good, (Record.fromBytes l).isSome = true) → Record.fromBytes bad = none →
      FirstBad (pre ++ (name, content) :: post) (pre ++ [(name, good.flatten)]) (good.length + 1) name

/-- the command has done what it does with the input up to the invalid line, and
then either reports the line or has stopped before it -/
def Broken {S : Type} (e : ReadErr) (full cut : LoopResult S) : Prop :=
  (∃ s, cut = .ok s ∧ (full = .err e s ∨ full = .ok s)) ∨ (cut = .panic ∧ full = .panic)

/-- the command has done what it does with the input up to the invalid line, and
then reports the line -/
def Reported {S : Type} (e : ReadErr) (full cut : LoopResult S) : Prop :=
  (∃ s, cut = .ok s ∧ full = .err e s) ∨ (cut = .panic ∧ full = .panic)

end Pica.Spec
