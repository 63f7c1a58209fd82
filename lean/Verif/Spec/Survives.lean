import Verif.Spec.Errors

/-! # How a command may end -/

namespace Pica.Spec
open Pica

/-- the command does not panic: it ends normally if invalid lines are skipped or do not
occur; otherwise it may end with the message for the first invalid line -/
structure Survives {S : Type} (skip : Bool) (files : List (String × Bytes)) (x : LoopResult S) : Prop where
  clean : skip = true ∨ AllValid files → ∃ s, x = .ok s
  broken : skip = false → ∀ cut n name, FirstBad files cut n name →
    (∃ s, x = .ok s) ∨ ∃ s, x = .err (.parse (badLine n name)) s

end Pica.Spec
