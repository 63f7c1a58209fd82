import Verif.Base.Bytes

/-! Sequences of texts. -/

namespace Pica.Spec
open Pica

/-- `b` spells the list `ss` by concatenating texts of its elements -/
inductive Spells {α : Type} (text : α → Bytes → Prop) : List α → Bytes → Prop
  | nil : Spells text [] []
  | cons {a as b bs} : text a b → Spells text as bs → Spells text (a :: as) (b ++ bs)

end Pica.Spec
