import Verif.Base.Bytes

/-! Cutting a byte string into lines. -/

namespace Pica.Spec
open Pica

/-- `Lines b ls`: `ls` are the lines of `b`, each with its terminating newline
(the last one possibly without). -/
inductive Lines : Bytes → List Bytes → Prop
  | eof : Lines [] []
  | last (t) : t ≠ [] → (0x0A : Byte) ∉ t → Lines t [t]
  | line (t rest ls) : (0x0A : Byte) ∉ t → Lines rest ls →
      Lines (t ++ 0x0A :: rest) ((t ++ [0x0A]) :: ls)

end Pica.Spec
