import Verif.Base.Bytes

/-! Valid UTF-8: the encoding of a sequence of Unicode scalar values. -/

namespace Pica.Spec
open Pica

/-- `b` is the UTF-8 encoding of some string -/
def IsUtf8 (b : Bytes) : Prop := ∃ cs : List Char, b = cs.flatMap String.utf8EncodeChar

end Pica.Spec
