import Verif.Spec.Utf8

/-! White space at both ends, over characters. -/

namespace Pica.Spec
open Pica

/-- the property White_Space of the Unicode character database -/
def IsWhite (c : Char) : Prop :=
  (9 ≤ c.toNat ∧ c.toNat ≤ 13) ∨ c.toNat = 0x20 ∨ c.toNat = 0x85 ∨ c.toNat = 0xA0 ∨ c.toNat = 0x1680 ∨
  (0x2000 ≤ c.toNat ∧ c.toNat ≤ 0x200A) ∨ c.toNat = 0x2028 ∨ c.toNat = 0x2029 ∨ c.toNat = 0x202F ∨ c.toNat = 0x205F ∨
  c.toNat = 0x3000

/-- the bytes of a text -/
def textBytes (cs : List Char) : Bytes := cs.flatMap String.utf8EncodeChar

/-- `t` is what is left of the text `cs` -/
def TrimmedText (cs t : List Char) : Prop :=
  (∃ a b, cs = a ++ t ++ b ∧ (∀ c ∈ a, IsWhite c) ∧ ∀ c ∈ b, IsWhite c) ∧
  (∀ c, t.head? = some c → ¬ IsWhite c) ∧ ∀ c, t.getLast? = some c → ¬ IsWhite c

end Pica.Spec
