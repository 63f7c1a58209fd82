import Verif.Base.Bytes

/-! # ISO 7064 MOD 11-2, as used for ISNI numbers -/

namespace Pica.Spec
open Pica

/-- `0` to `9` -/
def Digit (c : Byte) : Prop := 0x30 ≤ c ∧ c ≤ 0x39

instance (c : Byte) : Decidable (Digit c) := inferInstanceAs (Decidable (_ ∧ _))

/-- the value of a character; `X` stands for ten -/
def charValue (c : Byte) : Nat := if c = 0x58 then 10 else c.toNat - 0x30

/-- each character has twice the weight of the next, the last has weight 1 -/
def weighted : List Nat → Nat
  | [] => 0
  | a :: as => a * 2 ^ as.length + weighted as

/-- 15 digits and a check character, the weighted sum being 1 modulo 11 -/
def Mod112 (s : Bytes) : Prop :=
  ∃ ds c, s = ds ++ [c] ∧ ds.length = 15 ∧ (∀ d ∈ ds, Digit d) ∧ (Digit c ∨ c = 0x58) ∧
    weighted (s.map charValue) % 11 = 1

/-- the characters that are not separators; separators are below `0` (blank,
hyphen, …) -/
def unseparated (v : Bytes) : Bytes := v.filter (fun c => decide (0x30 ≤ c))

end Pica.Spec
