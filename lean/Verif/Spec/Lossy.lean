import Verif.Spec.Utf8

/-! Text for a byte string, after chapter 3.9 of the Unicode standard: every maximal subpart of an ill-formed
sequence is replaced by U+FFFD. -/

namespace Pica.Spec
open Pica

/-- the beginning of the encoding of a character -/
def CharPrefix (m : Bytes) : Prop := ∃ c : Char, m <+: String.utf8EncodeChar c

/-- `m` is what is replaced at the beginning of `m ++ rest`: the longest beginning of a character, or one
byte if there is none -/
structure MaximalSubpart (m rest : Bytes) : Prop where
  noChar : ∀ c : Char, ¬ String.utf8EncodeChar c <+: m ++ rest
  begin_ : m ≠ [] ∧ (CharPrefix m ∨ m.length = 1)
  longest : ∀ m', m' <+: m ++ rest → CharPrefix m' → m'.length ≤ m.length

/-- `t` is the text for `b` -/
inductive TextOf : Bytes → Bytes → Prop
  | nil : TextOf [] []
  | char (c : Char) (b t : Bytes) : TextOf b t → TextOf (String.utf8EncodeChar c ++ b) (String.utf8EncodeChar c ++ t)
  | bad (m b t : Bytes) : MaximalSubpart m b → TextOf b t → TextOf (m ++ b) ([0xEF, 0xBF, 0xBD] ++ t)

end Pica.Spec
