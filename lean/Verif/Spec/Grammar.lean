import Verif.Model.Record
import Verif.Spec.Basic

/-!
# The PICA+ grammar, stated independently of the parser

Only byte constants and list concatenation are used.  `Record` and `Field` are
the data types of the model.
-/

namespace Pica.Spec

open Pica

/-- `[012][0-9][0-9][A-Z@]` -/
def IsTag (t : Bytes) : Prop :=
  ∃ a b c d : Byte, t = [a, b, c, d] ∧
    (a = 0x30 ∨ a = 0x31 ∨ a = 0x32) ∧
    (0x30 ≤ b ∧ b ≤ 0x39) ∧ (0x30 ≤ c ∧ c ≤ 0x39) ∧
    ((0x41 ≤ d ∧ d ≤ 0x5A) ∨ d = 0x40)

/-- two or three decimal digits -/
def IsOcc (o : Bytes) : Prop :=
  (o.length = 2 ∨ o.length = 3) ∧ ∀ b ∈ o, 0x30 ≤ b ∧ b ≤ 0x39

/-- `[0-9A-Za-z]` -/
def IsCode (c : Byte) : Prop :=
  (0x30 ≤ c ∧ c ≤ 0x39) ∨ (0x41 ≤ c ∧ c ≤ 0x5A) ∨ (0x61 ≤ c ∧ c ≤ 0x7A)

/-- no separator inside -/
def IsValue (v : Bytes) : Prop := ∀ b ∈ v, b ≠ 0x1F ∧ b ≠ 0x1E

def IsSubfield (s : Subfield) : Prop := IsCode s.code ∧ IsValue s.value

/-- A field whose parts are well-formed -/
def IsField (f : Field) : Prop :=
  IsTag f.tag ∧ (∀ o, f.occ = some o → IsOcc o) ∧ ∀ s ∈ f.subfields, IsSubfield s

/-- All fields well-formed (the record may be empty) -/
def IsRecord (r : Record) : Prop := ∀ f ∈ r, IsField f

/-- `b` spells the subfield `s` -/
def SubfieldText (s : Subfield) (b : Bytes) : Prop := b = 0x1F :: s.code :: s.value

/-- `b` spells the field `f` -/
def FieldText (f : Field) (b : Bytes) : Prop :=
  ∃ occ subs : Bytes,
    ((f.occ = none ∧ occ = []) ∨ (∃ o, f.occ = some o ∧ occ = 0x2F :: o)) ∧
    Spells SubfieldText f.subfields subs ∧
    b = f.tag ++ occ ++ [0x20] ++ subs ++ [0x1E]

/-- `b` is the PICA+ text of the non-empty well-formed record `r` -/
def RecordText (r : Record) (b : Bytes) : Prop :=
  r ≠ [] ∧ IsRecord r ∧ ∃ t, Spells FieldText r t ∧ b = t ++ [0x0A]

end Pica.Spec
