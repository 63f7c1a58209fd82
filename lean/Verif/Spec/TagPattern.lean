import Verif.Base.Bytes

/-! Meaning of tag patterns and occurrence selectors, stated without the parser. -/

namespace Pica.Spec
open Pica

/-- set of bytes -/
abbrev ByteSet := Byte → Prop

/-- Items inside brackets: single bytes and ascending ranges of allowed bytes;
`ClassText A t S` says that `t` is a non-empty sequence of items denoting `S`. -/
inductive ItemText (A : ByteSet) : Bytes → ByteSet → Prop
  | single (c) : A c → ItemText A [c] (fun b => b = c)
  | range (c d) : A c → A d → c < d → ItemText A [c, 0x2D, d] (fun b => c ≤ b ∧ b ≤ d)

inductive ClassText (A : ByteSet) : Bytes → ByteSet → Prop
  | one {t S} : ItemText A t S → ClassText A t S
  | more {t S t' S'} : ItemText A t S → ClassText A t' S' →
      ClassText A (t ++ t') (fun b => S b ∨ S' b)

/-- One position of a tag pattern: a byte, `.` (all allowed bytes) or `[..]` -/
inductive PosText (A : ByteSet) : Bytes → ByteSet → Prop
  | byte (c) : A c → PosText A [c] (fun b => b = c)
  | dot : PosText A [0x2E] A
  | cls {t S} : ClassText A t S → PosText A ([0x5B] ++ t ++ [0x5D]) S

/-- bytes allowed at the first, the two middle and the last position -/
def A0 : ByteSet := fun b => b = 0x30 ∨ b = 0x31 ∨ b = 0x32
def A1 : ByteSet := fun b => 0x30 ≤ b ∧ b ≤ 0x39
def A3 : ByteSet := fun b => (0x41 ≤ b ∧ b ≤ 0x5A) ∨ b = 0x40

/-- `text` is a tag pattern which denotes the set `S0 × S1 × S2 × S3` -/
def PatternText (text : Bytes) (S0 S1 S2 S3 : ByteSet) : Prop :=
  ∃ t0 t1 t2 t3, text = t0 ++ t1 ++ t2 ++ t3 ∧
    PosText A0 t0 S0 ∧ PosText A1 t1 S1 ∧ PosText A1 t2 S2 ∧ PosText A3 t3 S3

/-- value of a digit string -/
def numVal (o : Bytes) : Nat := o.foldl (fun n b => 10 * n + (b.toNat - 48)) 0

end Pica.Spec

namespace Pica.Spec
open Pica

/-- an occurrence: two or three decimal digits -/
def IsOccDigits (o : Bytes) : Prop :=
  (o.length = 2 ∨ o.length = 3) ∧ ∀ b ∈ o, 0x30 ≤ b ∧ b ≤ 0x39

/-- Occurrence selectors: `OccSel text P w` says that `text` selects the
occurrences described by `P` (`none`: the field has no occurrence).  `w` is the
number of digits of the bounds if `text` is a range. -/
inductive OccSel : Bytes → (Option Bytes → Prop) → Option Nat → Prop
  | empty : OccSel [] (fun o => o = none ∨ o = some [0x30, 0x30]) none
  | zero : OccSel [0x2F, 0x30, 0x30] (fun o => o = none ∨ o = some [0x30, 0x30]) none
  | any : OccSel [0x2F, 0x2A] (fun _ => True) none
  | exact (n) : IsOccDigits n → n ≠ [0x30, 0x30] → OccSel (0x2F :: n) (fun o => o = some n) none
  | range (a b) : IsOccDigits a → IsOccDigits b → a.length = b.length → numVal a < numVal b →
      OccSel (0x2F :: (a ++ 0x2D :: b))
        (fun o => ∃ n, o = some n ∧ numVal a ≤ numVal n ∧ numVal n ≤ numVal b) (some a.length)

end Pica.Spec
