import Verif.Spec.Lossy
import Verif.Spec.Trim
import Mathlib.Algebra.Order.Field.Rat
import Mathlib.Algebra.Field.Basic

/-!
Similar texts.  The score of two texts is the share of characters that stay: one less the least number
of characters to insert, remove or replace, over the length of the longer text.
-/

namespace Pica.Spec
open Pica

/-- one character is inserted, removed or replaced -/
inductive Edit {α : Type} : List α → List α → Prop
  | insert (u v : List α) (c : α) : Edit (u ++ v) (u ++ c :: v)
  | remove (u v : List α) (c : α) : Edit (u ++ c :: v) (u ++ v)
  | replace (u v : List α) (c d : α) : Edit (u ++ c :: v) (u ++ d :: v)

/-- `n` changes lead from the first text to the second -/
inductive Edits {α : Type} : Nat → List α → List α → Prop
  | nil (a : List α) : Edits 0 a a
  | step {n : Nat} {a b c : List α} (h : Edits n a b) (e : Edit b c) : Edits (n + 1) a c

/-- `n` changes suffice, fewer do not -/
def Differences {α : Type} (a b : List α) (n : Nat) : Prop := Edits n a b ∧ ∀ k, Edits k a b → n ≤ k

/-- the score is more than `t` per cent: `t / 100 < 1 - n / length`; nothing is like nothing -/
def ScoreAbove {α : Type} (a b : List α) (t : Nat) : Prop :=
  (a = [] ∧ b = [] ∧ t < 100) ∨ ∃ n, Differences a b n ∧ t * max a.length b.length + 100 * n < 100 * max a.length b.length

/-- the score is `t` per cent -/
def ScoreIs {α : Type} (a b : List α) (t : Nat) : Prop :=
  ¬ (a = [] ∧ b = []) ∧ ∃ n, Differences a b n ∧ t * max a.length b.length + 100 * n = 100 * max a.length b.length

/-- the characters of a value that are compared -/
def Compared (lower : Bytes → Bytes) (ignoreCase : Bool) (v : Bytes) (cs : List Char) : Prop :=
  ∃ t, TextOf v t ∧ textBytes cs = if ignoreCase then lower t else t

/-- numbers with 53 binary digits -/
def Digits53 (x : ℚ) : Prop := ∃ (m : Nat) (e : ℤ), m < 2 ^ 53 ∧ x = m * 2 ^ e

end Pica.Spec
