import Verif.Lemmas.Attempts
import Verif.Props.MatcherParse

/-! C83: how often groups are tried while an expression is parsed. -/

namespace Pica.Props
open Pica Pica.Spec

/-- Counting changes nothing else: the parser with the count has the result of the parser (for all
texts and states), also when it is used on the whole text. -/
theorem C83_same (rx : Bytes → Bool) (s : Levels) (i : Bytes) :
    (tFieldMatcher rx s i).1 = (pFieldMatcher rx s i).1 ∧
    (tFieldMatcher rx s i).2.fld = (pFieldMatcher rx s i).2.fld ∧
    (tFieldMatcher rx s i).2.sub = (pFieldMatcher rx s i).2.sub := by
  obtain ⟨h1, h2, h3⟩ := fieldMatcher_alike rx i s s ⟨rfl, rfl⟩
  exact ⟨h1, h3, h2⟩

/-- **C83** (partial) A text with `p` opening parentheses and `n` bytes is parsed with at most
`(n + 4) ^ (4 * (p + 1))` attempts: polynomial if the number of parentheses is bounded.  Without
parentheses there are none. -/
theorem C83_partial (rx : Bytes → Bool) (text : Bytes) :
    attempts rx text ≤ (text.length + 4) ^ (4 * (text.count 0x28 + 1)) ∧
    (text.count 0x28 = 0 → attempts rx text = 0) := by
  have h := fieldMatcher_attempts rx Levels.zero text
  unfold attempts
  rw [show Levels.zero.fmt = 0 from rfl, Nat.zero_add] at h
  constructor
  · refine Nat.le_trans h ?_
    have h1 := groupBound_lt text.length (parens text)
    rw [Nat.mul_add, Nat.mul_one, Nat.pow_add, Nat.pow_mul, Nat.mul_comm]
    exact Nat.mul_le_mul_right _ (by unfold parens at h1 ⊢; omega)
  · intro h0
    rw [show parens text = 0 from h0] at h
    simp only [groupBound, Nat.mul_zero] at h
    omega

/-- an operand that begins with a tag or a quantifier -/
theorem simple_of_operand {rx : Bytes → Bool} {E : Env} {o : Opts} {a : Operand (List Field)}
    (h : FieldOperand rx E o false a) (h1 : a.text.head? ≠ some 0x28) (h2 : a.text.head? ≠ some 0x23)
    (h3 : a.text.head? ≠ some 0x21) : ∃ m, Simple rx a.text m := by
  obtain ⟨m, -, hrun⟩ := fieldOperand_run rx h
  have hr := fun s => hrun s a.text.length (by simp) (Nat.le_refl _)
  obtain ⟨k1, k2⟩ := (hr Levels.zero).noWs
  refine ⟨m, k1, k2, h1, h2, h3, fun s rest hrest => ?_⟩
  rcases hr s with ⟨_, _, _, _, _, g⟩ | ⟨e, _⟩ | ⟨e, _⟩ | ⟨e, _⟩
  · exact g rest hrest
  · rw [e] at h2; exact absurd rfl h2
  · rw [e] at h1; exact absurd rfl h1
  · rw [e] at h3; exact absurd rfl h3

theorem groupCost_eq (d : Nat) : 7 * groupCost d + 1 = 8 ^ d := by
  induction d with
  | zero => rfl
  | succ d ih => rw [groupCost, Nat.pow_succ, ← ih]; omega

/-- **C83** (exact for nested parentheses) An operand in `d` pairs of parentheses is accepted, and
there are `8 + 8² + … + 8ᵈ` attempts. -/
theorem C83_nested (rx : Bytes → Bool) (E : Env) (o : Opts) (a : Operand (List Field))
    (h : FieldOperand rx E o false a) (h1 : a.text.head? ≠ some 0x28) (h2 : a.text.head? ≠ some 0x23)
    (h3 : a.text.head? ≠ some 0x21) (d : Nat) (h0 : 0 < d) (hd : d < 256) :
    (FieldMatcher.new rx Levels.zero (nest d a.text)).1.isSome = true ∧
    7 * attempts rx (nest d a.text) + 8 = 8 ^ (d + 1) := by
  obtain ⟨m, hm⟩ := simple_of_operand h h1 h2 h3
  obtain ⟨d, rfl⟩ : ∃ k, d = k + 1 := ⟨d - 1, by omega⟩
  obtain ⟨r', -, hr⟩ := nest_attempts hm d Levels.zero (by simp [Levels.zero]; omega)
  constructor
  · obtain ⟨g1, g2, -⟩ := exParens_ok h (d + 1)
    obtain ⟨k1, k2, k3, -⟩ := exSeq_ok g1
    obtain ⟨m', hm', -⟩ := C21_field rx E o Levels.zero false (by simp) (d + 1) (by simpa [Levels.zero] using hd) _ k1 k2
    rw [k3, g2] at hm'
    rw [hm']
    rfl
  · unfold attempts
    rw [hr]
    have := groupCost_eq (d + 1)
    rw [Nat.pow_succ 8 (d + 1), ← this]
    simp only [fldReset, Levels.addFmt, Levels.zero]
    omega

/-- the operand `012A?` -/
theorem exField_ok (rx : Bytes → Bool) (E : Env) (o : Opts) : ∃ v, FieldOperand rx E o false ⟨bs "012A?", v⟩ := by
  have t1 : IsTag (bs "012A") := by
    refine ⟨0x30, 0x31, 0x32, 0x41, by decide +kernel, ?_, ?_, ?_, ?_⟩ <;> decide
  have := FieldOperand.exists (rx := rx) (E := E) (o := o) (br := false) (w := []) (w' := [])
    (exSelects _ t1) (by simp [Ws]) (by simp [Ws])
  have e : bs "012A" ++ [] ++ [] ++ bs "?" ++ [] = bs "012A?" := by decide +kernel
  rw [e] at this
  exact ⟨_, this⟩

theorem nest_length (d : Nat) (e : Bytes) : (nest d e).length = 2 * d + e.length := by
  induction d with
  | zero => simp [nest]
  | succ d ih => rw [nest_succ]; simp [ih]; omega

/-- `012A?` in `d` pairs of parentheses -/
theorem exNested (rx : Bytes → Bool) (d : Nat) (h0 : 0 < d) (hd : d < 256) :
    (nest d (bs "012A?")).length = 2 * d + 5 ∧
    (FieldMatcher.new rx Levels.zero (nest d (bs "012A?"))).1.isSome = true ∧
    7 * attempts rx (nest d (bs "012A?")) + 8 = 8 ^ (d + 1) := by
  obtain ⟨v, hv⟩ := exField_ok rx anyEnv anyOpts
  have hh : (bs "012A?").head? = some 0x30 := by decide +kernel
  obtain ⟨h1, h2⟩ := C83_nested rx anyEnv anyOpts _ hv (by rw [hh]; decide) (by rw [hh]; decide) (by rw [hh]; decide) d h0 hd
  exact ⟨by rw [nest_length, show (bs "012A?").length = 5 by decide +kernel], h1, h2⟩

/-- **C83** is false: the degree grows with the nesting.  An expression of 515 bytes is accepted
after more than `519 ^ 84` attempts. -/
theorem C83_false (rx : Bytes → Bool) : ∃ text : Bytes, text.length = 515 ∧
    (FieldMatcher.new rx Levels.zero text).1.isSome = true ∧ (text.length + 4) ^ 84 < attempts rx text := by
  obtain ⟨h1, h2, h3⟩ := exNested rx 255 (by decide) (by decide)
  refine ⟨_, h1, h2, ?_⟩
  rw [h1]
  have : 7 * (519 ^ 84 : Nat) + 8 < 8 ^ (255 + 1) := by decide +kernel
  rw [show 2 * 255 + 5 + 4 = 519 from rfl]
  generalize (519 ^ 84 : Nat) = x at *
  generalize (8 ^ (255 + 1) : Nat) = y at *
  omega

/-- twenty pairs of parentheses around `012A?`: 45 bytes, more than 10¹⁸ attempts -/
theorem C83_twenty (rx : Bytes → Bool) : (nest 20 (bs "012A?")).length = 45 ∧
    (FieldMatcher.new rx Levels.zero (nest 20 (bs "012A?"))).1.isSome = true ∧
    10 ^ 18 < attempts rx (nest 20 (bs "012A?")) := by
  obtain ⟨h1, h2, h3⟩ := exNested rx 20 (by decide) (by decide)
  refine ⟨h1, h2, ?_⟩
  have : 7 * (10 ^ 18 : Nat) + 8 < 8 ^ (20 + 1) := by decide +kernel
  omega

/-- without parentheses: no attempt -/
example (rx : Bytes → Bool) : attempts rx (bs "012A? && 013A? || !014A?") = 0 :=
  (C83_partial rx _).2 (by decide +kernel)

/-- two pairs of parentheses: 8 + 64 attempts -/
example (rx : Bytes → Bool) : attempts rx (bs "((012A?))") = 72 := by
  obtain ⟨-, -, h⟩ := exNested rx 2 (by decide) (by decide)
  have e : nest 2 (bs "012A?") = bs "((012A?))" := by decide +kernel
  rw [e] at h
  omega

end Pica.Props
