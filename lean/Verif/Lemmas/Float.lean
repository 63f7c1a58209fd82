import Verif.Model.Similar
import Mathlib.Algebra.Order.Field.Power
import Mathlib.Tactic.Linarith
import Mathlib.Tactic.Positivity
import Mathlib.Tactic.FieldSimp
import Mathlib.Tactic.Ring
import Mathlib.Tactic.NormNum

/-! Lemmas about rounding to 53 binary digits. -/

namespace Pica

theorem roundEven_int (n : ℤ) : roundEven (n : ℚ) = n := by
  unfold roundEven
  rw [Int.floor_intCast, sub_self, if_pos (by norm_num)]

theorem roundEven_err (q : ℚ) : |(roundEven q : ℚ) - q| ≤ 1 / 2 := by
  have h1 := Int.floor_le q
  have h2 := Int.lt_floor_add_one q
  unfold roundEven
  rw [abs_le]
  split
  · constructor <;> linarith
  · split
    · push_cast
      constructor <;> linarith
    · split
      · constructor <;> linarith
      · push_cast
        constructor <;> linarith

theorem expo_spec {q : ℚ} (hq : 0 < q) : (2 : ℚ) ^ expo q ≤ q ∧ q < 2 ^ (expo q + 1) := by
  have hp : 0 < q.num := Rat.num_pos.2 hq
  have hd : 0 < q.den := q.den_pos
  have hn : q.num.natAbs ≠ 0 := by omega
  have a1 : 2 ^ q.num.natAbs.log2 ≤ q.num.natAbs := Nat.log2_self_le hn
  have a2 : q.num.natAbs < 2 ^ (q.num.natAbs.log2 + 1) := Nat.lt_log2_self
  have b1 : 2 ^ q.den.log2 ≤ q.den := Nat.log2_self_le (by omega)
  have b2 : q.den < 2 ^ (q.den.log2 + 1) := Nat.lt_log2_self
  have hc : ((q.num.natAbs : ℕ) : ℚ) = (q.num : ℚ) := by
    rw [← Int.cast_natCast, Int.natAbs_of_nonneg hp.le]
  have a1' : (2 : ℚ) ^ q.num.natAbs.log2 ≤ q.num := by rw [← hc]; exact_mod_cast a1
  have a2' : (q.num : ℚ) < 2 ^ (q.num.natAbs.log2 + 1) := by rw [← hc]; exact_mod_cast a2
  have b1' : (2 : ℚ) ^ q.den.log2 ≤ q.den := by exact_mod_cast b1
  have b2' : (q.den : ℚ) < 2 ^ (q.den.log2 + 1) := by exact_mod_cast b2
  have hdq : (0 : ℚ) < q.den := by exact_mod_cast hd
  have hqd : q = q.num / q.den := (Rat.num_div_den q).symm
  generalize hl : q.num.natAbs.log2 = l at *
  generalize hk : q.den.log2 = k at *
  have two : (2 : ℚ) ≠ 0 := by norm_num
  have up : q < 2 ^ ((l : ℤ) - k + 1) := by
    rw [hqd, div_lt_iff₀ hdq]
    have : (2 : ℚ) ^ ((l : ℤ) - k + 1) * 2 ^ k = 2 ^ (l + 1) := by
      rw [← zpow_natCast, ← zpow_natCast, ← zpow_add₀ two]; congr 1; push_cast; ring
    calc (q.num : ℚ) < 2 ^ (l + 1) := a2'
      _ = 2 ^ ((l : ℤ) - k + 1) * 2 ^ k := this.symm
      _ ≤ 2 ^ ((l : ℤ) - k + 1) * q.den := by
        apply mul_le_mul_of_nonneg_left b1'; positivity
  have lo : (2 : ℚ) ^ ((l : ℤ) - k - 1) ≤ q := by
    rw [hqd, le_div_iff₀ hdq]
    have : (2 : ℚ) ^ ((l : ℤ) - k - 1) * 2 ^ (k + 1) = 2 ^ l := by
      rw [← zpow_natCast, ← zpow_natCast, ← zpow_add₀ two]; congr 1; push_cast; ring
    calc (2 : ℚ) ^ ((l : ℤ) - k - 1) * q.den ≤ 2 ^ ((l : ℤ) - k - 1) * 2 ^ (k + 1) := by
          apply mul_le_mul_of_nonneg_left b2'.le; positivity
      _ = 2 ^ l := this
      _ ≤ q.num := a1'
  unfold expo
  rw [hl, hk]
  dsimp only
  split
  · rename_i h; exact ⟨h, up⟩
  · rename_i h
    refine ⟨lo, ?_⟩
    rw [show (l : ℤ) - k - 1 + 1 = l - k by ring]
    exact lt_of_not_ge h

theorem fl_zero : fl 0 = 0 := by unfold fl; rw [if_pos rfl]

theorem fl_err {q : ℚ} (hq : 0 < q) : |fl q - q| ≤ q / 2 ^ 53 := by
  obtain ⟨h1, _⟩ := expo_spec hq
  unfold fl
  rw [if_neg hq.ne']
  generalize expo q = e at *
  have hu : (0 : ℚ) < 2 ^ (e - 52) := by positivity
  have h := roundEven_err (q / 2 ^ (e - 52))
  generalize (roundEven (q / 2 ^ (e - 52)) : ℚ) = r at *
  have he : r * 2 ^ (e - 52) - q = (r - q / 2 ^ (e - 52)) * 2 ^ (e - 52) := by
    field_simp
  rw [he, abs_mul, abs_of_pos hu]
  have hs : (2 : ℚ) ^ e = 2 ^ (e - 52) * 2 ^ 52 := by
    rw [← zpow_natCast, ← zpow_add₀ (by norm_num)]; congr 1; push_cast; ring
  rw [hs] at h1
  generalize (2 : ℚ) ^ (e - 52) = u at *
  calc |r - q / u| * u ≤ 1 / 2 * u := mul_le_mul_of_nonneg_right h hu.le
    _ ≤ q / 2 ^ 53 := by
      rw [le_div_iff₀ (by positivity)]
      calc (1 : ℚ) / 2 * u * 2 ^ 53 = u * 2 ^ 52 := by ring
        _ ≤ q := h1

theorem fl_nat {n : Nat} (hn : n < 2 ^ 53) : fl n = n := by
  by_cases h0 : n = 0
  · subst h0; simpa using fl_zero
  have hq : (0 : ℚ) < n := by exact_mod_cast Nat.pos_of_ne_zero h0
  obtain ⟨h1, _⟩ := expo_spec hq
  unfold fl
  rw [if_neg hq.ne']
  have he : expo n < 53 := by
    have : (2 : ℚ) ^ expo n < 2 ^ (53 : ℤ) := by
      refine lt_of_le_of_lt h1 ?_
      exact_mod_cast hn
    exact (zpow_lt_zpow_iff_right₀ (by norm_num)).1 this
  generalize expo n = e at *
  obtain ⟨k, hk⟩ : ∃ k : Nat, e - 52 = -(k : ℤ) := ⟨(52 - e).toNat, by omega⟩
  rw [hk]
  have hd : (n : ℚ) / 2 ^ (-(k : ℤ)) = ((n * 2 ^ k : ℤ) : ℚ) := by
    rw [zpow_neg, div_inv_eq_mul]; push_cast; rw [zpow_natCast]
  rw [hd, roundEven_int, ← hd]
  have : (2 : ℚ) ^ (-(k : ℤ)) ≠ 0 := by positivity
  field_simp

end Pica
