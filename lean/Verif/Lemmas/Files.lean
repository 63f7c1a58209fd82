import Verif.Model.Files

namespace Pica

/-- the template has a place for the value -/
def HasBraces (t : Bytes) : Prop := ∃ a b, t = a ++ 0x7B :: 0x7D :: b

theorem replaceBraces_length (v t : Bytes) : ∃ k c, ∀ v', (replaceBraces v' t).length = c + k * v'.length := by
  induction t using replaceBraces.induct with
  | case1 => exact ⟨0, 0, by simp [replaceBraces]⟩
  | case2 c => exact ⟨0, 1, by simp [replaceBraces]⟩
  | case3 c d t h ih =>
    obtain ⟨k, n, ih⟩ := ih
    refine ⟨k + 1, n, fun v' => ?_⟩
    rw [replaceBraces, if_pos h, List.length_append, ih, Nat.add_mul]; omega
  | case4 c d t h ih =>
    obtain ⟨k, n, ih⟩ := ih
    refine ⟨k, n + 1, fun v' => ?_⟩
    rw [replaceBraces, if_neg h, List.length_cons, ih]; omega

/-- a template with a place for the value gives different names to different
values -/
theorem replaceBraces_injective {t : Bytes} (h : HasBraces t) {v w : Bytes}
    (he : replaceBraces v t = replaceBraces w t) : v = w := by
  obtain ⟨a, b, rfl⟩ := h
  induction a with
  | nil =>
    simp only [List.nil_append, replaceBraces, and_self, if_true] at he
    obtain ⟨k, c, hl⟩ := replaceBraces_length v b
    have h1 := congrArg List.length he
    rw [List.length_append, List.length_append, hl, hl] at h1
    have : v.length = w.length := by
      rcases Nat.lt_trichotomy v.length w.length with h | h | h
      · have := Nat.mul_le_mul_left k (Nat.le_of_lt h); omega
      · exact h
      · have := Nat.mul_le_mul_left k (Nat.le_of_lt h); omega
    exact (List.append_inj he this).1
  | cons x a ih =>
    cases a with
    | nil =>
      simp only [List.cons_append, List.nil_append] at he
      have e : ∀ v, replaceBraces v (x :: 0x7B :: 0x7D :: b) = x :: replaceBraces v (0x7B :: 0x7D :: b) := by
        intro v; rw [replaceBraces.eq_def]; simp
      rw [e, e] at he
      simp only [List.cons.injEq, true_and] at he
      exact ih he
    | cons y a =>
      simp only [List.cons_append] at he ih
      rw [replaceBraces, replaceBraces] at he
      split at he
      · -- `{}` already at the front
        clear ih
        obtain ⟨k, c, hl⟩ := replaceBraces_length v (a ++ 0x7B :: 0x7D :: b)
        have h1 := congrArg List.length he
        rw [List.length_append, List.length_append, hl, hl] at h1
        have : v.length = w.length := by
          rcases Nat.lt_trichotomy v.length w.length with h | h | h
          · have := Nat.mul_le_mul_left k (Nat.le_of_lt h); omega
          · exact h
          · have := Nat.mul_le_mul_left k (Nat.le_of_lt h); omega
        exact (List.append_inj he this).1
      · simp only [List.cons.injEq, true_and] at he
        exact ih he

/-- without such a place all names are the same -/
theorem replaceBraces_const {t : Bytes} (h : ¬ HasBraces t) (v : Bytes) : replaceBraces v t = t := by
  induction t using replaceBraces.induct with
  | case1 => rfl
  | case2 c => rfl
  | case3 c d t h' ih => exact absurd ⟨[], t, by rw [h'.1, h'.2]; rfl⟩ h
  | case4 c d t h' ih =>
    rw [replaceBraces, if_neg h', ih]
    rintro ⟨a, b, he⟩
    exact h ⟨c :: a, b, by rw [he]; rfl⟩

theorem digit_inj {a b : Nat} (ha : a < 10) (hb : b < 10)
    (h : (0x30 : UInt8) + UInt8.ofNat a = 0x30 + UInt8.ofNat b) : a = b := by
  have h1 := congrArg UInt8.toNat h
  simp [UInt8.toNat_add, UInt8.toNat_ofNat] at h1
  omega

theorem decimal_injective : ∀ {m n : Nat}, decimal m = decimal n → m = n := by
  intro m
  induction m using Nat.strongRecOn with
  | ind m ih =>
    intro n h
    have hne : ∀ k, decimal k ≠ [] := by
      intro k; rw [decimal]; split <;> simp
    rw [decimal, decimal.eq_def n] at h
    split at h <;> split at h
    · rename_i h1 h2
      simp only [List.cons.injEq, and_true] at h
      exact digit_inj h1 h2 h
    · have h1 := congrArg List.length h
      have h2 := List.length_pos_iff.2 (hne (n / 10))
      simp only [List.length_append, List.length_cons, List.length_nil] at h1; omega
    · have h1 := congrArg List.length h
      have h2 := List.length_pos_iff.2 (hne (m / 10))
      simp only [List.length_append, List.length_cons, List.length_nil] at h1; omega
    · obtain ⟨h3, h4⟩ := List.append_inj' h rfl
      have e1 := ih (m / 10) (by omega) h3
      simp only [List.cons.injEq, and_true] at h4
      have e2 := digit_inj (Nat.mod_lt _ (by omega)) (Nat.mod_lt _ (by omega)) h4
      omega

/-! ## Files -/

theorem Store.create_new {s : Store} {name : Bytes} (h : ∀ f ∈ s, f.1 ≠ name) :
    s.create name = s ++ [(name, [])] := by
  unfold Store.create
  rw [List.filter_eq_self.2]
  intro f hf; simpa using h f hf

theorem Store.append_last {s : Store} {name data d : Bytes} (h : ∀ f ∈ s, f.1 ≠ name) :
    Store.append (s ++ [(name, data)]) name d = s ++ [(name, data ++ d)] := by
  unfold Store.append
  rw [List.map_append]
  congr 1
  · have : ∀ f ∈ s, (if f.1 == name then (f.1, f.2 ++ d) else f) = f := by
      intro f hf
      rw [if_neg (by simpa using h f hf)]
    rw [List.map_congr_left this]; simp
  · simp

end Pica
