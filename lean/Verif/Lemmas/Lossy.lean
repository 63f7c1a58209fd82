import Verif.Model.Lossy
import Verif.Spec.Lossy
import Verif.Lemmas.Utf8

namespace Pica
open Spec

/-- the shapes of encoded characters -/
def EncShape (e : Bytes) : Prop :=
  (∃ b0, e = [b0] ∧ b0 < 0x80) ∨
  (∃ b0 b1, e = [b0, b1] ∧ (decide ((0xC2 : Byte) ≤ b0) && decide (b0 ≤ 0xDF)) = true ∧ isCont b1 = true) ∨
  (∃ b0 b1 b2, e = [b0, b1, b2] ∧ (decide ((0xE0 : Byte) ≤ b0) && decide (b0 ≤ 0xEF)) = true ∧
    second3 b0 b1 = true ∧ isCont b2 = true) ∨
  (∃ b0 b1 b2 b3, e = [b0, b1, b2, b3] ∧ (decide ((0xF0 : Byte) ≤ b0) && decide (b0 ≤ 0xF4)) = true ∧
    second4 b0 b1 = true ∧ isCont b2 = true ∧ isCont b3 = true)

theorem encShape_char (c : Char) : EncShape (String.utf8EncodeChar c) := by
  have hv' : c.val.toNat < 0xD800 ∨ (0xDFFF < c.val.toNat ∧ c.val.toNat < 0x110000) := c.valid
  unfold String.utf8EncodeChar
  generalize c.val.toNat = v at hv'
  simp only
  split
  · exact .inl ⟨_, rfl, by rw [lt80_iff, ofNat_toNat (by omega)]; omega⟩
  · split
    · exact .inr (.inl ⟨_, _, rfl, by rw [range2_iff, ofNat_toNat (by omega)]; omega,
        by rw [isCont_iff, ofNat_toNat (by omega)]; omega⟩)
    · split
      · exact .inr (.inr (.inl ⟨_, _, _, rfl, by rw [range3_iff, ofNat_toNat (by omega)]; omega,
          by rw [second3_iff, ofNat_toNat (by omega), ofNat_toNat (by omega)]; omega,
          by rw [isCont_iff, ofNat_toNat (by omega)]; omega⟩))
      · exact .inr (.inr (.inr ⟨_, _, _, _, rfl, by rw [range4_iff, ofNat_toNat (by omega)]; omega,
          by rw [second4_iff, ofNat_toNat (by omega), ofNat_toNat (by omega)]; omega,
          by rw [isCont_iff, ofNat_toNat (by omega)]; omega,
          by rw [isCont_iff, ofNat_toNat (by omega)]; omega⟩))

theorem char_encShape {e : Bytes} (h : EncShape e) : ∃ c : Char, String.utf8EncodeChar c = e := by
  rcases h with ⟨b0, rfl, h0⟩ | ⟨b0, b1, rfl, h0, h1⟩ | ⟨b0, b1, b2, rfl, h0, h1, h2⟩ | ⟨b0, b1, b2, b3, rfl, h0, h1, h2, h3⟩
  · rw [lt80_iff] at h0
    obtain ⟨c, hc⟩ := exists_char (v := b0.toNat) (by omega)
    refine ⟨c, ?_⟩
    simp only [String.utf8EncodeChar, hc]
    rw [if_pos (by omega), ← byte_eq_ofNat (b := b0) rfl]
  · rw [range2_iff] at h0
    rw [isCont_iff] at h1
    obtain ⟨c, hc⟩ := exists_char (v := (b0.toNat - 192) * 64 + (b1.toNat - 128)) (by omega)
    refine ⟨c, ?_⟩
    simp only [String.utf8EncodeChar, hc]
    rw [if_neg (by omega), if_pos (by omega), ← byte_eq_ofNat (b := b0) (by omega), ← byte_eq_ofNat (b := b1) (by omega)]
  · rw [range3_iff] at h0
    rw [second3_iff] at h1
    rw [isCont_iff] at h2
    obtain ⟨c, hc⟩ := exists_char (v := (b0.toNat - 224) * 4096 + (b1.toNat - 128) * 64 + (b2.toNat - 128)) (by omega)
    refine ⟨c, ?_⟩
    simp only [String.utf8EncodeChar, hc]
    rw [if_neg (by omega), if_neg (by omega), if_pos (by omega), ← byte_eq_ofNat (b := b0) (by omega),
      ← byte_eq_ofNat (b := b1) (by omega), ← byte_eq_ofNat (b := b2) (by omega)]
  · rw [range4_iff] at h0
    rw [second4_iff] at h1
    rw [isCont_iff] at h2 h3
    obtain ⟨c, hc⟩ := exists_char
      (v := (b0.toNat - 240) * 262144 + (b1.toNat - 128) * 4096 + (b2.toNat - 128) * 64 + (b3.toNat - 128)) (by omega)
    refine ⟨c, ?_⟩
    simp only [String.utf8EncodeChar, hc]
    rw [if_neg (by omega), if_neg (by omega), if_neg (by omega), ← byte_eq_ofNat (b := b0) (by omega),
      ← byte_eq_ofNat (b := b1) (by omega), ← byte_eq_ofNat (b := b2) (by omega), ← byte_eq_ofNat (b := b3) (by omega)]

theorem encShape_ne {e : Bytes} (h : EncShape e) : e ≠ [] := by
  rcases h with ⟨b0, rfl, _⟩ | ⟨b0, b1, rfl, _⟩ | ⟨b0, b1, b2, rfl, _⟩ | ⟨b0, b1, b2, b3, rfl, _⟩ <;> simp

theorem not_lt80 {b : Byte} (h : 128 ≤ b.toNat) : ¬ b < 0x80 := by rw [lt80_iff]; omega

/-- a character is recognised -/
theorem utf8Step_shape {b0 : Byte} {r e rest : Bytes} (he : EncShape e) (h : b0 :: r = e ++ rest) :
    utf8Step b0 r = (e.length, true) := by
  rcases he with ⟨c0, rfl, h0⟩ | ⟨c0, c1, rfl, h0, h1⟩ | ⟨c0, c1, c2, rfl, h0, h1, h2⟩ | ⟨c0, c1, c2, c3, rfl, h0, h1, h2, h3⟩
  · simp only [List.cons_append, List.nil_append, List.cons.injEq] at h
    obtain ⟨rfl, rfl⟩ := h
    rw [utf8Step.eq_def, if_pos h0]; rfl
  · simp only [List.cons_append, List.nil_append, List.cons.injEq] at h
    obtain ⟨rfl, rfl⟩ := h
    have hr := range2_iff.1 h0
    rw [utf8Step.eq_def, if_neg (not_lt80 (by omega)), if_pos h0]
    simp only [h1, if_true]; rfl
  · simp only [List.cons_append, List.nil_append, List.cons.injEq] at h
    obtain ⟨rfl, rfl⟩ := h
    have hr := range3_iff.1 h0
    rw [utf8Step.eq_def, if_neg (not_lt80 (by omega)), if_neg (by rw [range2_iff]; omega), if_pos h0]
    simp only [h1, h2, if_true]; rfl
  · simp only [List.cons_append, List.nil_append, List.cons.injEq] at h
    obtain ⟨rfl, rfl⟩ := h
    have hr := range4_iff.1 h0
    rw [utf8Step.eq_def, if_neg (not_lt80 (by omega)), if_neg (by rw [range2_iff]; omega), if_neg (by rw [range3_iff]; omega),
      if_pos h0]
    simp only [h1, h2, h3, if_true]; rfl

/-- what a step takes -/
theorem utf8Step_cases (b0 : Byte) (r : Bytes) :
    ((utf8Step b0 r).2 = true ∧ EncShape ((b0 :: r).take (utf8Step b0 r).1) ∧
      (utf8Step b0 r).1 ≤ (b0 :: r).length) ∨
    ((utf8Step b0 r).2 = false ∧ 1 ≤ (utf8Step b0 r).1 ∧ (utf8Step b0 r).1 ≤ (b0 :: r).length ∧
      ((utf8Step b0 r).1 = 1 ∨ ∃ e, EncShape e ∧ (b0 :: r).take (utf8Step b0 r).1 <+: e)) := by
  have h80 : isCont 0x80 = true := by decide
  unfold utf8Step
  split
  · rename_i h0
    exact .inl ⟨rfl, .inl ⟨b0, rfl, h0⟩, by simp⟩
  split
  · rename_i h0
    split
    · split
      · rename_i h1
        exact .inl ⟨rfl, .inr (.inl ⟨b0, _, rfl, h0, h1⟩), by simp⟩
      · exact .inr ⟨rfl, Nat.le_refl _, by simp, .inl rfl⟩
    · exact .inr ⟨rfl, Nat.le_refl _, by simp, .inl rfl⟩
  split
  · rename_i h0
    split
    · split
      · rename_i h1
        split
        · split
          · rename_i h2
            exact .inl ⟨rfl, .inr (.inr (.inl ⟨b0, _, _, rfl, h0, h1, h2⟩)), by simp⟩
          · exact .inr ⟨rfl, by simp, by simp, .inr ⟨[b0, _, 0x80], .inr (.inr (.inl ⟨b0, _, _, rfl, h0, h1, h80⟩)), ⟨[0x80], rfl⟩⟩⟩
        · exact .inr ⟨rfl, by simp, by simp, .inr ⟨[b0, _, 0x80], .inr (.inr (.inl ⟨b0, _, _, rfl, h0, h1, h80⟩)), ⟨[0x80], rfl⟩⟩⟩
      · exact .inr ⟨rfl, Nat.le_refl _, by simp, .inl rfl⟩
    · exact .inr ⟨rfl, Nat.le_refl _, by simp, .inl rfl⟩
  split
  · rename_i h0
    split
    · split
      · rename_i h1
        split
        · split
          · rename_i h2
            split
            · split
              · rename_i h3
                exact .inl ⟨rfl, .inr (.inr (.inr ⟨b0, _, _, _, rfl, h0, h1, h2, h3⟩)), by simp⟩
              · exact .inr ⟨rfl, by simp, by simp, .inr ⟨[b0, _, _, 0x80], .inr (.inr (.inr ⟨b0, _, _, _, rfl, h0, h1, h2, h80⟩)), ⟨[0x80], rfl⟩⟩⟩
            · exact .inr ⟨rfl, by simp, by simp, .inr ⟨[b0, _, _, 0x80], .inr (.inr (.inr ⟨b0, _, _, _, rfl, h0, h1, h2, h80⟩)), ⟨[0x80], rfl⟩⟩⟩
          · exact .inr ⟨rfl, by simp, by simp, .inr ⟨[b0, _, 0x80, 0x80], .inr (.inr (.inr ⟨b0, _, _, _, rfl, h0, h1, h80, h80⟩)), ⟨[0x80, 0x80], rfl⟩⟩⟩
        · exact .inr ⟨rfl, by simp, by simp, .inr ⟨[b0, _, 0x80, 0x80], .inr (.inr (.inr ⟨b0, _, _, _, rfl, h0, h1, h80, h80⟩)), ⟨[0x80, 0x80], rfl⟩⟩⟩
      · exact .inr ⟨rfl, Nat.le_refl _, by simp, .inl rfl⟩
    · exact .inr ⟨rfl, Nat.le_refl _, by simp, .inl rfl⟩
  · exact .inr ⟨rfl, Nat.le_refl _, by simp, .inl rfl⟩

/-- the beginning of a character is not longer than what a step takes -/
theorem utf8Step_longest {b0 : Byte} {r p e rest : Bytes} (he : EncShape e) (hp : p <+: e) (h : b0 :: r = p ++ rest) :
    p.length ≤ (utf8Step b0 r).1 := by
  have hone : 1 ≤ (utf8Step b0 r).1 := by
    rcases utf8Step_cases b0 r with ⟨_, h, _⟩ | ⟨_, h, _⟩
    · have := encShape_ne h
      apply Classical.byContradiction
      intro hn
      exact this (by rw [show (utf8Step b0 r).1 = 0 by omega]; rfl)
    · exact h
  obtain ⟨q, hq⟩ := hp
  by_cases hl : p.length ≤ 1
  · omega
  obtain ⟨p0, p1, p', rfl⟩ : ∃ p0 p1 p', p = p0 :: p1 :: p' := by
    match p, hl with
    | [], hl => simp at hl
    | [_], hl => simp at hl
    | p0 :: p1 :: p', _ => exact ⟨p0, p1, p', rfl⟩
  by_cases hq0 : q = []
  · subst hq0
    rw [List.append_nil] at hq
    subst hq
    rw [utf8Step_shape he h]
    exact Nat.le_refl _
  obtain ⟨q0, q', rfl⟩ : ∃ q0 q', q = q0 :: q' := by
    cases q with
    | nil => exact absurd rfl hq0
    | cons q0 q' => exact ⟨q0, q', rfl⟩
  simp only [List.cons_append, List.cons.injEq] at h
  obtain ⟨rfl, rfl⟩ := h
  rcases he with ⟨c0, rfl, _⟩ | ⟨c0, c1, rfl, _⟩ | ⟨c0, c1, c2, rfl, h0, h1, h2⟩ | ⟨c0, c1, c2, c3, rfl, h0, h1, h2, h3⟩
  · simp at hq
  · simp at hq
  · simp only [List.cons_append, List.cons.injEq] at hq
    obtain ⟨rfl, rfl, hq⟩ := hq
    cases p' with
    | cons x p' => simp at hq
    | nil =>
      have hr := range3_iff.1 h0
      rw [utf8Step.eq_def, if_neg (not_lt80 (by omega)), if_neg (by rw [range2_iff]; omega), if_pos h0]
      simp only [List.nil_append, h1, if_true]
      split
      · split <;> simp
      · simp
  · simp only [List.cons_append, List.cons.injEq] at hq
    obtain ⟨rfl, rfl, hq⟩ := hq
    have hr := range4_iff.1 h0
    rw [utf8Step.eq_def, if_neg (not_lt80 (by omega)), if_neg (by rw [range2_iff]; omega), if_neg (by rw [range3_iff]; omega),
      if_pos h0]
    match p', hq with
    | [], _ =>
      simp only [List.nil_append, h1, if_true]
      split
      · split
        · split
          · split <;> simp
          · simp
        · simp
      · simp
    | [x], hq =>
      simp only [List.cons_append, List.nil_append, List.cons.injEq] at hq
      obtain ⟨rfl, _⟩ := hq
      simp only [List.cons_append, h1, h2, if_true]
      split
      · split <;> simp
      · simp
    | x :: y :: p', hq => simp at hq

end Pica
