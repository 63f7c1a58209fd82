import Verif.Lemmas.TagMatcher

/-! Occurrence selectors. -/

namespace Pica
open Parser Spec

def IsDigits (o : Bytes) : Prop := ∀ b ∈ o, (0x30 : Byte) ≤ b ∧ b ≤ 0x39

theorem foldl_num (o : Bytes) (k : Nat) :
    o.foldl (fun n b => 10 * n + (b.toNat - 48)) k = k * 10 ^ o.length + numVal o := by
  induction o generalizing k with
  | nil => simp [numVal]
  | cons x xs ih =>
    simp only [numVal, List.foldl_cons, List.length_cons]
    rw [ih, ih, Nat.pow_succ]
    simp only [Nat.mul_zero, Nat.zero_add]
    have : (10 * k + (x.toNat - 48)) * 10 ^ xs.length
        = k * (10 ^ xs.length * 10) + (x.toNat - 48) * 10 ^ xs.length := by
      rw [Nat.add_mul]; congr 1
      rw [Nat.mul_comm 10 k, Nat.mul_assoc, Nat.mul_comm 10]
    omega

theorem numVal_cons (x : Byte) (xs : Bytes) :
    numVal (x :: xs) = (x.toNat - 48) * 10 ^ xs.length + numVal xs := by
  show List.foldl _ _ xs = _
  rw [foldl_num]; simp

theorem numVal_lt {o : Bytes} (h : IsDigits o) : numVal o < 10 ^ o.length := by
  induction o with
  | nil => simp [numVal]
  | cons x xs ih =>
    rw [numVal_cons, List.length_cons, Nat.pow_succ]
    have h1 := ih (fun b hb => h b (by simp [hb]))
    have h2 := (h x (by simp)).2
    rw [UInt8.le_iff_toNat_le] at h2
    have h3 : (x.toNat - 48) ≤ 9 := by
      have : (0x39 : UInt8).toNat = 57 := rfl
      omega
    have := Nat.mul_le_mul_right (10 ^ xs.length) h3
    omega

theorem lex_lt_iff {a b : Bytes} (ha : IsDigits a) (hb : IsDigits b) (hl : a.length = b.length) :
    a < b ↔ numVal a < numVal b := by
  induction a generalizing b with
  | nil => cases b with
    | nil => simp [numVal]
    | cons y ys => simp at hl
  | cons x xs ih =>
    cases b with
    | nil => simp at hl
    | cons y ys =>
      have hxs : IsDigits xs := fun b h => ha b (by simp [h])
      have hys : IsDigits ys := fun b h => hb b (by simp [h])
      have hl' : xs.length = ys.length := by simpa using hl
      rw [List.cons_lt_cons_iff, ih hxs hys hl', numVal_cons, numVal_cons, hl']
      have h1 := numVal_lt hxs
      have h2 := numVal_lt hys
      rw [hl'] at h1
      have hx := (ha x (by simp)).1
      have hy := (hb y (by simp)).1
      rw [UInt8.le_iff_toNat_le] at hx hy
      have h48 : (0x30 : UInt8).toNat = 48 := rfl
      rw [h48] at hx hy
      rw [UInt8.lt_iff_toNat_lt, ← UInt8.toNat_inj]
      constructor
      · rintro (h | ⟨h, h'⟩)
        · have h3 : (x.toNat - 48) + 1 ≤ y.toNat - 48 := by omega
          have := Nat.mul_le_mul_right (10 ^ ys.length) h3
          rw [Nat.add_mul] at this
          omega
        · rw [h]; omega
      · intro h
        by_cases hlt : x.toNat < y.toNat
        · exact .inl hlt
        · by_cases heq : x.toNat = y.toNat
          · refine .inr ⟨heq, ?_⟩
            rw [heq] at h; omega
          · exfalso
            have h3 : (y.toNat - 48) + 1 ≤ x.toNat - 48 := by omega
            have := Nat.mul_le_mul_right (10 ^ ys.length) h3
            rw [Nat.add_mul] at this
            omega

theorem lex_le_iff {a b : Bytes} (ha : IsDigits a) (hb : IsDigits b) (hl : a.length = b.length) :
    a ≤ b ↔ numVal a ≤ numVal b := by
  have := lex_lt_iff hb ha hl.symm
  rw [← List.not_lt, this]; omega

theorem isOcc_iff {o : Bytes} : IsOcc o ↔ IsOccDigits o := Iff.rfl

/-- the parser accepts only selector texts -/
theorem pOccMatcher_sound {i m r} (h : pOccMatcher i = some (m, r)) :
    ∃ t P w, i = t ++ r ∧ OccSel t P w ∧
      ∀ o, (∀ n, o = some n → IsOccDigits n ∧ ∀ k, w = some k → n.length = k) →
        (m.isMatch o = true ↔ P o) := by
  have hnone : ∀ o, OccMatcher.isMatch .none o = true ↔ o = none ∨ o = some [0x30, 0x30] := by
    intro o; cases o <;> simp [OccMatcher.isMatch]
  unfold pOccMatcher at h
  rcases alt_eq_some.1 h with h | ⟨_, h⟩
  · obtain ⟨b, r1, h1, h2⟩ := preceded_eq_some.1 h
    obtain ⟨rfl, rfl⟩ := byte_eq_some.1 h1
    rcases alt_eq_some.1 h2 with h | ⟨_, h⟩
    · unfold pOccRange at h
      obtain ⟨⟨a, b⟩, h3, rfl⟩ := map_eq_some.1 h
      obtain ⟨h4, h5⟩ := verify_eq_some.1 h3
      obtain ⟨r2, x, r3, h6, h7, h8⟩ := separatedPair_eq_some.1 h4
      obtain ⟨ha, rfl⟩ := pOccurrence_sound h6
      obtain ⟨rfl, rfl⟩ := byte_eq_some.1 h7
      obtain ⟨hb, rfl⟩ := pOccurrence_sound h8
      simp only [Bool.and_eq_true, beq_iff_eq, decide_eq_true_eq] at h5
      refine ⟨0x2F :: (a ++ 0x2D :: b), _, _, by simp [SLASH],
        .range a b ha hb h5.1 ((lex_lt_iff ha.2 hb.2 h5.1).1 h5.2), ?_⟩
      intro o ho
      cases o with
      | none => simp [OccMatcher.isMatch]
      | some n =>
        obtain ⟨hn, hw⟩ := ho n rfl
        have hw := hw _ rfl
        simp only [OccMatcher.isMatch, Bool.and_eq_true, decide_eq_true_eq]
        rw [lex_le_iff ha.2 hn.2 hw.symm, lex_le_iff hn.2 hb.2 (by omega)]
        constructor
        · rintro h; exact ⟨n, rfl, h⟩
        · rintro ⟨n', h', h⟩; cases h'; exact h
    · rcases alt_eq_some.1 h with h | ⟨_, h⟩
      · unfold pOccExact at h
        obtain ⟨n, h3, rfl⟩ := map_eq_some.1 h
        obtain ⟨h4, h5⟩ := verify_eq_some.1 h3
        obtain ⟨hn, rfl⟩ := pOccurrence_sound h4
        refine ⟨0x2F :: n, _, _, rfl, .exact n hn (by simpa using h5), ?_⟩
        intro o _
        cases o <;> simp [OccMatcher.isMatch]
      · rcases alt_eq_some.1 h with h | ⟨_, h⟩
        · obtain ⟨rfl, u, h⟩ := value_eq_some.1 h
          have := lit_eq_some.1 h
          subst this
          exact ⟨_, _, _, rfl, .zero, fun o _ => hnone o⟩
        · obtain ⟨rfl, u, h⟩ := value_eq_some.1 h
          have := lit_eq_some.1 h
          subst this
          refine ⟨_, _, _, rfl, .any, fun o _ => ?_⟩
          cases o <;> simp [OccMatcher.isMatch]
  · simp at h
    obtain ⟨rfl, rfl⟩ := h
    exact ⟨[], _, _, rfl, .empty, fun o _ => hnone o⟩

/-- how the range alternative fails on an exact selector at the end of input -/
theorem pOccRange_none_of_exact {n : Bytes} (h : IsOccDigits n) : pOccRange n = none := by
  rw [Option.eq_none_iff_forall_ne_some]
  rintro ⟨m, r⟩ h'
  unfold pOccRange at h'
  obtain ⟨⟨a, b⟩, h3, rfl⟩ := map_eq_some.1 h'
  obtain ⟨h4, -⟩ := verify_eq_some.1 h3
  obtain ⟨r2, x, r3, h6, h7, h8⟩ := separatedPair_eq_some.1 h4
  obtain ⟨ha, he⟩ := pOccurrence_sound h6
  obtain ⟨rfl, rfl⟩ := byte_eq_some.1 h7
  have := (h.2 0x2D (by rw [he]; simp)).1
  exact absurd this (by decide)

/-- how a range is read -/
theorem OccMatcher.new_range {a b : Bytes} (ha : IsOccDigits a) (hb : IsOccDigits b) (hl : a.length = b.length)
    (hlt : numVal a < numVal b) : OccMatcher.new (0x2F :: (a ++ 0x2D :: b)) = some (.range a b) := by
  refine parseAll_eq_some.2 ?_
  unfold pOccMatcher
  refine alt_eq_some.2 (.inl (preceded_eq_some.2 ⟨SLASH, _, byte_cons_self _ _, ?_⟩))
  refine alt_eq_some.2 (.inl (map_eq_some.2 ⟨(a, b), verify_eq_some.2 ⟨?_, ?_⟩, rfl⟩))
  · refine separatedPair_eq_some.2 ⟨0x2D :: b, 0x2D, b, ?_, byte_cons_self _ _, ?_⟩
    · apply pOccurrence_complete ha
      intro x t hx
      simp at hx; rw [← hx.1]; rfl
    · simpa using pOccurrence_complete (r := []) (isOcc_iff.2 hb) (by simp)
  · simp [hl, (lex_lt_iff ha.2 hb.2 hl).2 hlt]

/-- every selector text is accepted -/
theorem OccMatcher.new_complete {t P w} (h : OccSel t P w) : ∃ m, OccMatcher.new t = some m := by
  cases h with
  | empty => exact ⟨.none, by decide⟩
  | zero => exact ⟨.none, by decide⟩
  | any => exact ⟨.any, by decide⟩
  | exact n hn h0 =>
    refine ⟨.exact n, parseAll_eq_some.2 ?_⟩
    unfold pOccMatcher
    refine alt_eq_some.2 (.inl (preceded_eq_some.2 ⟨SLASH, n, byte_cons_self _ _, ?_⟩))
    refine alt_eq_some.2 (.inr ⟨pOccRange_none_of_exact hn, ?_⟩)
    refine alt_eq_some.2 (.inl (map_eq_some.2 ⟨n, verify_eq_some.2 ⟨?_, by simpa using h0⟩, rfl⟩))
    simpa using pOccurrence_complete (r := []) (isOcc_iff.2 hn) (by simp)
  | range a b ha hb hl hlt => exact ⟨_, OccMatcher.new_range ha hb hl hlt⟩

end Pica
