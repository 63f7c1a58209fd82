import Verif.Spec.Limit
import Verif.Lemmas.Command

/-! Record loops that stop at a limit. -/

namespace Pica
open Spec

/-- the first step goes on like the second, or stops earlier -/
def Sooner {S : Type} (R : S → S → Prop) (x y : Step S) : Prop :=
  x = y ∨ ∃ t, x = .stop t ∧ (y = .panic ∨ ∃ t', R t t' ∧ (y = .next t' ∨ y = .stop t'))

section
variable {S : Type} {R : S → S → Prop} {skip : Bool} {onSkip : S → S}

/-- the state of a loop only grows -/
theorem fileLoop_grows (hr : ∀ s, R s s) (ht : ∀ a b c, R a b → R b c → R a c) (ho : ∀ s, R s (onSkip s))
    {body : S → ByteRecord → Step S} (hg : ∀ s r t, body s r = .next t ∨ body s r = .stop t → R s t)
    (is : List Item) (s : S) :
    (∀ t, fileLoop skip onSkip body is s = .eof t → R s t) ∧
    (∀ t, fileLoop skip onSkip body is s = .done (.ok t) → R s t) ∧
    (∀ e t, fileLoop skip onSkip body is s = .done (.err e t) → R s t) := by
  induction is generalizing s with
  | nil => simp [fileLoop]; exact hr s
  | cons i is ih =>
    cases i with
    | error e =>
      rw [fileLoop]
      by_cases h : e.skipParse skip = true
      · rw [if_pos h]
        obtain ⟨h1, h2, h3⟩ := ih (onSkip s)
        exact ⟨fun t h => ht _ _ _ (ho s) (h1 t h), fun t h => ht _ _ _ (ho s) (h2 t h),
          fun e t h => ht _ _ _ (ho s) (h3 e t h)⟩
      · rw [if_neg h]
        simp [hr s]
    | ok r =>
      rw [fileLoop]
      cases hb : body s r with
      | next u =>
        have hu := hg s r u (.inl hb)
        obtain ⟨h1, h2, h3⟩ := ih u
        exact ⟨fun t h => ht _ _ _ hu (h1 t h), fun t h => ht _ _ _ hu (h2 t h), fun e t h => ht _ _ _ hu (h3 e t h)⟩
      | stop u => simp [hg s r u (.inr hb)]
      | panic => simp

theorem filesLoop_grows (hr : ∀ s, R s s) (ht : ∀ a b c, R a b → R b c → R a c) (ho : ∀ s, R s (onSkip s))
    {body : S → ByteRecord → Step S} (hg : ∀ s r t, body s r = .next t ∨ body s r = .stop t → R s t)
    (files : List (String × Bytes)) (s : S) :
    filesLoop skip onSkip body files s = .panic ∨ ∃ t, R s t ∧
      (filesLoop skip onSkip body files s = .ok t ∨ ∃ e, filesLoop skip onSkip body files s = .err e t) := by
  induction files generalizing s with
  | nil => exact .inr ⟨s, hr s, .inl rfl⟩
  | cons f files ih =>
    obtain ⟨name, content⟩ := f
    obtain ⟨h1, h2, h3⟩ := fileLoop_grows (skip := skip) hr ht ho hg (readAll content (some name)) s
    rw [filesLoop]
    cases hf : fileLoop skip onSkip body (readAll content (some name)) s with
    | eof u =>
      dsimp only
      rcases ih u with h | ⟨t, h, h'⟩
      · exact .inl h
      · exact .inr ⟨t, ht _ _ _ (h1 u hf) h, h'⟩
    | done x =>
      cases x with
      | ok t => exact .inr ⟨t, h2 t hf, .inl rfl⟩
      | err e t => exact .inr ⟨t, h3 e t hf, .inr ⟨e, rfl⟩⟩
      | panic => exact .inl rfl

/-- a loop with a body that stops earlier -/
theorem filesLoop_sooner (hr : ∀ s, R s s) (ht : ∀ a b c, R a b → R b c → R a c) (ho : ∀ s, R s (onSkip s))
    {body body' : S → ByteRecord → Step S} (hs : ∀ s r, Sooner R (body s r) (body' s r))
    (hg : ∀ s r t, body' s r = .next t ∨ body' s r = .stop t → R s t)
    (files : List (String × Bytes)) (s : S) :
    Shorter R (filesLoop skip onSkip body files s) (filesLoop skip onSkip body' files s) := by
  induction files generalizing s with
  | nil => exact .inl rfl
  | cons f files ih =>
    obtain ⟨name, content⟩ := f
    rw [filesLoop, filesLoop]
    generalize readAll content (some name) = is
    induction is generalizing s with
    | nil => exact ih s
    | cons i is ihi =>
      cases i with
      | error e =>
        rw [fileLoop, fileLoop]
        by_cases h : e.skipParse skip = true
        · rw [if_pos h, if_pos h]; exact ihi (onSkip s)
        · rw [if_neg h, if_neg h]; exact .inl rfl
      | ok r =>
        rw [fileLoop, fileLoop]
        rcases hs s r with h | ⟨t, h, h'⟩
        · rw [h]
          cases body' s r with
          | next u => exact ihi u
          | stop u => exact .inl rfl
          | panic => exact .inl rfl
        · rw [h]
          refine .inr ⟨t, rfl, ?_⟩
          rcases h' with h' | ⟨t', hR, h' | h'⟩
          · rw [h']; exact .inl rfl
          · rw [h']
            dsimp only
            obtain ⟨g1, g2, g3⟩ := fileLoop_grows (skip := skip) hr ht ho hg is t'
            cases hf : fileLoop skip onSkip body' is t' with
            | eof u =>
              dsimp only
              rcases filesLoop_grows (skip := skip) hr ht ho hg files u with g | ⟨v, g, g'⟩
              · exact .inl g
              · exact .inr ⟨v, ht _ _ _ hR (ht _ _ _ (g1 u hf) g), g'⟩
            | done x =>
              cases x with
              | ok v => exact .inr ⟨v, ht _ _ _ hR (g2 v hf), .inl rfl⟩
              | err e v => exact .inr ⟨v, ht _ _ _ hR (g3 e v hf), .inr ⟨e, rfl⟩⟩
              | panic => exact .inl rfl
          · rw [h']
            exact .inr ⟨t', hR, .inl rfl⟩

/-- a step of `limitStep` -/
theorem limitStep_sooner (hr : ∀ s, R s s) {m n : Nat} (h : LimitLe m n) (k : Nat) (t : S) :
    Sooner R (limitStep m k t) (limitStep n k t) := by
  unfold limitStep
  rcases h with rfl | ⟨h1, h2⟩
  · by_cases hm : (decide (m > 0) && decide (k ≥ m)) = true
    · rw [if_pos hm]
      exact .inr ⟨t, rfl, .inr ⟨t, hr t, .inl (by simp)⟩⟩
    · rw [if_neg hm]
      exact .inl (by simp)
  · by_cases hm : (decide (m > 0) && decide (k ≥ m)) = true
    · rw [if_pos hm]
      by_cases hn : (decide (n > 0) && decide (k ≥ n)) = true
      · rw [if_pos hn]; exact .inl rfl
      · rw [if_neg hn]; exact .inr ⟨t, rfl, .inr ⟨t, hr t, .inl rfl⟩⟩
    · rw [if_neg hm, if_neg]
      · exact .inl rfl
      · simp only [Bool.and_eq_true, decide_eq_true_eq, not_and, ge_iff_le, Nat.not_le] at hm ⊢
        intro _
        have := hm h1
        omega

theorem limitStep_state {n k : Nat} {t u : S} (h : limitStep n k t = .next u ∨ limitStep n k t = .stop u) : u = t := by
  unfold limitStep at h
  split at h <;> simp at h <;> exact h.symm

theorem selBody_sooner {test : ByteRecord → Option Bool} {act act' : S → ByteRecord → Step S}
    (h : ∀ s r, Sooner R (act s r) (act' s r)) (s : S) (r : ByteRecord) :
    Sooner R (selBody test act s r) (selBody test act' s r) := by
  unfold selBody
  cases test r with
  | none => exact .inl rfl
  | some b => cases b with
    | false => exact .inl rfl
    | true => exact h s r

theorem selBody_grows (hr : ∀ s, R s s) {test : ByteRecord → Option Bool} {act : S → ByteRecord → Step S}
    (h : ∀ s r t, act s r = .next t ∨ act s r = .stop t → R s t) (s : S) (r : ByteRecord) (t : S)
    (hb : selBody test act s r = .next t ∨ selBody test act s r = .stop t) : R s t := by
  unfold selBody at hb
  split at hb
  · simp at hb
  · simp at hb; exact hb ▸ hr s
  · exact h s r t hb

theorem resultBody_sooner (hr : ∀ s, R s s) {X : Type} {m n : Nat} (h : LimitLe m n) {cnt : S → Nat}
    {f : ByteRecord → Option X} {g : S → X → S} (s : S) (r : ByteRecord) :
    Sooner R (resultBody m cnt f g s r) (resultBody n cnt f g s r) := by
  unfold resultBody
  cases f r with
  | none => exact .inl rfl
  | some x => exact limitStep_sooner hr h _ _

theorem resultBody_grows {X : Type} {n : Nat} {cnt : S → Nat} {f : ByteRecord → Option X} {g : S → X → S}
    (hg : ∀ s x, R s (g s x)) (s : S) (r : ByteRecord) (t : S)
    (h : resultBody n cnt f g s r = .next t ∨ resultBody n cnt f g s r = .stop t) : R s t := by
  unfold resultBody at h
  split at h
  · simp at h
  · rw [limitStep_state h]; exact hg s _

/-! ## a loop that has stopped -/

/-- a loop that has ended with a state in which it does not go on does not read more -/
theorem filesLoop_more {P : S → Prop} {body : S → ByteRecord → Step S} (ho : ∀ s, P s → P (onSkip s))
    (hn : ∀ s r t, P s → body s r = .next t → P t) {files files' : List (String × Bytes)} (hm : MoreInput files files')
    (s₀ : S) (h0 : P s₀) (s : S) (h : filesLoop skip onSkip body files s₀ = .ok s) (hs : ¬ P s) :
    filesLoop skip onSkip body files' s₀ = .ok s := by
  have key : ∀ (is : List Item) (u v : S), P u → fileLoop skip onSkip body is u = .eof v → P v := by
    intro is
    induction is with
    | nil => intro u v hu h; simp [fileLoop] at h; exact h ▸ hu
    | cons i is ih =>
      intro u v hu h
      cases i with
      | error e =>
        rw [fileLoop] at h
        split at h
        · exact ih _ _ (ho u hu) h
        · simp at h
      | ok r =>
        rw [fileLoop] at h
        cases hb : body u r with
        | next w => rw [hb] at h; exact ih _ _ (hn _ _ _ hu hb) h
        | stop w => rw [hb] at h; simp at h
        | panic => rw [hb] at h; simp at h
  have longer : ∀ (is is' : List Item) (u : S) (x : LoopResult S), fileLoop skip onSkip body is u = .done x →
      fileLoop skip onSkip body (is ++ is') u = .done x := by
    intro is is'
    induction is with
    | nil => intro u x h; simp [fileLoop] at h
    | cons i is ih =>
      intro u x h
      cases i with
      | error e =>
        rw [List.cons_append, fileLoop]
        rw [fileLoop] at h
        split at h
        · rename_i he; rw [if_pos he]; exact ih _ _ h
        · rename_i he; rw [if_neg he]; exact h
      | ok r =>
        rw [List.cons_append, fileLoop]
        rw [fileLoop] at h
        cases hb : body u r with
        | next w => rw [hb] at h; exact ih _ _ h
        | stop w => rw [hb] at h; exact h
        | panic => rw [hb] at h; exact h
  have items : ∀ (src : Option String) (ls ls' : List Bytes) (k : Nat), ∃ is', itemsFrom src k (ls ++ ls') = itemsFrom src k ls ++ is' := by
    intro src ls ls'
    induction ls with
    | nil => intro k; exact ⟨_, rfl⟩
    | cons l ls ih =>
      intro k
      obtain ⟨is', h⟩ := ih (k + 1)
      exact ⟨is', by simp [itemsFrom, h]⟩
  cases hm with
  | files _ more =>
    induction files generalizing s₀ with
    | nil => simp [filesLoop] at h; exact absurd (h ▸ h0) hs
    | cons f files ih =>
      obtain ⟨name, content⟩ := f
      rw [List.cons_append, filesLoop]
      rw [filesLoop] at h
      cases hf : fileLoop skip onSkip body (readAll content (some name)) s₀ with
      | eof u => rw [hf] at h; exact ih u (key _ _ _ h0 hf) h
      | done x => rw [hf] at h; exact h
  | lines fs name a b ls ls' more ha hb =>
    obtain ⟨is', hi⟩ := items (shownSource (some name)) ls ls' 0
    induction fs generalizing s₀ with
    | nil =>
      rw [List.nil_append, filesLoop] at h
      rw [List.nil_append, filesLoop, readAll_lines hb, hi, ← readAll_lines ha]
      cases hf : fileLoop skip onSkip body (readAll a (some name)) s₀ with
      | eof u =>
        rw [hf] at h
        simp only [filesLoop, LoopResult.ok.injEq] at h
        exact absurd (h ▸ key _ _ _ h0 hf) hs
      | done x => rw [longer _ _ _ _ hf]; rw [hf] at h; exact h
    | cons f fs ih =>
      obtain ⟨name', content⟩ := f
      rw [List.cons_append, filesLoop]
      rw [List.cons_append, filesLoop] at h
      cases hf : fileLoop skip onSkip body (readAll content (some name')) s₀ with
      | eof u => rw [hf] at h; exact ih u (key _ _ _ h0 hf) h
      | done x => rw [hf] at h; exact h

/-- what holds of the states of a loop: `P` while it goes on, `Q` at the end -/
theorem filesLoop_ends {P Q : S → Prop} {body : S → ByteRecord → Step S} (hPQ : ∀ s, P s → Q s) (ho : ∀ s, P s → P (onSkip s))
    (hn : ∀ s r t, P s → body s r = .next t → P t) (hst : ∀ s r t, P s → body s r = .stop t → Q t)
    (files : List (String × Bytes)) (s₀ : S) (h0 : P s₀) (s : S)
    (h : filesLoop skip onSkip body files s₀ = .ok s ∨ ∃ e, filesLoop skip onSkip body files s₀ = .err e s) : Q s := by
  induction files generalizing s₀ with
  | nil => simp [filesLoop] at h; exact hPQ s (h ▸ h0)
  | cons f files ih =>
    obtain ⟨name, content⟩ := f
    rw [filesLoop] at h
    generalize readAll content (some name) = is at h
    induction is generalizing s₀ with
    | nil => exact ih s₀ h0 h
    | cons i is ihi =>
      cases i with
      | error e =>
        rw [fileLoop] at h
        split at h
        · rename_i heq; split at heq
          · rename_i hk
            refine ihi (onSkip s₀) (ho _ h0) ?_
            rw [heq]; exact h
          · simp at heq
        · rename_i x heq
          split at heq
          · rename_i hk
            refine ihi (onSkip s₀) (ho _ h0) ?_
            rw [heq]; exact h
          · simp at heq
            rw [← heq] at h
            simp at h
            exact hPQ s (h ▸ h0)
      | ok r =>
        rw [fileLoop] at h
        cases hb : body s₀ r with
        | next u => rw [hb] at h; exact ihi u (hn _ _ _ h0 hb) h
        | stop u => rw [hb] at h; simp at h; exact h ▸ hst _ _ _ h0 hb
        | panic => rw [hb] at h; simp at h

theorem limitStep_goes {n k : Nat} {t u : S} (hn : 0 < n) (h : limitStep n k t = .next u) : u = t ∧ k < n := by
  unfold limitStep at h
  split at h
  · simp at h
  · rename_i hc
    simp only [Step.next.injEq] at h
    refine ⟨h.symm, ?_⟩
    simp only [Bool.and_eq_true, decide_eq_true_eq, not_and, ge_iff_le, Nat.not_le] at hc
    exact hc hn

theorem limitStep_ends {n k : Nat} {t u : S} (h : limitStep n k t = .stop u) : u = t :=
  limitStep_state (.inr h)

theorem selBody_stop {P Q : S → Prop} {test : ByteRecord → Option Bool} {act : S → ByteRecord → Step S}
    (h : ∀ s r t, P s → act s r = .stop t → Q t) (s : S) (r : ByteRecord) (t : S) (hs : P s)
    (hb : selBody test act s r = .stop t) : Q t := by
  unfold selBody at hb
  split at hb
  · simp at hb
  · simp at hb
  · exact h s r t hs hb

theorem selBody_goes {P : S → Prop} {test : ByteRecord → Option Bool} {act : S → ByteRecord → Step S}
    (h : ∀ s r t, P s → act s r = .next t → P t) (s : S) (r : ByteRecord) (t : S) (hs : P s)
    (hb : selBody test act s r = .next t) : P t := by
  unfold selBody at hb
  split at hb
  · simp at hb
  · simp at hb; exact hb ▸ hs
  · exact h s r t hs hb

end
end Pica
