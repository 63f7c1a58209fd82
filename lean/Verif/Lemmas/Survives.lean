import Verif.Spec.Survives
import Verif.Lemmas.Errors

/-! Record loops that never panic. -/

namespace Pica
open Spec

/-- the step keeps the invariant and does not panic -/
def StepOk {S : Type} (P : S → Prop) : Step S → Prop
  | .next s => P s
  | .stop s => P s
  | .panic => False

/-- the loop has kept the invariant and has not panicked -/
def EndOk {S : Type} (P : S → Prop) : LoopResult S → Prop
  | .ok s => P s
  | .err _ s => P s
  | .panic => False

theorem limitStep_ok {S : Type} {P : S → Prop} {limit count : Nat} {s : S} (h : P s) :
    StepOk P (limitStep limit count s) := by
  unfold limitStep
  split <;> exact h

theorem selBody_ok {S : Type} {P : S → Prop} {test : ByteRecord → Option Bool} {act : S → ByteRecord → Step S}
    {s : S} {r : ByteRecord} (hs : P s) (ht : ∃ b, test r = some b) (ha : test r = some true → StepOk P (act s r)) :
    StepOk P (selBody test act s r) := by
  obtain ⟨b, hb⟩ := ht
  unfold selBody
  cases b with
  | false => rw [hb]; exact hs
  | true => rw [hb]; exact ha hb

theorem resultBody_ok {S X : Type} {P : S → Prop} {limit : Nat} {cnt : S → Nat} {f : ByteRecord → Option X} {g : S → X → S}
    {s : S} {r : ByteRecord} (hf : ∃ x, f r = some x) (hg : ∀ x, P (g s x)) :
    StepOk P (resultBody limit cnt f g s r) := by
  obtain ⟨x, hx⟩ := hf
  unfold resultBody
  rw [hx]
  exact limitStep_ok (hg x)

theorem fileLoop_ok {S : Type} {P : S → Prop} {skip : Bool} {onSkip : S → S} {body : S → ByteRecord → Step S}
    (hskip : ∀ s, P s → P (onSkip s)) (is : List Item)
    (hb : ∀ s, ∀ r ∈ okItems is, P s → StepOk P (body s r)) (s : S) (hs : P s) :
    (∃ s', fileLoop skip onSkip body is s = .eof s' ∧ P s') ∨
    ∃ x, fileLoop skip onSkip body is s = .done x ∧ EndOk P x := by
  induction is generalizing s with
  | nil => exact .inl ⟨s, rfl, hs⟩
  | cons i is ih =>
    cases i with
    | error e =>
      rw [fileLoop]
      split
      · exact ih hb _ (hskip s hs)
      · exact .inr ⟨_, rfl, hs⟩
    | ok r =>
      rw [fileLoop]
      have h1 := hb s r (by simp [okItems]) hs
      have h2 : ∀ s, ∀ r ∈ okItems is, P s → StepOk P (body s r) :=
        fun s r' hr => hb s r' (by simp only [okItems, List.filterMap_cons, List.mem_cons]; exact .inr hr)
      cases hx : body s r with
      | next s' => rw [hx] at h1; exact ih h2 s' h1
      | stop s' => rw [hx] at h1; exact .inr ⟨_, rfl, h1⟩
      | panic => rw [hx] at h1; exact h1.elim

theorem filesLoop_endOk {S : Type} {P : S → Prop} {skip : Bool} {onSkip : S → S} {body : S → ByteRecord → Step S}
    {files : List (String × Bytes)} {rs : List ByteRecord} (hi : Input files rs)
    (hskip : ∀ s, P s → P (onSkip s)) (hb : ∀ s, ∀ r ∈ rs, P s → StepOk P (body s r)) (s : S) (hs : P s) :
    EndOk P (filesLoop skip onSkip body files s) := by
  induction hi generalizing s with
  | nil => exact hs
  | @cons name content ls fs rs hl _ ih =>
    rw [filesLoop]
    have e := okItems_readAll hl (some name)
    rcases fileLoop_ok (skip := skip) hskip (readAll content (some name))
      (fun s r hr => hb s r (List.mem_append_left _ (e ▸ hr))) s hs with ⟨s', h1, h2⟩ | ⟨x, h1, h2⟩
    · rw [h1]; exact ih (fun s r hr => hb s r (List.mem_append_right _ hr)) s' h2
    · rw [h1]; exact h2

/-- If the body never panics, then the command survives. -/
theorem filesLoop_survives {S : Type} {P : S → Prop} {skip : Bool} {onSkip : S → S} {body : S → ByteRecord → Step S}
    {files : List (String × Bytes)} {rs : List ByteRecord} (hi : Input files rs)
    (hskip : ∀ s, P s → P (onSkip s)) (hb : ∀ s, ∀ r ∈ rs, P s → StepOk P (body s r)) (s : S) (hs : P s) :
    Survives skip files (filesLoop skip onSkip body files s) := by
  have h := filesLoop_endOk (skip := skip) hi hskip hb s hs
  refine ⟨fun hc => ?_, fun hk cut n name hf => ?_⟩
  · have he := filesLoop_noErr (onSkip := onSkip) (body := body) hc s
    cases hx : filesLoop skip onSkip body files s with
    | ok s' => exact ⟨s', rfl⟩
    | err e s' => exact absurd hx (he e s')
    | panic => rw [hx] at h; exact h.elim
  · subst hk
    rcases (filesLoop_broken (onSkip := onSkip) (body := body) hf s).1 with ⟨s', -, h1 | h1⟩ | ⟨-, h1⟩
    · exact .inr ⟨s', h1⟩
    · exact .inl ⟨s', h1⟩
    · rw [h1] at h; exact h.elim

/-- a result that only depends on the state survives as well -/
theorem survives_map {S T : Type} {skip : Bool} {files : List (String × Bytes)} {x : LoopResult S} {y : LoopResult T}
    (h : Survives skip files x) (hok : ∀ s, x = .ok s → ∃ t, y = .ok t) (herr : ∀ e s, x = .err e s → ∃ t, y = .err e t) :
    Survives skip files y := by
  refine ⟨fun hc => ?_, fun hk cut n name hf => ?_⟩
  · obtain ⟨s, hs⟩ := h.clean hc
    exact hok s hs
  · rcases h.broken hk cut n name hf with ⟨s, hs⟩ | ⟨s, hs⟩
    · exact .inl (hok s hs)
    · exact .inr (herr _ s hs)

end Pica
