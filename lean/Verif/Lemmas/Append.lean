import Verif.Model.Append
import Verif.Props.Count
import Verif.Props.Csv

/-! Record loops over more files, as sums of two loops. -/

namespace Pica
open Spec

/-- a step whose state is changed -/
def Step.map {S T : Type} (f : S → T) : Step S → Step T
  | .next s => .next (f s)
  | .stop s => .stop (f s)
  | .panic => .panic

/-- the result of two loops -/
def LoopResult.plus {S : Type} (sh : S → S → S) : LoopResult S → LoopResult S → LoopResult S
  | .ok a, .ok b => .ok (sh a b)
  | .ok a, .err e b => .err e (sh a b)
  | .ok _, .panic => .panic
  | .err e a, _ => .err e a
  | .panic, _ => .panic

theorem filesLoop_shift {S : Type} {skip : Bool} {body : S → ByteRecord → Step S} {f : S → S}
    (hf : ∀ s r, body (f s) r = (body s r).map f) (files : List (String × Bytes)) (s : S) :
    filesLoop skip id body files (f s) =
      (match filesLoop skip id body files s with
        | .ok s' => .ok (f s')
        | .err e s' => .err e (f s')
        | .panic => .panic) := by
  have hfile : ∀ (is : List Item) (s : S), fileLoop skip id body is (f s) =
      (match fileLoop skip id body is s with
        | .eof s' => .eof (f s')
        | .done (.ok s') => .done (.ok (f s'))
        | .done (.err e s') => .done (.err e (f s'))
        | .done .panic => .done .panic) := by
    intro is
    induction is with
    | nil => intro s; rfl
    | cons i is ih =>
      intro s
      cases i with
      | error e =>
        rw [fileLoop, fileLoop]
        by_cases h : e.skipParse skip = true
        · rw [if_pos h, if_pos h]; exact ih s
        · rw [if_neg h, if_neg h]
      | ok r =>
        rw [fileLoop, fileLoop, hf]
        cases body s r with
        | next s' => exact ih s'
        | stop s' => rfl
        | panic => rfl
  induction files generalizing s with
  | nil => rfl
  | cons x files ih =>
    obtain ⟨name, content⟩ := x
    rw [filesLoop, filesLoop, hfile]
    cases fileLoop skip id body (readAll content (some name)) s with
    | eof s' => exact ih s'
    | done r => cases r <;> rfl

/-- a loop over two groups of files, when the body never stops and its states add up -/
theorem filesLoop_plus {S : Type} {skip : Bool} {body : S → ByteRecord → Step S} {sh : S → S → S} {P : S → Prop} {s₀ : S}
    (hb : ∀ s r s', body s r ≠ .stop s') (hsh : ∀ a s r, body (sh a s) r = (body s r).map (sh a))
    (hP : ∀ s r s', P s → (body s r = .next s' ∨ body s r = .stop s') → P s') (h0 : P s₀)
    (hz : ∀ a, P a → sh a s₀ = a) (f1 f2 : List (String × Bytes)) :
    filesLoop skip id body (f1 ++ f2) s₀ =
      (filesLoop skip id body f1 s₀).plus sh (filesLoop skip id body f2 s₀) := by
  rw [Props.filesLoop_append hb]
  cases h1 : filesLoop skip id body f1 s₀ with
  | err e s => rfl
  | panic => rfl
  | ok a =>
    have ha : P a := Props.filesLoop_keeps (P := P) hP f1 s₀ a h0 (.inl h1)
    have := filesLoop_shift (skip := skip) (hsh a) f2 s₀
    rw [hz a ha] at this
    dsimp only
    rw [this]
    cases filesLoop skip id body f2 s₀ <;> rfl

end Pica
