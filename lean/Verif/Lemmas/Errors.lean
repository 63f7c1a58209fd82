import Verif.Spec.Errors
import Verif.Lemmas.Command

/-! Loops over inputs with invalid lines. -/

namespace Pica
open Spec

theorem fileLoop_append {S : Type} {skip : Bool} {onSkip : S → S} {body : S → ByteRecord → Step S}
    (is is' : List Item) (s : S) : fileLoop skip onSkip body (is ++ is') s =
      match fileLoop skip onSkip body is s with
      | .eof s' => fileLoop skip onSkip body is' s'
      | .done r => .done r := by
  induction is generalizing s with
  | nil => rfl
  | cons i is ih =>
    cases i with
    | error e =>
      simp only [List.cons_append, fileLoop]
      split
      · exact ih _
      · rfl
    | ok r =>
      simp only [List.cons_append, fileLoop]
      cases body s r with
      | next s' => exact ih _
      | stop s' => rfl
      | panic => rfl

/-- as `filesLoop`, but tells whether the end of the input has been reached -/
def filesEnd {S : Type} (skip : Bool) (onSkip : S → S) (body : S → ByteRecord → Step S) :
    List (String × Bytes) → S → FileEnd S
  | [], s => .eof s
  | (name, content) :: fs, s =>
    match fileLoop skip onSkip body (readAll content (some name)) s with
    | .eof s' => filesEnd skip onSkip body fs s'
    | .done r => .done r

theorem filesLoop_end {S : Type} {skip : Bool} {onSkip : S → S} {body : S → ByteRecord → Step S}
    (fs : List (String × Bytes)) (s : S) : filesLoop skip onSkip body fs s =
      match filesEnd skip onSkip body fs s with
      | .eof s' => .ok s'
      | .done r => r := by
  induction fs generalizing s with
  | nil => rfl
  | cons f fs ih =>
    obtain ⟨name, content⟩ := f
    rw [filesLoop, filesEnd]
    cases fileLoop skip onSkip body (readAll content (some name)) s with
    | eof s' => exact ih s'
    | done r => rfl

theorem filesEnd_append {S : Type} {skip : Bool} {onSkip : S → S} {body : S → ByteRecord → Step S}
    (fs fs' : List (String × Bytes)) (s : S) : filesEnd skip onSkip body (fs ++ fs') s =
      match filesEnd skip onSkip body fs s with
      | .eof s' => filesEnd skip onSkip body fs' s'
      | .done r => .done r := by
  induction fs generalizing s with
  | nil => rfl
  | cons f fs ih =>
    obtain ⟨name, content⟩ := f
    rw [List.cons_append, filesEnd, filesEnd]
    cases fileLoop skip onSkip body (readAll content (some name)) s with
    | eof s' => exact ih s'
    | done r => rfl

theorem itemsFrom_append (src : Option String) (n : Nat) (a b : List Bytes) :
    itemsFrom src n (a ++ b) = itemsFrom src n a ++ itemsFrom src (n + a.length) b := by
  induction a generalizing n with
  | nil => rfl
  | cons l a ih =>
    rw [List.cons_append, itemsFrom, itemsFrom, ih, List.cons_append, List.length_cons,
      Nat.add_right_comm, Nat.add_assoc]

theorem lines_prefix {content : Bytes} {a b : List Bytes} (h : Lines content (a ++ b)) (hb : b ≠ []) :
    Lines a.flatten a := by
  induction a generalizing content with
  | nil => exact .eof
  | cons l a ih =>
    generalize hx : l :: a ++ b = x at h
    cases h with
    | eof => simp at hx
    | last t h1 h2 =>
      rw [List.cons_append, List.cons.injEq] at hx
      exact absurd (List.append_eq_nil_iff.1 hx.2).2 hb
    | line t rest ls ht hl =>
      rw [List.cons_append, List.cons.injEq] at hx
      obtain ⟨rfl, rfl⟩ := hx
      rw [List.flatten_cons, List.append_assoc]
      exact .line t _ a ht (ih hl)

theorem fileLoop_valid {S : Type} {skip : Bool} {onSkip : S → S} {body : S → ByteRecord → Step S}
    {content : Bytes} {ls : List Bytes} (hl : Lines content ls)
    (hv : ∀ l ∈ ls, (Record.fromBytes l).isSome = true) (name : String) (s : S) (e : ReadErr) (s' : S) :
    fileLoop skip onSkip body (readAll content (some name)) s ≠ .done (.err e s') := by
  refine fileLoop_clean _ s (fun e he => ?_) e s'
  rw [readAll_lines hl] at he
  obtain ⟨_, l, hl', hn⟩ := itemsFrom_error he
  have := hv l hl'
  rw [hn] at this; simp at this

theorem filesEnd_valid {S : Type} {skip : Bool} {onSkip : S → S} {body : S → ByteRecord → Step S}
    {fs : List (String × Bytes)} (h : AllValid fs) (s : S) (e : ReadErr) (s' : S) :
    filesEnd skip onSkip body fs s ≠ .done (.err e s') := by
  induction fs generalizing s with
  | nil => simp [filesEnd]
  | cons f fs ih =>
    obtain ⟨name, content⟩ := f
    obtain ⟨ls, hl⟩ := lines_exists content
    rw [filesEnd]
    have hv := fileLoop_valid (skip := skip) (onSkip := onSkip) (body := body) hl (h (name, content) (by simp) ls hl) name s
    cases hf : fileLoop skip onSkip body (readAll content (some name)) s with
    | eof s1 => exact ih (fun f hf => h f (by simp [hf])) s1
    | done r =>
      dsimp only
      rw [hf] at hv
      exact hv e s'

theorem fileLoop_next {S : Type} {skip : Bool} {onSkip : S → S} {body : S → ByteRecord → Step S}
    (hb : ∀ s r s', body s r ≠ .stop s') (is : List Item) (s s' : S) :
    fileLoop skip onSkip body is s ≠ .done (.ok s') := by
  induction is generalizing s with
  | nil => simp [fileLoop]
  | cons i is ih =>
    cases i with
    | error e =>
      rw [fileLoop]
      split
      · exact ih _
      · simp
    | ok r =>
      rw [fileLoop]
      cases hr : body s r with
      | next s1 => exact ih _
      | stop s1 => exact absurd hr (hb s r s1)
      | panic => simp

theorem filesEnd_next {S : Type} {skip : Bool} {onSkip : S → S} {body : S → ByteRecord → Step S}
    (hb : ∀ s r s', body s r ≠ .stop s') (fs : List (String × Bytes)) (s s' : S) :
    filesEnd skip onSkip body fs s ≠ .done (.ok s') := by
  induction fs generalizing s with
  | nil => simp [filesEnd]
  | cons f fs ih =>
    obtain ⟨name, content⟩ := f
    rw [filesEnd]
    have hv := fileLoop_next (skip := skip) (onSkip := onSkip) hb (readAll content (some name)) s
    cases hf : fileLoop skip onSkip body (readAll content (some name)) s with
    | eof s1 => exact ih s1
    | done r =>
      dsimp only
      rw [hf] at hv
      exact hv s'

theorem badLine_eq (n : Nat) (name : String) :
    parseMsg n (shownSource (some name)) = badLine n name := by
  unfold badLine
  by_cases h : name = "-"
  · subst h; rfl
  · rw [if_neg h, shownSource_some h]; rfl

/-- the state in which the end of the input before the invalid line is reached, or
the result of stopping before -/
theorem filesLoop_bad {S : Type} {onSkip : S → S} {body : S → ByteRecord → Step S}
    {files cut : List (String × Bytes)} {n : Nat} {name : String} (h : FirstBad files cut n name) (s : S) :
    ∃ x, filesEnd false onSkip body cut s = x ∧
      filesLoop false onSkip body files s =
        (match x with
        | .eof s' => .err (.parse (badLine n name)) s'
        | .done r => r) ∧ ∀ e s', x ≠ .done (.err e s') := by
  cases h with
  | intro pre name content post good bad more hpre hl hg hb =>
    have hcut := lines_prefix hl (by simp)
    have hvc : AllValid [(name, good.flatten)] := by
      intro f hf ls hls l hm
      simp only [List.mem_singleton] at hf
      subst hf
      rw [lines_unique hls hcut] at hm
      exact hg l hm
    refine ⟨_, rfl, ?_, ?_⟩
    · rw [filesLoop_end, filesEnd_append, filesEnd_append]
      cases filesEnd false onSkip body pre s with
      | done r => rfl
      | eof s1 =>
        dsimp only
        rw [filesEnd, filesEnd, readAll_lines hl, readAll_lines hcut, itemsFrom_append, fileLoop_append]
        cases fileLoop false onSkip body (itemsFrom (shownSource (some name)) 0 good) s1 with
        | done r => rfl
        | eof s2 =>
          have hbb : ByteRecord.fromBytes bad = none := by unfold ByteRecord.fromBytes; rw [hb]
          dsimp only
          rw [itemsFrom, decodeLine, hbb, Nat.zero_add]
          dsimp only
          rw [fileLoop, filesEnd, badLine_eq]
          rfl
    · have : AllValid (pre ++ [(name, good.flatten)]) := by
        intro f hf
        rcases List.mem_append.1 hf with hf | hf
        · exact hpre f hf
        · exact hvc f hf
      exact fun e s' => filesEnd_valid this s e s'

theorem filesLoop_broken {S : Type} {onSkip : S → S} {body : S → ByteRecord → Step S}
    {files cut : List (String × Bytes)} {n : Nat} {name : String} (h : FirstBad files cut n name) (s : S) :
    Broken (.parse (badLine n name)) (filesLoop false onSkip body files s) (filesLoop false onSkip body cut s) ∧
    ((∀ s r s', body s r ≠ .stop s') →
      Reported (.parse (badLine n name)) (filesLoop false onSkip body files s) (filesLoop false onSkip body cut s)) := by
  obtain ⟨x, hx, h1, h2⟩ := filesLoop_bad (onSkip := onSkip) (body := body) h s
  rw [h1, filesLoop_end cut, hx]
  cases x with
  | eof s' => exact ⟨.inl ⟨s', rfl, .inl rfl⟩, fun _ => .inl ⟨s', rfl, rfl⟩⟩
  | done r =>
    cases r with
    | ok s' => exact ⟨.inl ⟨s', rfl, .inr rfl⟩, fun hb => absurd hx (filesEnd_next hb cut s s')⟩
    | err e s' => exact absurd rfl (h2 e s')
    | panic => exact ⟨.inr ⟨rfl, rfl⟩, fun _ => .inr ⟨rfl, rfl⟩⟩

/-- without unskipped invalid lines there is no error -/
theorem filesLoop_noErr {S : Type} {skip : Bool} {onSkip : S → S} {body : S → ByteRecord → Step S}
    {files : List (String × Bytes)} (h : skip = true ∨ AllValid files) (s : S) (e : ReadErr) (s' : S) :
    filesLoop skip onSkip body files s ≠ .err e s' := by
  rw [filesLoop_end]
  rcases h with rfl | h
  · have : ∀ (fs : List (String × Bytes)) (s : S), filesEnd true onSkip body fs s ≠ .done (.err e s') := by
      intro fs
      induction fs with
      | nil => intro s; simp [filesEnd]
      | cons f fs ih =>
        intro s
        obtain ⟨name, content⟩ := f
        obtain ⟨ls, hl⟩ := lines_exists content
        rw [filesEnd]
        have hv := fileLoop_clean (skip := true) (onSkip := onSkip) (body := body) (readAll content (some name)) s (by
          intro e he
          rw [readAll_lines hl] at he
          obtain ⟨⟨m, rfl⟩, _⟩ := itemsFrom_error he
          rfl) e s'
        cases hf : fileLoop true onSkip body (readAll content (some name)) s with
        | eof s1 => exact ih s1
        | done r =>
          dsimp only
          rw [hf] at hv
          exact hv
    have := this files s
    cases hx : filesEnd true onSkip body files s with
    | eof s1 => simp
    | done r =>
      rw [hx] at this
      dsimp only
      intro hr
      rw [hr] at this
      exact this rfl
  · have := filesEnd_valid (skip := skip) (onSkip := onSkip) (body := body) h s e s'
    cases hx : filesEnd skip onSkip body files s with
    | eof s1 => simp
    | done r =>
      rw [hx] at this
      dsimp only
      intro hr
      rw [hr] at this
      exact this rfl

/-- an input with an invalid line has a first one -/
theorem firstBad_exists (files : List (String × Bytes)) :
    AllValid files ∨ ∃ cut n name, FirstBad files cut n name := by
  have split : ∀ ls : List Bytes, (∀ l ∈ ls, (Record.fromBytes l).isSome = true) ∨
      ∃ a b c, ls = a ++ b :: c ∧ (∀ l ∈ a, (Record.fromBytes l).isSome = true) ∧ Record.fromBytes b = none := by
    intro ls
    induction ls with
    | nil => exact .inl (by simp)
    | cons l ls ih =>
      cases hl : Record.fromBytes l with
      | none => exact .inr ⟨[], l, ls, rfl, by simp, hl⟩
      | some r =>
        rcases ih with h | ⟨a, b, c, rfl, h1, h2⟩
        · refine .inl fun x hx => ?_
          rcases List.mem_cons.1 hx with rfl | hx
          · rw [hl]; rfl
          · exact h x hx
        · refine .inr ⟨l :: a, b, c, rfl, fun x hx => ?_, h2⟩
          rcases List.mem_cons.1 hx with rfl | hx
          · rw [hl]; rfl
          · exact h1 x hx
  induction files with
  | nil => exact .inl (by intro f hf; simp at hf)
  | cons f fs ih =>
    obtain ⟨name, content⟩ := f
    obtain ⟨ls, hl⟩ := lines_exists content
    rcases split ls with h | ⟨a, b, c, rfl, h1, h2⟩
    · have hf : AllValid [(name, content)] := by
        intro f hf ls' hls' l hm
        simp only [List.mem_singleton] at hf
        subst hf
        rw [lines_unique hls' hl] at hm
        exact h l hm
      rcases ih with ih | ⟨cut, n, nm, ih⟩
      · refine .inl fun f hm => ?_
        rcases List.mem_cons.1 hm with rfl | hm
        · exact hf _ (by simp)
        · exact ih f hm
      · right
        cases ih with
        | intro pre nm cont post good bad more hpre hlc hg hb =>
          refine ⟨_, _, _, FirstBad.intro ((name, content) :: pre) nm cont post good bad more ?_ hlc hg hb⟩
          intro f hm
          rcases List.mem_cons.1 hm with rfl | hm
          · exact hf _ (by simp)
          · exact hpre f hm
    · exact .inr ⟨_, _, _, FirstBad.intro [] name content fs a b c (by intro f hf; simp at hf) hl h1 h2⟩

/-! ### Bodies that never stop -/

theorem limitStep_zero {S : Type} (n : Nat) (s s' : S) : limitStep 0 n s ≠ .stop s' := by simp [limitStep]

theorem selBody_next {S : Type} {test : ByteRecord → Option Bool} {act : S → ByteRecord → Step S}
    (h : ∀ s r s', act s r ≠ .stop s') (s : S) (r : ByteRecord) (s' : S) : selBody test act s r ≠ .stop s' := by
  unfold selBody
  split
  · simp
  · simp
  · exact h s r s'

theorem resultBody_next {S X : Type} {cnt : S → Nat} {f : ByteRecord → Option X} {g : S → X → S}
    (s : S) (r : ByteRecord) (s' : S) : resultBody 0 cnt f g s r ≠ .stop s' := by
  unfold resultBody
  split
  · simp
  · exact limitStep_zero _ _ _

end Pica
