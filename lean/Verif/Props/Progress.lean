import Verif.Model.Progress
import Verif.Model.Count
import Verif.Model.Convert
import Verif.Model.Describe
import Verif.Model.FilterCmd
import Verif.Model.Frequency
import Verif.Model.Sample
import Verif.Model.Partition
import Verif.Model.Check
import Verif.Props.Concat
import Verif.Props.Filter
import Verif.Lemmas.Errors

/-! # C87: the progress bar -/

namespace Pica.Props
open Pica Spec

/-- the counters have counted these lines -/
def Counted (p : Progress) (ls : List Bytes) : Prop :=
  p.records = (ls.filter (fun l => decide (ValidLine l))).length ∧
  p.invalid = (ls.filter (fun l => decide (¬ ValidLine l))).length

theorem counted_nil : Counted Progress.new [] := ⟨rfl, rfl⟩

theorem counted_valid {p : Progress} {ls : List Bytes} {l : Bytes} (h : Counted p ls) (hl : ValidLine l) :
    Counted (p.update false) (ls ++ [l]) := by
  obtain ⟨h1, h2⟩ := h
  constructor
  · show p.records + 1 = _
    rw [h1, List.filter_append, List.length_append, List.filter_cons, if_pos (by simpa using hl)]
    rfl
  · show p.invalid = _
    rw [h2, List.filter_append, List.length_append, List.filter_cons, if_neg (by simpa using hl)]
    rfl

theorem counted_invalid {p : Progress} {ls : List Bytes} {l : Bytes} (h : Counted p ls) (hl : ¬ ValidLine l) :
    Counted (p.update true) (ls ++ [l]) := by
  obtain ⟨h1, h2⟩ := h
  constructor
  · show p.records = _
    rw [h1, List.filter_append, List.length_append, List.filter_cons, if_neg (by simpa using hl)]
    rfl
  · show p.invalid + 1 = _
    rw [h2, List.filter_append, List.length_append, List.filter_cons, if_pos (by simpa using hl)]
    rfl

theorem counted_unique {p q : Progress} {ls : List Bytes} (h : Counted p ls) (h' : Counted q ls) : p = q := by
  cases p; cases q
  simp only [Progress.mk.injEq]
  exact ⟨h.1.trans h'.1.symm, h.2.trans h'.2.symm⟩

/-- the result without the bar -/
def LoopResult.withoutBar {S : Type} : LoopResult (S × Progress) → LoopResult S
  | .ok x => .ok x.1
  | .err e x => .err e x.1
  | .panic => .panic

/-- the end of the loop over a file without the bar -/
def FileEnd.withoutBar {S : Type} : FileEnd (S × Progress) → FileEnd S
  | .eof x => .eof x.1
  | .done r => .done (LoopResult.withoutBar r)

/-- the result of a step without the bar -/
def stepWithoutBar {S : Type} : Step (S × Progress) → Step S
  | .next x => .next x.1
  | .stop x => .stop x.1
  | .panic => .panic

theorem fileLoop_erase {S : Type} (skip : Bool) (onSkip : S → S) (body : S → ByteRecord → Step S)
    (body' : S × Progress → ByteRecord → Step (S × Progress))
    (hb : ∀ x r, stepWithoutBar (body' x r) = body x.1 r) (is : List Item) : ∀ x : S × Progress,
    FileEnd.withoutBar (fileLoop skip (watchSkip onSkip) body' is x) = fileLoop skip onSkip body is x.1 := by
  induction is with
  | nil => intro x; rfl
  | cons i is ih =>
    intro x
    cases i with
    | error e =>
      rw [fileLoop, fileLoop]
      split
      · exact ih _
      · rfl
    | ok r =>
      rw [fileLoop, fileLoop, ← hb x r]
      cases body' x r with
      | next s => exact ih _
      | stop s => rfl
      | panic => rfl

theorem filesLoop_erase {S : Type} (skip : Bool) (onSkip : S → S) (body : S → ByteRecord → Step S)
    (body' : S × Progress → ByteRecord → Step (S × Progress))
    (hb : ∀ x r, stepWithoutBar (body' x r) = body x.1 r) (files : List (String × Bytes)) : ∀ x : S × Progress,
    LoopResult.withoutBar (filesLoop skip (watchSkip onSkip) body' files x) = filesLoop skip onSkip body files x.1 := by
  induction files with
  | nil => intro x; rfl
  | cons f fs ih =>
    intro x
    obtain ⟨name, content⟩ := f
    rw [filesLoop, filesLoop]
    have h := fileLoop_erase skip onSkip body body' hb (readAll content (some name)) x
    cases hl : fileLoop skip (watchSkip onSkip) body' (readAll content (some name)) x with
    | eof y => rw [hl] at h; rw [← h]; exact ih y
    | done r => rw [hl] at h; rw [← h]; rfl

/-- **C87** the bar changes nothing: output, errors and panics are those of the command without it. -/
theorem C87_same {S : Type} (skip : Bool) (onSkip : S → S) (body : S → ByteRecord → Step S)
    (files : List (String × Bytes)) (s : S) :
    LoopResult.withoutBar (watched skip onSkip body files s) = filesLoop skip onSkip body files s := by
  refine filesLoop_erase skip onSkip body (watchBody body) (fun x r => ?_) files (s, Progress.new)
  unfold watchBody
  cases body x.1 r <;> rfl

/-- a body that never ends the loop early -/
def NeverStops {S : Type} (body : S → ByteRecord → Step S) : Prop := ∀ s r s', body s r ≠ .stop s'

/-- the body ends the loop at this line -/
def StopsAt {S : Type} (body : S → ByteRecord → Step S) (l : Bytes) (s' : S) : Prop :=
  ∃ s r, ByteRecord.fromBytes l = some r ∧ body s r = .stop s'

/-- what the loop over a file has counted -/
theorem fileLoop_counted {S : Type} {skip : Bool} {onSkip : S → S} {body : S → ByteRecord → Step S}
    {src : Option String} : ∀ (ls : List Bytes) (n : Nat) (done : List Bytes) (x : S × Progress), Counted x.2 done →
    (∀ y, fileLoop skip (watchSkip onSkip) (watchBody body) (itemsFrom src n ls) x = .eof y →
      Counted y.2 (done ++ ls) ∧ (skip = false → ∀ l ∈ ls, ValidLine l)) ∧
    (∀ y, fileLoop skip (watchSkip onSkip) (watchBody body) (itemsFrom src n ls) x = .done (.ok y) →
      ∃ a l b, ls = a ++ l :: b ∧ StopsAt body l y.1 ∧ Counted y.2 (done ++ (a ++ [l]))) ∧
    (∀ e y, fileLoop skip (watchSkip onSkip) (watchBody body) (itemsFrom src n ls) x = .done (.err e y) →
      skip = false ∧ ∃ a l b, ls = a ++ l :: b ∧ ¬ ValidLine l ∧ (∀ m ∈ a, ValidLine m) ∧ Counted y.2 (done ++ a)) := by
  intro ls
  induction ls with
  | nil =>
    intro n done x hx
    refine ⟨fun y h => ?_, fun y h => ?_, fun e y h => ?_⟩
    · simp only [itemsFrom, fileLoop, FileEnd.eof.injEq] at h; subst h; simpa using hx
    · simp [itemsFrom, fileLoop] at h
    · simp [itemsFrom, fileLoop] at h
  | cons l ls ih =>
    intro n done x hx
    rw [itemsFrom]
    by_cases hv : ValidLine l
    · obtain ⟨r, hr⟩ := Option.isSome_iff_exists.1 ((fromBytes_isSome l).trans ((validLine_iff l).1 hv))
      have hd : decodeLine src (n + 1) l = .ok r := by unfold decodeLine; rw [hr]
      rw [hd, fileLoop, watchBody]
      have hx' := counted_valid hx hv
      cases hb : body x.1 r with
      | next s =>
        obtain ⟨h1, h2, h3⟩ := ih (n + 1) (done ++ [l]) (s, x.2.update false) hx'
        refine ⟨fun y h => ?_, fun y h => ?_, fun e y h => ?_⟩
        · obtain ⟨hc, ha⟩ := h1 y h
          refine ⟨by simpa using hc, fun hs m hm => ?_⟩
          rcases List.mem_cons.1 hm with rfl | hm
          · exact hv
          · exact ha hs m hm
        · obtain ⟨a, m, b, rfl, hn, hc⟩ := h2 y h
          exact ⟨l :: a, m, b, rfl, hn, by simpa using hc⟩
        · obtain ⟨hs, a, m, b, rfl, hm, ha, hc⟩ := h3 e y h
          refine ⟨hs, l :: a, m, b, rfl, hm, fun m hm => ?_, by simpa using hc⟩
          rcases List.mem_cons.1 hm with rfl | hm
          · exact hv
          · exact ha m hm
      | stop s =>
        refine ⟨fun y h => by simp at h, fun y h => ?_, fun e y h => by simp at h⟩
        simp only [FileEnd.done.injEq, LoopResult.ok.injEq] at h
        subst h
        exact ⟨[], l, ls, rfl, ⟨x.1, r, hr, hb⟩, hx'⟩
      | panic => refine ⟨fun y h => by simp at h, fun y h => by simp at h, fun e y h => by simp at h⟩
    · have hd : ∃ e, decodeLine src (n + 1) l = .error (.parse e) := by
        unfold decodeLine
        cases hr : ByteRecord.fromBytes l with
        | none => exact ⟨_, rfl⟩
        | some r =>
          exfalso
          apply hv
          rw [validLine_iff, ← fromBytes_isSome, hr]
          rfl
      obtain ⟨e, hd⟩ := hd
      rw [hd, fileLoop]
      cases skip with
      | true =>
        rw [if_pos (by simp [ReadErr.skipParse])]
        obtain ⟨h1, h2, h3⟩ := ih (n + 1) (done ++ [l]) (watchSkip onSkip x) (counted_invalid hx hv)
        refine ⟨fun y h => ?_, fun y h => ?_, fun e y h => ?_⟩
        · exact ⟨by simpa using (h1 y h).1, fun hs => by simp at hs⟩
        · obtain ⟨a, m, b, rfl, hn, hc⟩ := h2 y h
          exact ⟨l :: a, m, b, rfl, hn, by simpa using hc⟩
        · exact absurd (h3 e y h).1 (by simp)
      | false =>
        rw [if_neg (by simp [ReadErr.skipParse])]
        refine ⟨fun y h => by simp at h, fun y h => by simp at h, fun e' y h => ?_⟩
        simp only [FileEnd.done.injEq, LoopResult.err.injEq] at h
        obtain ⟨_, rfl⟩ := h
        exact ⟨rfl, [], l, ls, rfl, hv, by simp, by simpa using hx⟩

theorem filesLoop_counted {S : Type} {skip : Bool} {onSkip : S → S} {body : S → ByteRecord → Step S}
    {files : List (String × Bytes)} {ls : List Bytes} (hls : AllLines files ls) :
    ∀ (done : List Bytes) (x : S × Progress), Counted x.2 done →
    (∀ y, filesLoop skip (watchSkip onSkip) (watchBody body) files x = .ok y →
      Counted y.2 (done ++ ls) ∨
      ∃ a l b, ls = a ++ l :: b ∧ StopsAt body l y.1 ∧ Counted y.2 (done ++ (a ++ [l]))) ∧
    (∀ e y, filesLoop skip (watchSkip onSkip) (watchBody body) files x = .err e y →
      skip = false ∧ ∃ a l b, ls = a ++ l :: b ∧ ¬ ValidLine l ∧ (∀ m ∈ a, ValidLine m) ∧ Counted y.2 (done ++ a)) := by
  induction hls with
  | nil =>
    intro done x hx
    refine ⟨fun y h => ?_, fun e y h => by simp [filesLoop] at h⟩
    simp only [filesLoop, LoopResult.ok.injEq] at h
    subst h
    exact .inl (by simpa using hx)
  | @cons name content ls fs ls' hl _ ih =>
    intro done x hx
    rw [filesLoop, readAll_lines hl]
    obtain ⟨h1, h2, h3⟩ := fileLoop_counted (skip := skip) (onSkip := onSkip) (body := body)
      (src := shownSource (some name)) ls 0 done x hx
    cases hf : fileLoop skip (watchSkip onSkip) (watchBody body) (itemsFrom (shownSource (some name)) 0 ls) x with
    | eof x' =>
      obtain ⟨hx', hva⟩ := h1 x' hf
      obtain ⟨k1, k2⟩ := ih (done ++ ls) x' hx'
      refine ⟨fun y h => ?_, fun e y h => ?_⟩
      · rcases k1 y h with hc | ⟨a, l, b, rfl, hn, hc⟩
        · exact .inl (by simpa using hc)
        · exact .inr ⟨ls ++ a, l, b, by simp, hn, by simpa using hc⟩
      · obtain ⟨hs, a, l, b, rfl, hm, ha, hc⟩ := k2 e y h
        refine ⟨hs, ls ++ a, l, b, by simp, hm, fun m hm => ?_, by simpa using hc⟩
        rcases List.mem_append.1 hm with hm | hm
        · exact hva hs m hm
        · exact ha m hm
    | done r =>
      refine ⟨fun y h => ?_, fun e y h => ?_⟩
      · simp only at h
        subst h
        obtain ⟨a, l, b, rfl, hn, hc⟩ := h2 y hf
        exact .inr ⟨a, l, b ++ ls', by simp, hn, hc⟩
      · simp only at h
        subst h
        obtain ⟨hs, a, l, b, rfl, hm, ha, hc⟩ := h3 e y hf
        exact ⟨hs, a, l, b ++ ls', by simp, hm, ha, hc⟩

/-- **C87** at the end the bar shows the numbers of valid and invalid lines that have been read: all
lines, or those up to and including the one at which the command has ended the loop. -/
theorem C87_counts {S : Type} (skip : Bool) (onSkip : S → S) (body : S → ByteRecord → Step S)
    (files : List (String × Bytes)) (ls : List Bytes) (hls : AllLines files ls) (s : S) (y : S × Progress)
    (h : watched skip onSkip body files s = .ok y) :
    (Counted y.2 ls ∨ ∃ a l b, ls = a ++ l :: b ∧ StopsAt body l y.1 ∧ Counted y.2 (a ++ [l])) ∧
    (NeverStops body → Counted y.2 ls) := by
  have hc := (filesLoop_counted hls [] (s, Progress.new) counted_nil).1 y h
  simp only [List.nil_append] at hc
  refine ⟨hc, fun hs => ?_⟩
  rcases hc with hc | ⟨a, l, b, _, ⟨s0, r, _, hb⟩, _⟩
  · exact hc
  · exact absurd hb (hs _ _ _)

/-- **C87** if the command ends with an error, this is the first invalid line, and the bar shows the
number of the lines before it. -/
theorem C87_error {S : Type} (skip : Bool) (onSkip : S → S) (body : S → ByteRecord → Step S)
    (files : List (String × Bytes)) (ls : List Bytes) (hls : AllLines files ls) (s : S) (e : ReadErr) (y : S × Progress)
    (h : watched skip onSkip body files s = .err e y) :
    skip = false ∧ ∃ a l b, ls = a ++ l :: b ∧ ¬ ValidLine l ∧ (∀ m ∈ a, ValidLine m) ∧ y.2 = ⟨a.length, 0⟩ := by
  obtain ⟨hs, a, l, b, hl, hm, ha, hc⟩ := (filesLoop_counted hls [] (s, Progress.new) counted_nil).2 e y h
  refine ⟨hs, a, l, b, hl, hm, ha, counted_unique (ls := a) (by simpa using hc) ⟨?_, ?_⟩⟩
  · show a.length = _
    rw [List.filter_eq_self.2 (fun m hm => by simpa using ha m hm)]
  · show 0 = _
    rw [List.filter_eq_nil_iff.2 (fun m hm => by simpa using ha m hm)]
    rfl

theorem selBody_neverStops {S : Type} {test : ByteRecord → Option Bool} {act : S → ByteRecord → Step S}
    (h : NeverStops act) : NeverStops (selBody test act) := by
  intro s r s' hs
  unfold selBody at hs
  split at hs
  · simp at hs
  · simp at hs
  · exact h _ _ _ hs

theorem limitStep_zero {S : Type} (n : Nat) (s : S) : limitStep 0 n s = .next s := by
  simp [limitStep]

/-- **C87** the loops that read all lines: `count` and `convert` always, the others without a limit. -/
theorem C87_all_lines :
    (∀ c : CountCmd, NeverStops (selBody c.sel.test (fun s r => .next (CountCmd.step s r)))) ∧
    (∀ c : ConvertCmd, NeverStops c.step) ∧
    (∀ c : DescribeCmd, c.limit = 0 → NeverStops
      (selBody c.sel.test (fun s r => limitStep c.limit (DescribeState.count (c.step s r)) (c.step s r)))) ∧
    (∀ c : FilterCmd, c.limit = 0 → NeverStops
      (selBody c.test (fun (x : FilterOut × Nat) r => limitStep c.limit (x.2 + 1) (c.emit x.1 r, x.2 + 1)))) ∧
    (∀ c : FreqCmd, c.limit = 0 → NeverStops
      (selBody c.sel.test
        (resultBody c.limit FreqState.count (fun r => c.query.run c.E c.qo r.record) c.step))) ∧
    (∀ c : SampleCmd, c.limit = 0 → NeverStops
      (selBody c.sel.test (fun s r => limitStep c.limit (c.step s r).count (c.step s r)))) ∧
    (∀ c : PartitionCmd, c.limit = 0 → NeverStops (selBody c.sel.test c.body)) ∧
    (∀ c : CheckCmd, c.limit = 0 → NeverStops (selBody c.sel.test c.body)) := by
  refine ⟨fun c => ?_, fun c => ?_, fun c h => ?_, fun c h => ?_, fun c h => ?_, fun c h => ?_, fun c h => ?_,
    fun c h => ?_⟩
  · exact selBody_neverStops (fun s r s' hs => by simp at hs)
  · intro s r s' hs
    unfold ConvertCmd.step at hs
    split at hs <;> simp at hs
  · exact selBody_neverStops (fun s r s' hs => by simp [h, limitStep_zero] at hs)
  · exact selBody_neverStops (fun s r s' hs => by simp [h, limitStep_zero] at hs)
  · refine selBody_neverStops (fun s r s' hs => ?_)
    unfold resultBody at hs
    rw [h] at hs
    split at hs
    · simp at hs
    · simp [limitStep_zero] at hs
      try (split at hs <;> simp at hs)
  · exact selBody_neverStops (fun s r s' hs => by simp [h, limitStep_zero] at hs)
  · have hp : ∀ r vs s s', c.puts r vs s ≠ .stop s' := by
      intro r vs
      induction vs with
      | nil => intro s s' hs; simp [PartitionCmd.puts] at hs
      | cons v vs ih =>
        intro s s' hs
        rw [PartitionCmd.puts] at hs
        simp only [h, gt_iff_lt, Nat.lt_irrefl, decide_false, Bool.false_and, Bool.false_eq_true, if_false] at hs
        exact ih _ _ hs
    refine selBody_neverStops (fun s r s' hs => ?_)
    unfold PartitionCmd.body at hs
    split at hs
    · simp at hs
    · exact hp _ _ _ _ hs
  · refine selBody_neverStops (fun s r s' hs => ?_)
    unfold CheckCmd.body at hs
    split at hs
    · simp at hs
    · simp [h, limitStep_zero] at hs

/-- **C87** `count` with its bar: the same result, and the bar shows the lines read. -/
theorem C87_count (c : CountCmd) (files : List (String × Bytes)) (ls : List Bytes) (hls : AllLines files ls)
    (y : CountState × Progress)
    (h : watched c.skip id (selBody c.sel.test (fun s r => .next (CountCmd.step s r))) files ⟨0, 0, 0⟩ = .ok y) :
    c.loop files = .ok y.1 ∧ Counted y.2 ls := by
  refine ⟨?_, (C87_counts _ _ _ _ _ hls _ y h).2 (C87_all_lines.1 c)⟩
  have := C87_same c.skip id (selBody c.sel.test (fun s r => .next (CountCmd.step s r))) files ⟨0, 0, 0⟩
  rw [h] at this
  exact this.symm

theorem invalidWatch_lines {b ls} (h : Lines b ls) : ∀ (fuel : Nat) (done : List Bytes) (x : Bytes × Progress),
    b.length < fuel → Counted x.2 done →
    (invalidWatch fuel b x).1 = invalidLoop fuel b x.1 ∧ Counted (invalidWatch fuel b x).2 (done ++ ls) := by
  induction h with
  | eof =>
    intro fuel done x hf hx
    cases fuel with
    | zero => simp at hf
    | succ f => simp [invalidWatch, invalidLoop, readUntil, hx]
  | last t h0 ht =>
    intro fuel done x hf hx
    obtain ⟨fuel, rfl⟩ : ∃ k, fuel = k + 1 := ⟨fuel - 1, by omega⟩
    have hu : readUntil t = (t, []) := readUntil_last t ht
    rw [invalidWatch, invalidLoop, hu]
    dsimp only
    have he : t.isEmpty = false := by simpa using h0
    rw [he]
    simp only [Bool.false_eq_true, if_false]
    have hz : ∀ f (y : Bytes × Progress), invalidWatch f [] y = y := by
      intro f y; cases f <;> simp [invalidWatch, readUntil]
    have hz' : ∀ f (y : Bytes), invalidLoop f [] y = y := by
      intro f y; cases f <;> simp [invalidLoop, readUntil]
    simp only [hz, hz']
    by_cases hv : (ByteRecord.fromBytes t).isSome
    · rw [if_pos hv, if_pos hv]
      exact ⟨rfl, counted_valid hx ((validLine_iff t).2 (fromBytes_isSome t ▸ hv))⟩
    · rw [if_neg hv, if_neg hv]
      exact ⟨rfl, counted_invalid hx (fun hc => hv ((fromBytes_isSome t).trans ((validLine_iff t).1 hc)))⟩
  | line t rest ls ht _ ih =>
    intro fuel done x hf hx
    obtain ⟨fuel, rfl⟩ : ∃ k, fuel = k + 1 := ⟨fuel - 1, by omega⟩
    have hu : readUntil (t ++ 0x0A :: rest) = (t ++ [0x0A], rest) := readUntil_line t rest ht
    rw [invalidWatch, invalidLoop, hu]
    dsimp only
    have hne : (t ++ [(0x0A : UInt8)]).isEmpty = false := by simp
    rw [hne]
    have hf' : rest.length < fuel := by simp at hf; omega
    by_cases hv : (ByteRecord.fromBytes (t ++ [0x0A])).isSome
    · rw [if_pos hv, if_pos hv]
      have := ih fuel (done ++ [t ++ [0x0A]]) (x.1, x.2.update false) hf'
        (counted_valid hx ((validLine_iff _).2 (fromBytes_isSome _ ▸ hv)))
      simpa using this
    · rw [if_neg hv, if_neg hv]
      have := ih fuel (done ++ [t ++ [0x0A]]) (x.1 ++ (t ++ [0x0A]), x.2.update true) hf'
        (counted_invalid hx (fun hc => hv ((fromBytes_isSome _).trans ((validLine_iff _).1 hc))))
      simpa using this

/-- **C87** `invalid` writes the same with the bar, and the bar shows the numbers of all valid and
invalid lines. -/
theorem C87_invalid (files : List (String × Bytes)) (ls : List Bytes) (hls : AllLines files ls) :
    (invalidWatched files ([], Progress.new)).1 = invalidRun files [] ∧
    Counted (invalidWatched files ([], Progress.new)).2 ls := by
  have key : ∀ (done : List Bytes) (x : Bytes × Progress), Counted x.2 done →
      (invalidWatched files x).1 = invalidRun files x.1 ∧ Counted (invalidWatched files x).2 (done ++ ls) := by
    induction hls with
    | nil => intro done x hx; simpa [invalidWatched, invalidRun] using hx
    | cons hl _ ih =>
      intro done x hx
      rw [invalidWatched, invalidRun]
      obtain ⟨h1, h2⟩ := invalidWatch_lines hl _ done x (Nat.lt_succ_self _) hx
      obtain ⟨h3, h4⟩ := ih _ _ h2
      rw [h3, h1]
      exact ⟨rfl, by simpa using h4⟩
  simpa using key [] ([], Progress.new) counted_nil

/-! ## concat -/

theorem concat_watch_plain (c : ConcatCmd) (hu : c.unique = false) : c.watchBody = watchBody c.body := by
  funext x r
  simp [ConcatCmd.watchBody, watchBody, ConcatCmd.body, hu]

/-- **C87** `concat` without `--unique`. -/
theorem C87_concat_partial (c : ConcatCmd) (hu : c.unique = false) (files : List (String × Bytes)) (ls : List Bytes)
    (hls : AllLines files ls) :
    LoopResult.withoutBar (c.watched files) = c.run files ∧ ∀ y, c.watched files = .ok y → Counted y.2 ls := by
  have e : c.watched files = watched c.skip id c.body files ⟨[], if c.tee then some [] else none, []⟩ := by
    unfold ConcatCmd.watched watched
    rw [concat_watch_plain c hu]
  rw [e]
  refine ⟨C87_same _ _ _ _ _, fun y h => (C87_counts _ _ _ _ _ hls _ y h).2 ?_⟩
  rw [concat_body_plain c hu]
  intro s r s' hs
  simp at hs

theorem fileLoop_linesInv {S : Type} {skip : Bool} {onSkip : S → S} {body : S → ByteRecord → Step S}
    (P : List Bytes → S → Prop) (hns : NeverStops body)
    (hskip : ∀ ls s l, P ls s → ¬ ValidLine l → P (ls ++ [l]) (onSkip s))
    (hnext : ∀ ls s l r s', P ls s → ByteRecord.fromBytes l = some r → body s r = .next s' → P (ls ++ [l]) s')
    {src : Option String} : ∀ (ls : List Bytes) (n : Nat) (done : List Bytes) (s : S), P done s →
    (∀ y, fileLoop skip onSkip body (itemsFrom src n ls) s = .eof y → P (done ++ ls) y) ∧
    (∀ y, fileLoop skip onSkip body (itemsFrom src n ls) s ≠ .done (.ok y)) := by
  intro ls
  induction ls with
  | nil =>
    intro n done s hs
    refine ⟨fun y h => ?_, fun y h => by simp [itemsFrom, fileLoop] at h⟩
    simp only [itemsFrom, fileLoop, FileEnd.eof.injEq] at h
    subst h
    simpa using hs
  | cons l ls ih =>
    intro n done s hs
    rw [itemsFrom]
    cases hr : ByteRecord.fromBytes l with
    | some r =>
      have hd : decodeLine src (n + 1) l = .ok r := by unfold decodeLine; rw [hr]
      rw [hd, fileLoop]
      cases hb : body s r with
      | next s' =>
        obtain ⟨h1, h2⟩ := ih (n + 1) (done ++ [l]) s' (hnext _ _ _ _ _ hs hr hb)
        exact ⟨fun y h => by simpa using h1 y h, h2⟩
      | stop s' => exact absurd hb (hns _ _ _)
      | panic => exact ⟨fun y h => by simp at h, fun y h => by simp at h⟩
    | none =>
      have hv : ¬ ValidLine l := by
        rw [validLine_iff, ← fromBytes_isSome, hr]
        simp
      have hd : ∃ e, decodeLine src (n + 1) l = .error e := by
        unfold decodeLine
        rw [hr]
        exact ⟨_, rfl⟩
      obtain ⟨e, hd⟩ := hd
      rw [hd, fileLoop]
      split
      · obtain ⟨h1, h2⟩ := ih (n + 1) (done ++ [l]) (onSkip s) (hskip _ _ _ hs hv)
        exact ⟨fun y h => by simpa using h1 y h, h2⟩
      · exact ⟨fun y h => by simp at h, fun y h => by simp at h⟩

theorem filesLoop_linesInv {S : Type} {skip : Bool} {onSkip : S → S} {body : S → ByteRecord → Step S}
    (P : List Bytes → S → Prop) (hns : NeverStops body)
    (hskip : ∀ ls s l, P ls s → ¬ ValidLine l → P (ls ++ [l]) (onSkip s))
    (hnext : ∀ ls s l r s', P ls s → ByteRecord.fromBytes l = some r → body s r = .next s' → P (ls ++ [l]) s')
    {files : List (String × Bytes)} {ls : List Bytes} (hls : AllLines files ls) :
    ∀ (done : List Bytes) (s y : S), P done s → filesLoop skip onSkip body files s = .ok y → P (done ++ ls) y := by
  induction hls with
  | nil =>
    intro done s y hs h
    simp only [filesLoop, LoopResult.ok.injEq] at h
    subst h
    simpa using hs
  | @cons name content ls fs ls' hl _ ih =>
    intro done s y hs h
    rw [filesLoop, readAll_lines hl] at h
    obtain ⟨h1, h2⟩ := fileLoop_linesInv (skip := skip) (onSkip := onSkip) (body := body) P hns hskip hnext
      (src := shownSource (some name)) ls 0 done s hs
    cases hf : fileLoop skip onSkip body (itemsFrom (shownSource (some name)) 0 ls) s with
    | eof x' =>
      rw [hf] at h
      have := ih (done ++ ls) x' y (h1 x' hf) h
      simpa using this
    | done r =>
      rw [hf] at h
      simp only at h
      subst h
      exact absurd hf (h2 y)

/-- **C87** `concat` with and without `--unique`: the bar changes nothing, the invalid lines are all
counted, and the records that are counted are those that are written. -/
theorem C87_concat_written (c : ConcatCmd) (files : List (String × Bytes)) (ls : List Bytes) (hls : AllLines files ls) :
    LoopResult.withoutBar (c.watched files) = c.run files ∧
    ∀ y, c.watched files = .ok y →
      y.2.invalid = (ls.filter (fun l => decide (¬ ValidLine l))).length ∧
      ∃ written : List ByteRecord, written.Sublist (ls.filterMap ByteRecord.fromBytes) ∧
        y.1.out = written.flatMap ByteRecord.write ∧ y.2.records = written.length := by
  constructor
  · refine filesLoop_erase c.skip id c.body c.watchBody (fun x r => ?_) files _
    unfold ConcatCmd.watchBody ConcatCmd.body
    split
    · cases c.key r with
      | none => rfl
      | some k => dsimp only; split <;> rfl
    · rfl
  · intro y h
    have := filesLoop_linesInv (skip := c.skip) (onSkip := watchSkip id) (body := c.watchBody)
      (fun ls (x : ConcatState × Progress) =>
        x.2.invalid = (ls.filter (fun l => decide (¬ ValidLine l))).length ∧
        ∃ written : List ByteRecord, written.Sublist (ls.filterMap ByteRecord.fromBytes) ∧
          x.1.out = written.flatMap ByteRecord.write ∧ x.2.records = written.length)
      (by
        intro x r x' hx
        unfold ConcatCmd.watchBody at hx
        split at hx
        · split at hx
          · simp at hx
          · split at hx <;> simp at hx
        · simp at hx)
      (by
        rintro ls x l ⟨h1, ws, h0, h2⟩ hv
        refine ⟨?_, ws, by rw [List.filterMap_append]; exact h0.trans (List.sublist_append_left _ _), h2⟩
        show x.2.invalid + 1 = _
        rw [h1, List.filter_append, List.length_append, List.filter_cons, if_pos (by simpa using hv)]
        rfl)
      (by
        rintro ls x l r x' ⟨h1, ws, h0, h2, h3⟩ hr hx
        have e0 : (ls ++ [l]).filterMap ByteRecord.fromBytes = ls.filterMap ByteRecord.fromBytes ++ [r] := by
          rw [List.filterMap_append, List.filterMap_cons, hr]; rfl
        have hv : ValidLine l := by rw [validLine_iff, ← fromBytes_isSome, hr]; rfl
        have e : ((ls ++ [l]).filter (fun l => decide (¬ ValidLine l))).length =
            (ls.filter (fun l => decide (¬ ValidLine l))).length := by
          rw [List.filter_append, List.length_append, List.filter_cons, if_neg (by simpa using hv)]
          rfl
        have hw : ∀ s : ConcatState, s.out = x.1.out →
            (ConcatCmd.emit s r).out = (ws ++ [r]).flatMap ByteRecord.write := by
          intro s hs
          simp [ConcatCmd.emit, hs, h2]
        rw [e, e0]
        unfold ConcatCmd.watchBody at hx
        split at hx
        · split at hx
          · simp at hx
          · split at hx
            · simp only [Step.next.injEq] at hx
              subst hx
              exact ⟨h1, ws, h0.trans (List.sublist_append_left _ _), h2, h3⟩
            · simp only [Step.next.injEq] at hx
              subst hx
              exact ⟨h1, ws ++ [r], h0.append (List.Sublist.refl _), hw _ rfl, by simp [Progress.update, h3]⟩
        · simp only [Step.next.injEq] at hx
          subst hx
          exact ⟨h1, ws ++ [r], h0.append (List.Sublist.refl _), hw _ rfl, by simp [Progress.update, h3]⟩)
      hls [] _ y ⟨rfl, [], List.Sublist.refl _, rfl, rfl⟩ h
    simpa using this

/-- **C87** fails for `concat --unique`: records that are left out are not counted. -/
theorem C87_concat_false : ∃ (c : ConcatCmd) (files : List (String × Bytes)) (ls : List Bytes) (y : ConcatState × Progress),
    AllLines files ls ∧ c.watched files = .ok y ∧ ¬ Counted y.2 ls := by
  obtain ⟨ls, hls⟩ := allLines_exists [("a", recLine "1" ++ recLine "1")]
  refine ⟨concatSample true .idn, _, ls, (⟨recLine "1", none, [bs "1"]⟩, ⟨1, 0⟩), hls, by decide +kernel, ?_⟩
  have h := (C87_invalid _ ls hls).2
  intro hc
  have := counted_unique hc h
  revert this
  decide +kernel

/-! ## the message -/

theorem commas_strip (d : Bytes) (h : ∀ c ∈ d, c ≠ 0x2C) : (commas d).filter (fun c => c != 0x2C) = d := by
  induction d with
  | nil => rfl
  | cons c cs ih =>
    have hc : c ≠ 0x2C := h c (by simp)
    rw [commas, List.filter_cons, if_pos (by simpa using hc), List.filter_append, ih (fun x hx => h x (by simp [hx]))]
    split <;> simp

theorem commas_append (a b : Bytes) (hb : b.length = 3) (ha : a ≠ []) : commas (a ++ b) = commas a ++ 0x2C :: b := by
  induction a with
  | nil => exact absurd rfl ha
  | cons c a ih =>
    match a with
    | [] =>
      match b, hb with
      | [x, y, z], _ => simp [commas]
    | d :: a' =>
      rw [List.cons_append, commas, commas, ih (by simp), List.length_append, hb]
      have e : (d :: a').length + 3 > 0 := by omega
      have e' : (d :: a').length > 0 := by simp
      rw [decide_eq_true e, decide_eq_true e', Nat.add_mod_right]
      simp

theorem decimal_digits (n : Nat) : ∀ c ∈ decimal n, 0x30 ≤ c ∧ c ≤ 0x39 := by
  induction n using Nat.strongRecOn with
  | _ n ih =>
    intro c hc
    have hd : ∀ m, m < 10 → 0x30 ≤ (0x30 + UInt8.ofNat m : UInt8) ∧ (0x30 + UInt8.ofNat m : UInt8) ≤ 0x39 := by
      decide
    rw [decimal] at hc
    split at hc
    · rw [List.mem_singleton] at hc
      subst hc
      exact hd n (by assumption)
    · rcases List.mem_append.1 hc with hc | hc
      · exact ih (n / 10) (by omega) c hc
      · rw [List.mem_singleton] at hc
        subst hc
        exact hd (n % 10) (by omega)

theorem decimal_ne (n : Nat) : decimal n ≠ [] := by
  rw [decimal]
  split <;> simp

/-- the last three digits -/
def lastThree (n : Nat) : Bytes :=
  [0x30 + UInt8.ofNat (n / 100 % 10), 0x30 + UInt8.ofNat (n / 10 % 10), 0x30 + UInt8.ofNat (n % 10)]

/-- **C87** a number is shown with a comma before each group of three digits. -/
theorem C87_number (n : Nat) :
    (n < 1000 → humanCount n = decimal n) ∧
    (1000 ≤ n → humanCount n = humanCount (n / 1000) ++ 0x2C :: lastThree n) := by
  constructor
  · intro h
    have key : ∀ d : Bytes, d.length ≤ 3 → commas d = d := by
      intro d hd
      match d, hd with
      | [], _ => rfl
      | [_], _ => rfl
      | [_, _], _ => rfl
      | [_, _, _], _ => rfl
    apply key
    rw [decimal]
    split
    · simp
    · rw [decimal]
      split
      · simp
      · rw [decimal, if_pos (by omega)]
        simp
  · intro h
    unfold humanCount
    have e : decimal n = decimal (n / 1000) ++ lastThree n := by
      rw [decimal, if_neg (by omega), decimal, if_neg (by omega), decimal, if_neg (by omega)]
      simp only [List.append_assoc, List.singleton_append, lastThree, Nat.div_div_eq_div_mul]
      rfl
    rw [e, commas_append _ _ rfl (decimal_ne _)]

theorem human_bytes (n : Nat) : ∀ c ∈ humanCount n, c = 0x2C ∨ (0x30 ≤ c ∧ c ≤ 0x39) := by
  have key : ∀ d : Bytes, (∀ c ∈ d, 0x30 ≤ c ∧ c ≤ 0x39) → ∀ c ∈ commas d, c = 0x2C ∨ (0x30 ≤ c ∧ c ≤ 0x39) := by
    intro d
    induction d with
    | nil => intro _ c hc; simp [commas] at hc
    | cons x d ih =>
      intro h c hc
      rw [commas] at hc
      rcases List.mem_cons.1 hc with rfl | hc
      · exact Or.inr (h _ (by simp))
      rcases List.mem_append.1 hc with hc | hc
      · split at hc
        · exact Or.inl (by simpa using hc)
        · simp at hc
      · exact ih (fun y hy => h y (by simp [hy])) c hc
  exact key _ (decimal_digits n)

theorem human_inj {n m : Nat} (h : humanCount n = humanCount m) : n = m := by
  have hd : ∀ k, ∀ c ∈ decimal k, c ≠ 0x2C := by
    intro k c hc he
    have := (decimal_digits k c hc).1
    rw [he] at this
    exact absurd this (by decide)
  have := congrArg (List.filter (fun c => c != 0x2C)) h
  unfold humanCount at this
  rw [commas_strip _ (hd n), commas_strip _ (hd m)] at this
  exact decimal_injective this

/-- a text without a blank before a blank is determined -/
theorem blank_split {a b x y : Bytes} (ha : 0x20 ∉ a) (hb : 0x20 ∉ b) (h : a ++ 0x20 :: x = b ++ 0x20 :: y) :
    a = b ∧ x = y := by
  induction a generalizing b with
  | nil =>
    cases b with
    | nil => simpa using h
    | cons c b => simp at h; exact absurd h.1.symm (by simp at hb; exact fun e => hb.1 e.symm)
  | cons c a ih =>
    cases b with
    | nil => simp at h; exact absurd h.1 (by simp at ha; exact fun e => ha.1 e.symm)
    | cons d b =>
      simp only [List.cons_append, List.cons.injEq] at h
      simp only [List.mem_cons, not_or] at ha hb
      obtain ⟨e1, e2⟩ := ih ha.2 hb.2 h.2
      exact ⟨by rw [h.1, e1], e2⟩

theorem human_no_blank (n : Nat) : (0x20 : UInt8) ∉ humanCount n := by
  intro h
  rcases human_bytes n _ h with h | h
  · exact absurd h (by decide)
  · exact absurd h.1 (by decide)

/-- **C87** the counters and the rate can be read off the message. -/
theorem C87_message (p q : Progress) (i j : Nat) (h : p.message i = q.message j) : p = q ∧ i = j := by
  unfold Progress.message at h
  have e1 : bs " records, " = 0x20 :: bs "records, " := by decide +kernel
  have e2 : bs " invalid | " = 0x20 :: bs "invalid | " := by decide +kernel
  have e3 : bs " records/s" = 0x20 :: bs "records/s" := by decide +kernel
  rw [e1, e2, e3] at h
  simp only [List.append_assoc, List.cons_append] at h
  obtain ⟨h1, h⟩ := blank_split (human_no_blank _) (human_no_blank _) h
  obtain ⟨h2, h⟩ := blank_split (human_no_blank _) (human_no_blank _) (List.append_cancel_left h)
  obtain ⟨h3, _⟩ := blank_split (human_no_blank _) (human_no_blank _) (List.append_cancel_left h)
  cases p; cases q
  exact ⟨by rw [Progress.mk.injEq]; exact ⟨human_inj h1, human_inj h2⟩, human_inj h3⟩

/-! ## cases that meet the hypotheses -/

/-- two valid lines, one invalid one and a duplicate -/
def barFiles : List (String × Bytes) := [("a", recLine "1" ++ bs "x\n"), ("b", recLine "2" ++ recLine "1")]

example : ∃ ls, AllLines barFiles ls ∧ Counted ⟨3, 1⟩ ls := by
  obtain ⟨ls, hls⟩ := allLines_exists barFiles
  refine ⟨ls, hls, ?_⟩
  have h := (C87_invalid barFiles ls hls).2
  have e : (invalidWatched barFiles ([], Progress.new)).2 = ⟨3, 1⟩ := by decide +kernel
  rwa [e] at h

example : watched true id (fun s _ => Step.next (s + 1)) barFiles 0 = .ok (3, ⟨3, 1⟩) := by decide +kernel
example : watched true id (fun s _ => Step.stop (s + 1)) barFiles 0 = .ok (1, ⟨1, 0⟩) := by decide +kernel
example : (match watched false id (fun s _ => Step.next (s + 1)) barFiles 0 with
    | .err _ y => some y
    | _ => none) = some (1, ⟨1, 0⟩) := by decide +kernel
example : NeverStops (fun (s : Nat) (_ : ByteRecord) => Step.next (s + 1)) := fun _ _ _ h => by simp at h
example : (humanCount 999, humanCount 1000, humanCount 1234567) = (bs "999", bs "1,000", bs "1,234,567") := by
  decide +kernel
example : (⟨1000, 2⟩ : Progress).message 12345 = bs "1,000 records, 2 invalid | 12,345 records/s" := by
  decide +kernel

end Pica.Props
