import Verif.Lemmas.Append
import Verif.Props.Writer
import Verif.Props.Concat
import Verif.Props.Select
import Verif.Props.Filter

/-! # C96: several runs with `--append` -/

namespace Pica.Props
open Pica Spec

theorem dataFile_apply (z : Gzip) (b : WBuilder) (path data : Bytes) (fs : FileMap) (p : Bytes) :
    b.dataFile z path data fs p =
      if p = path then some ((if b.append then (fs path).getD [] else []) ++
        (if b.gzip = true ∨ extension path = some (bs "gz") then z.compress data else data)) else fs p := by
  unfold WBuilder.dataFile WBuilder.fromPath FileWriter.finish FileMap.set
  by_cases h : p = path
  · subst h
    simp
  · simp [h]

theorem filter_builder {gzip append : Bool} {b : WBuilder} (h : WCommand.filter.writer gzip append = .writer b) :
    b = ⟨append, gzip⟩ := by
  have h1 : WCommand.filter.writer false false = .writer ⟨false, false⟩ := by decide
  have h2 : WCommand.filter.writer false true = .writer ⟨true, false⟩ := by decide
  have h3 : WCommand.filter.writer true false = .writer ⟨false, true⟩ := by decide
  have h4 : WCommand.filter.writer true true = .usage := by decide
  cases gzip <;> cases append <;> simp_all

/-- **C96** the output file of a run that succeeds: with `--append`, the old content comes first;
without, it is lost.  Other files are not changed. -/
theorem C96_file (z : Gzip) (c : FilterCmd) (gzip append : Bool) (path : Bytes)
    (files : List (String × Bytes)) (fs fs' : FileMap) (h : c.save z gzip append path none files fs = some fs') :
    ∃ s, c.run files = .ok s ∧
      fs' path = some ((if append then (fs path).getD [] else []) ++
        (if gzip = true ∨ extension path = some (bs "gz") then z.compress s.1.out else s.1.out)) ∧
      ∀ p, p ≠ path → fs' p = fs p := by
  unfold FilterCmd.save at h
  split at h
  · rename_i b s hb hs
    simp only [WBuilder.teeFile, Option.some.injEq] at h
    have hb' := filter_builder hb
    subst hb'
    subst h
    refine ⟨s, hs, ?_, fun p hp => ?_⟩
    · rw [dataFile_apply, if_pos rfl]
    · rw [dataFile_apply, if_neg hp]
  · simp at h

theorem filter_tee (c : FilterCmd) (files : List (String × Bytes)) (s : FilterOut × Nat) (h : c.run files = .ok s) :
    s.1.tee = if c.tee then some s.1.out else none := by
  refine filesLoop_keeps (P := fun x : FilterOut × Nat => x.1.tee = if c.tee then some x.1.out else none) ?_ files _ s
    ?_ (.inl h)
  · intro s r s' hs h
    unfold selBody at h
    cases htest : c.test r with
    | none => rw [htest] at h; simp at h
    | some t =>
      rw [htest] at h
      cases t with
      | false => simp at h; exact h ▸ hs
      | true =>
        simp only [limitStep] at h
        have h' : s' = (FilterCmd.emit c s.1 r, s.2 + 1) := by
          split at h <;> simp at h <;> exact h.symm
        rw [h']
        simp only [FilterCmd.emit, hs]
        cases c.tee <;> rfl
  · cases c.tee <;> rfl

/-- **C96** with `--tee` the same records go to a second file, after what was there with `--append`. -/
theorem C96_tee (z : Gzip) (c : FilterCmd) (gzip append : Bool) (path p : Bytes) (ht : c.tee = true) (hp : p ≠ path)
    (files : List (String × Bytes)) (fs fs' : FileMap) (h : c.save z gzip append path (some p) files fs = some fs') :
    ∃ s, c.run files = .ok s ∧
      (∀ q ∈ [path, p], fs' q = some ((if append then (fs q).getD [] else []) ++
        (if gzip = true ∨ extension q = some (bs "gz") then z.compress s.1.out else s.1.out))) ∧
      ∀ q, q ∉ [path, p] → fs' q = fs q := by
  unfold FilterCmd.save at h
  split at h
  · rename_i b s hb hs
    have h1 := filter_tee c files s hs
    rw [ht, if_pos rfl] at h1
    simp only [WBuilder.teeFile, h1, Option.some.injEq] at h
    have hb' := filter_builder hb
    subst hb'
    subst h
    refine ⟨s, hs, fun q hq => ?_, fun q hq => ?_⟩
    · simp only [List.mem_cons, List.not_mem_nil, or_false] at hq
      rcases hq with rfl | rfl
      · rw [dataFile_apply, if_neg (Ne.symm hp), dataFile_apply, if_pos rfl]
      · rw [dataFile_apply, if_pos rfl, dataFile_apply, if_neg hp]
    · simp only [List.mem_cons, List.not_mem_nil, or_false, not_or] at hq
      rw [dataFile_apply, if_neg hq.2, dataFile_apply, if_neg hq.1]
  · simp at h

theorem concat_tee (c : ConcatCmd) (files : List (String × Bytes)) (s : ConcatState) (h : c.run files = .ok s) :
    s.tee = if c.tee then some s.out else none := by
  refine filesLoop_keeps (P := fun x : ConcatState => x.tee = if c.tee then some x.out else none) ?_ files _ s
    ?_ (.inl h)
  · intro s r s' hs h
    have he : ∀ s : ConcatState, (s.tee = if c.tee then some s.out else none) →
        (ConcatCmd.emit s r).tee = if c.tee then some (ConcatCmd.emit s r).out else none := by
      intro s hs
      simp only [ConcatCmd.emit, hs]
      cases c.tee <;> rfl
    unfold ConcatCmd.body at h
    split at h
    · split at h
      · simp at h
      · split at h
        · simp at h; exact h ▸ hs
        · simp at h; exact h ▸ he _ hs
    · simp at h; exact h ▸ he _ hs
  · cases c.tee <;> rfl

/-- **C96** the files of `concat`, with and without `--tee` and `--append` -/
theorem C96_concat_file (z : Gzip) (c : ConcatCmd) (append : Bool) (path : Bytes) (tee : Option Bytes)
    (ht : c.tee = tee.isSome) (hp : tee ≠ some path) (files : List (String × Bytes)) (fs fs' : FileMap)
    (h : c.save z append path tee files fs = some fs') :
    ∃ s, c.run files = .ok s ∧
      (∀ q, q = path ∨ tee = some q → fs' q = some ((if append then (fs q).getD [] else []) ++
        (if extension q = some (bs "gz") then z.compress s.out else s.out))) ∧
      ∀ q, q ≠ path → tee ≠ some q → fs' q = fs q := by
  have h1 : WCommand.concat.writer false false = .writer ⟨false, false⟩ := by decide
  have h2 : WCommand.concat.writer false true = .writer ⟨true, false⟩ := by decide
  have hw : WCommand.concat.writer false append = .writer ⟨append, false⟩ := by cases append <;> assumption
  unfold ConcatCmd.save at h
  rw [hw] at h
  cases hs : c.run files with
  | err e s => rw [hs] at h; simp at h
  | panic => rw [hs] at h; simp at h
  | ok s =>
    have h3 := concat_tee c files s hs
    rw [hs] at h
    cases tee with
    | none =>
      simp only [WBuilder.teeFile, Option.some.injEq] at h
      subst h
      refine ⟨s, rfl, fun q hq => ?_, fun q hq _ => ?_⟩
      · simp only [reduceCtorEq, or_false] at hq
        subst hq
        rw [dataFile_apply, if_pos rfl]
        simp
      · rw [dataFile_apply, if_neg hq]
    | some p =>
      have hp' : p ≠ path := fun e => hp (by rw [e])
      rw [ht] at h3
      simp only [WBuilder.teeFile, h3, Option.isSome_some, if_true, Option.some.injEq] at h
      subst h
      refine ⟨s, rfl, fun q hq => ?_, fun q hq hq' => ?_⟩
      · rcases hq with rfl | hq
        · rw [dataFile_apply, if_neg (Ne.symm hp'), dataFile_apply, if_pos rfl]
          simp
        · simp only [Option.some.injEq] at hq
          subst hq
          rw [dataFile_apply, if_pos rfl, dataFile_apply, if_neg hp']
          simp
      · rw [dataFile_apply, if_neg (fun e => hq' (by rw [e])), dataFile_apply, if_neg hq]

/-- **C96** the files of `select` and `count` -/
theorem C96_table_file (append : Bool) (path : Bytes) (files : List (String × Bytes)) (fs fs' : FileMap) :
    (∀ (c : SelectCmd) (o : CsvOpts) (header : Option (List Bytes)), c.save o header append path files fs = some fs' →
      ∃ text, c.table o header files = some (.ok, text) ∧
        fs' path = some ((if append then (fs path).getD [] else []) ++ text) ∧ ∀ q, q ≠ path → fs' q = fs q) ∧
    (∀ c : CountCmd, c.save append path files fs = some fs' →
      ∃ text, c.run files = .ok text ∧
        fs' path = some ((if append then (fs path).getD [] else []) ++ text) ∧ ∀ q, q ≠ path → fs' q = fs q) := by
  refine ⟨fun c o header h => ?_, fun c h => ?_⟩
  · unfold SelectCmd.save at h
    split at h
    · rename_i text ht
      simp only [Option.some.injEq] at h
      subst h
      exact ⟨text, ht, by simp [plainFile, FileMap.set], fun q hq => by simp [plainFile, FileMap.set, hq]⟩
    · simp at h
  · unfold CountCmd.save at h
    split at h
    · rename_i text ht
      simp only [Option.some.injEq] at h
      subst h
      exact ⟨text, ht, by simp [plainFile, FileMap.set], fun q hq => by simp [plainFile, FileMap.set, hq]⟩
    · simp at h

/-! ## one run or several -/

/-- runs that add up -/
theorem runsAfter_flatten {run : List (String × Bytes) → FileMap → Option FileMap}
    (h : ∀ a b fs, run (a ++ b) fs = (run a fs).bind (run b)) (batches : List (List (String × Bytes)))
    (hb : batches ≠ []) (fs : FileMap) : runsAfter run batches fs = run batches.flatten fs := by
  induction batches generalizing fs with
  | nil => exact absurd rfl hb
  | cons x xs ih =>
    rw [runsAfter, List.flatten_cons]
    cases xs with
    | nil =>
      rw [List.flatten_nil, List.append_nil]
      cases run x fs <;> rfl
    | cons y ys =>
      rw [h]
      congr 1
      funext fs'
      exact ih (by simp) fs'

theorem dataFile_append {z : Gzip} {path : Bytes} (he : extension path ≠ some (bs "gz")) (a b : Bytes) (fs : FileMap) :
    (⟨true, false⟩ : WBuilder).dataFile z path (a ++ b) fs =
      (⟨true, false⟩ : WBuilder).dataFile z path b ((⟨true, false⟩ : WBuilder).dataFile z path a fs) := by
  funext p
  simp only [dataFile_apply, he, Bool.false_eq_true, or_self, if_false, if_true, Option.getD_some]
  by_cases h : p = path
  · rw [if_pos h, if_pos h, List.append_assoc]
  · rw [if_neg h, if_neg h, if_neg h]

theorem dataFile_comm {z : Gzip} {b b' : WBuilder} {path path' : Bytes} (hp : path ≠ path') (x y : Bytes) (fs : FileMap) :
    b.dataFile z path x (b'.dataFile z path' y fs) = b'.dataFile z path' y (b.dataFile z path x fs) := by
  funext p
  simp only [dataFile_apply]
  rw [if_neg hp, if_neg (Ne.symm hp)]
  by_cases h : p = path
  · subst h
    rw [if_pos rfl, if_neg hp, if_pos rfl]
  · rw [if_neg h, if_neg h]

/-- output and tee file -/
def bothTees (a b : Option Bytes) : Option Bytes :=
  match a, b with
  | some x, some y => some (x ++ y)
  | _, _ => none

theorem teeFile_append {z : Gzip} {path : Bytes} {tee : Option Bytes} (he : extension path ≠ some (bs "gz"))
    (ht : ∀ p, tee = some p → p ≠ path ∧ extension p ≠ some (bs "gz")) (a b : Bytes) (ta tb : Option Bytes)
    (hs : ta.isSome = tb.isSome) (fs : FileMap) :
    (⟨true, false⟩ : WBuilder).teeFile z path tee (a ++ b) (bothTees ta tb) fs =
      (⟨true, false⟩ : WBuilder).teeFile z path tee b tb ((⟨true, false⟩ : WBuilder).teeFile z path tee a ta fs) := by
  unfold WBuilder.teeFile bothTees
  cases tee with
  | none => exact dataFile_append he a b fs
  | some p =>
    obtain ⟨hp, hpe⟩ := ht p rfl
    cases ta with
    | none =>
      cases tb with
      | none => exact dataFile_append he a b fs
      | some y => simp at hs
    | some x =>
      cases tb with
      | none => simp at hs
      | some y =>
        dsimp only
        rw [dataFile_append he, dataFile_append hpe, dataFile_comm (path := path) (path' := p) (Ne.symm hp)]

theorem limitStep_zero {S : Type} (n : Nat) (s : S) : limitStep 0 n s = .next s := by simp [limitStep]

/-- **C96** `filter --append`: several runs, each with a part of the files, leave the same files as
one run with all of them, and succeed if and only if this does.  Missing: a limit, and files whose name
ends with `.gz`. -/
theorem C96_filter_partial (z : Gzip) (c : FilterCmd) (hl : c.limit = 0) (path : Bytes) (tee : Option Bytes)
    (he : extension path ≠ some (bs "gz")) (ht : ∀ p, tee = some p → p ≠ path ∧ extension p ≠ some (bs "gz"))
    (batches : List (List (String × Bytes))) (hb : batches ≠ []) (fs : FileMap) :
    runsAfter (c.save z false true path tee) batches fs = c.save z false true path tee batches.flatten fs := by
  refine runsAfter_flatten (fun a b fs => ?_) batches hb fs
  have hw : WCommand.filter.writer false true = .writer ⟨true, false⟩ := by decide
  have hadd : c.run (a ++ b) = (c.run a).plus
      (fun x y => (⟨x.1.out ++ y.1.out, bothTees x.1.tee y.1.tee⟩, x.2 + y.2)) (c.run b) := by
    unfold FilterCmd.run
    refine filesLoop_plus (P := fun x => x.1.tee.isSome = c.tee) ?_ ?_ ?_ ?_ ?_ a b
    · intro s r s'
      unfold selBody
      rw [hl]
      cases c.test r with
      | none => simp
      | some x => cases x <;> simp [limitStep_zero]
    · intro x s r
      unfold selBody
      rw [hl]
      cases c.test r with
      | none => rfl
      | some t =>
        cases t with
        | false => rfl
        | true =>
          simp only [limitStep_zero, Step.map, FilterCmd.emit, Step.next.injEq, Prod.mk.injEq, FilterOut.mk.injEq,
            List.append_assoc, Nat.add_assoc, and_true, true_and]
          cases x.1.tee <;> cases s.1.tee <;> simp [bothTees]
    · intro s r s' hs h
      unfold selBody at h
      rw [hl] at h
      cases htest : c.test r with
      | none => rw [htest] at h; simp at h
      | some t =>
        rw [htest] at h
        cases t with
        | false => simp at h; exact h ▸ hs
        | true =>
          simp only [limitStep_zero, Step.next.injEq, reduceCtorEq, or_false] at h
          rw [← h, ← hs]
          simp only [FilterCmd.emit]
          cases s.1.tee <;> rfl
    · cases c.tee <;> rfl
    · intro x hx
      obtain ⟨⟨o, t⟩, n⟩ := x
      simp only at hx ⊢
      rw [List.append_nil, Nat.add_zero]
      cases t with
      | none => rfl
      | some d => rw [← hx]; simp [bothTees]
  have htee : ∀ f s, c.run f = .ok s → s.1.tee.isSome = c.tee := by
    intro f s h
    refine filesLoop_keeps (P := fun x : FilterOut × Nat => x.1.tee.isSome = c.tee) ?_ f _ s ?_ (.inl h)
    · intro s r s' hs h
      unfold selBody at h
      rw [hl] at h
      cases htest : c.test r with
      | none => rw [htest] at h; simp at h
      | some t =>
        rw [htest] at h
        cases t with
        | false => simp at h; exact h ▸ hs
        | true =>
          simp only [limitStep_zero, Step.next.injEq, reduceCtorEq, or_false] at h
          rw [← h, ← hs]
          simp only [FilterCmd.emit]
          cases s.1.tee <;> rfl
    · cases c.tee <;> rfl
  unfold FilterCmd.save
  rw [hw, hadd]
  cases ha : c.run a with
  | err e s => rfl
  | panic => rfl
  | ok x =>
    cases hb' : c.run b with
    | err e s => rfl
    | panic => rfl
    | ok y =>
      simp only [LoopResult.plus, Option.bind_some, Option.some.injEq]
      exact teeFile_append he ht _ _ _ _ ((htee a x ha).trans (htee b y hb').symm) fs

/-- **C96** `concat --append` without `--unique` -/
theorem C96_concat_partial (z : Gzip) (c : ConcatCmd) (hu : c.unique = false) (path : Bytes) (tee : Option Bytes)
    (he : extension path ≠ some (bs "gz")) (ht : ∀ p, tee = some p → p ≠ path ∧ extension p ≠ some (bs "gz"))
    (batches : List (List (String × Bytes))) (hb : batches ≠ []) (fs : FileMap) :
    runsAfter (c.save z true path tee) batches fs = c.save z true path tee batches.flatten fs := by
  refine runsAfter_flatten (fun a b fs => ?_) batches hb fs
  have hw : WCommand.concat.writer false true = .writer ⟨true, false⟩ := by decide
  have hbody : ∀ s r, c.body s r = .next (ConcatCmd.emit s r) := by
    intro s r
    unfold ConcatCmd.body
    rw [hu]
    rfl
  have hP : ∀ s r s', (s.seen = [] ∧ s.tee.isSome = c.tee) →
      (c.body s r = .next s' ∨ c.body s r = .stop s') → s'.seen = [] ∧ s'.tee.isSome = c.tee := by
    intro s r s' hs h
    rw [hbody] at h
    simp only [Step.next.injEq, reduceCtorEq, or_false] at h
    rw [← h]
    refine ⟨hs.1, ?_⟩
    rw [← hs.2]
    simp only [ConcatCmd.emit]
    cases s.tee <;> rfl
  have h0 : (⟨[], if c.tee then some [] else none, []⟩ : ConcatState).seen = [] ∧
      (⟨[], if c.tee then some [] else none, []⟩ : ConcatState).tee.isSome = c.tee := by
    refine ⟨rfl, ?_⟩
    cases c.tee <;> rfl
  have hadd : c.run (a ++ b) = (c.run a).plus
      (fun x y => ⟨x.out ++ y.out, bothTees x.tee y.tee, y.seen⟩) (c.run b) := by
    unfold ConcatCmd.run
    refine filesLoop_plus (P := fun x => x.seen = [] ∧ x.tee.isSome = c.tee) ?_ ?_ hP h0 ?_ a b
    · intro s r s'
      rw [hbody]
      simp
    · intro x s r
      rw [hbody, hbody]
      simp only [Step.map, ConcatCmd.emit, Step.next.injEq, ConcatState.mk.injEq, List.append_assoc, and_true, true_and]
      cases x.tee <;> cases s.tee <;> simp [bothTees]
    · intro x hx
      obtain ⟨o, t, n⟩ := x
      simp only at hx ⊢
      rw [List.append_nil, hx.1]
      cases t with
      | none => rfl
      | some d => rw [← hx.2]; simp [bothTees]
  unfold ConcatCmd.save
  rw [hw, hadd]
  cases ha : c.run a with
  | err e s => rfl
  | panic => rfl
  | ok x =>
    cases hb' : c.run b with
    | err e s => rfl
    | panic => rfl
    | ok y =>
      simp only [LoopResult.plus, Option.bind_some, Option.some.injEq]
      refine teeFile_append he ht _ _ _ _ ?_ fs
      exact (filesLoop_keeps (P := fun x => x.seen = [] ∧ x.tee.isSome = c.tee) hP a _ x h0 (.inl ha)).2.trans
        (filesLoop_keeps (P := fun x => x.seen = [] ∧ x.tee.isSome = c.tee) hP b _ y h0 (.inl hb')).2.symm

theorem csvRows_flatMap {o : CsvOpts} {n : Nat} {rows : List (List Bytes)} (h : ∀ row ∈ rows, row.length = n)
    (w : Option Nat) (hw : w = none ∨ w = some n) : o.rows w rows = (true, rows.flatMap o.row) := by
  induction rows generalizing w with
  | nil => rfl
  | cons row rows ih =>
    have h1 := h row (by simp)
    rw [CsvOpts.rows, if_pos (by rcases hw with rfl | rfl <;> simp [h1]), h1,
      ih (fun row hr => h row (by simp [hr])) (some n) (.inr rfl), List.flatMap_cons]

/-- **C96** `select --append` without header, limit and `--unique` -/
theorem C96_select_partial (c : SelectCmd) (hl : c.limit = 0) (hu : c.unique = false) (o : CsvOpts)
    (hq : c.query.fragments ≠ []) (path : Bytes) (batches : List (List (String × Bytes))) (hb : batches ≠ [])
    (fs : FileMap) :
    runsAfter (c.save o none true path) batches fs = c.save o none true path batches.flatten fs := by
  refine runsAfter_flatten (fun a b fs => ?_) batches hb fs
  have hrow : ∀ (rows : List (List Bytes)) (x s : SelectState),
      rows.foldl c.row ⟨x.out ++ s.out, s.seen, x.count + s.count⟩ =
        ⟨x.out ++ (rows.foldl c.row s).out, (rows.foldl c.row s).seen, x.count + (rows.foldl c.row s).count⟩ := by
    intro rows x
    induction rows with
    | nil => intro s; rfl
    | cons row rows ih =>
      intro s
      rw [List.foldl_cons, List.foldl_cons, ← ih (c.row s row)]
      congr 1
      unfold SelectCmd.row
      simp only [hu, Bool.false_and, Bool.false_eq_true, if_false]
      split
      · rfl
      · split <;> simp
  have hseen : ∀ (rows : List (List Bytes)) (s : SelectState), (rows.foldl c.row s).seen = s.seen := by
    intro rows
    induction rows with
    | nil => intro s; rfl
    | cons row rows ih =>
      intro s
      rw [List.foldl_cons, ih]
      unfold SelectCmd.row
      simp only [hu, Bool.false_and, Bool.false_eq_true, if_false]
      split
      · rfl
      · split <;> rfl
  have hadd : c.run (a ++ b) = (c.run a).plus
      (fun x y => ⟨x.out ++ y.out, y.seen, x.count + y.count⟩) (c.run b) := by
    unfold SelectCmd.run
    rw [hl]
    refine filesLoop_plus (P := fun x => x.seen = []) ?_ ?_ ?_ rfl ?_ a b
    · intro s r s'
      unfold selBody resultBody
      dsimp only
      cases c.sel.test r with
      | none => simp
      | some t =>
        cases t with
        | false => simp
        | true => cases c.query.run c.E c.qo r.record <;> simp [limitStep_zero]
    · intro x s r
      unfold selBody resultBody
      dsimp only
      cases c.sel.test r with
      | none => rfl
      | some t =>
        cases t with
        | false => rfl
        | true =>
          cases c.query.run c.E c.qo r.record with
          | none => rfl
          | some rows =>
            simp only [limitStep_zero, Step.map, SelectCmd.step, hrow, Nat.add_assoc]
    · intro s r s' hs h
      unfold selBody resultBody at h
      dsimp only at h
      cases htest : c.sel.test r with
      | none => rw [htest] at h; simp at h
      | some t =>
        rw [htest] at h
        cases t with
        | false => simp at h; exact h ▸ hs
        | true =>
          cases hrun : c.query.run c.E c.qo r.record with
          | none => rw [hrun] at h; simp at h
          | some rows =>
            rw [hrun] at h
            simp only [limitStep_zero, Step.next.injEq, reduceCtorEq, or_false] at h
            rw [← h]
            simp only [SelectCmd.step, hseen]
            exact hs
    · intro x hx
      obtain ⟨o, t, n⟩ := x
      simp only at hx
      subst hx
      simp
  have htable : ∀ f s, c.run f = .ok s → c.table o none f = some (.ok, s.out.flatMap o.row) := by
    intro f s h
    unfold SelectCmd.table
    rw [h]
    have hr : o.rows none ((none : Option (List Bytes)).toList ++ s.out) = (true, s.out.flatMap o.row) :=
      csvRows_flatMap (select_width hq (.inl h)) none (.inl rfl)
    simp only [tableEnd, hr, if_true]
  have herr : ∀ f fs, (∀ s, c.run f ≠ .ok s) → c.save o none true path f fs = none := by
    intro f fs h
    unfold SelectCmd.save SelectCmd.table
    cases hf : c.run f with
    | ok s => exact absurd hf (h s)
    | panic => rfl
    | err e s =>
      by_cases hk : (o.rows none ((none : Option (List Bytes)).toList ++ s.out)).1 = true
      · simp only [tableEnd, hk, if_true]
      · simp only [tableEnd, hk]
        rfl
  cases ha : c.run a with
  | err e s => rw [herr a fs (by simp [ha]), herr (a ++ b) fs (by simp [hadd, ha, LoopResult.plus])]; rfl
  | panic => rw [herr a fs (by simp [ha]), herr (a ++ b) fs (by simp [hadd, ha, LoopResult.plus])]; rfl
  | ok x =>
    have hx : c.save o none true path a fs = some (plainFile true path (x.out.flatMap o.row) fs) := by
      unfold SelectCmd.save
      rw [htable a x ha]
    rw [hx, Option.bind_some]
    cases hb' : c.run b with
    | err e s => rw [herr b _ (by simp [hb']), herr (a ++ b) fs (by simp [hadd, ha, hb', LoopResult.plus])]
    | panic => rw [herr b _ (by simp [hb']), herr (a ++ b) fs (by simp [hadd, ha, hb', LoopResult.plus])]
    | ok y =>
      rw [ha, hb'] at hadd
      unfold SelectCmd.save
      rw [htable b y hb', htable _ _ hadd]
      simp only [Option.some.injEq]
      funext p
      simp only [plainFile, FileMap.set, List.flatMap_append]
      by_cases h : p = path
      · rw [if_pos h, if_pos h]; simp
      · rw [if_neg h, if_neg h, if_neg h]

/-- **C96** `count --append`: there is one report for each run, after what was there. -/
theorem C96_count (c : CountCmd) (path : Bytes) (batches : List (List (String × Bytes))) (fs fs' : FileMap)
    (h : runsAfter (c.save true path) batches fs = some fs') :
    ∃ sts, List.Forall₂ (fun files st => c.loop files = .ok st) batches sts ∧
      (fs' path).getD [] = (fs path).getD [] ++ sts.flatMap c.report ∧ ∀ p, p ≠ path → fs' p = fs p := by
  induction batches generalizing fs with
  | nil =>
    simp only [runsAfter, Option.some.injEq] at h
    subst h
    exact ⟨[], .nil, by simp, fun _ _ => rfl⟩
  | cons x xs ih =>
    rw [runsAfter] at h
    unfold CountCmd.save CountCmd.run at h
    cases hx : c.loop x with
    | err e s => rw [hx] at h; simp at h
    | panic => rw [hx] at h; simp at h
    | ok st =>
      rw [hx] at h
      simp only [Option.bind_some] at h
      obtain ⟨sts, h1, h2, h3⟩ := ih _ h
      refine ⟨st :: sts, .cons hx h1, ?_, fun p hp => ?_⟩
      · rw [h2]
        simp [plainFile, FileMap.set]
      · rw [h3 p hp]
        simp [plainFile, FileMap.set, hp]

/-! ## what does not add up -/

/-- all records with a field `003@`, with a limit and with or without tee -/
def appendFilter (limit : Nat) (tee : Bool) : FilterCmd :=
  ⟨false, false, limit, tee, toyEnv, toyEnv, ⟨false⟩, ⟨none, none, Path.ppnPath⟩,
    (fldM "003@?").get (by decide +kernel), [], []⟩

/-- **C96** a file whose name ends with `.gz`: each run adds a member, and only what the first run has
written is read back. -/
theorem C96_gz_false (z : Gzip) (stdin : Bytes) (c : FilterCmd) (path : Bytes)
    (he : extension path = some (bs "gz")) (a b : List (String × Bytes)) (fs fs' : FileMap) (hn : fs path = none)
    (h : runsAfter (c.save z false true path none) [a, b] fs = some fs') :
    ∃ x y, c.run a = .ok x ∧ c.run b = .ok y ∧ openFile z stdin path fs' = some x.1.out := by
  simp only [runsAfter] at h
  obtain ⟨f1, h1, h2⟩ := Option.bind_eq_some_iff.1 h
  obtain ⟨f2, h3, h4⟩ := Option.bind_eq_some_iff.1 h2
  simp only [Option.some.injEq] at h4
  subst h4
  obtain ⟨x, hx, h5, -⟩ := C96_file z c false true path a fs f1 h1
  obtain ⟨y, hy, h6, -⟩ := C96_file z c false true path b f1 f2 h3
  refine ⟨x, y, hx, hy, ?_⟩
  unfold openFile
  rw [if_pos he, h6, h5]
  simp only [he, hn, or_true, if_true, Option.getD_some, Option.getD_none, List.nil_append, Option.map_some, z.decode]

/-- **C96** `select --header --append`: each run writes the header. -/
theorem C96_header_false : ∃ (c : SelectCmd) (o : CsvOpts) (header : List Bytes) (path : Bytes)
    (a b : List (String × Bytes)), c.limit = 0 ∧ c.unique = false ∧
    (runsAfter (c.save o (some header) true path) [a, b] (fun _ => none)).map (· path) =
      some (some (bs "p,q\nx,y\nx,\np,q\nx,z\nx,\n")) ∧
    (c.save o (some header) true path (a ++ b) (fun _ => none)).map (· path) =
      some (some (bs "p,q\nx,y\nx,\nx,z\nx,\n")) :=
  ⟨(selectSample false false toyHash).get (by decide +kernel), ⟨0x2C, .necessary, fun _ => false⟩, [bs "p", bs "q"], bs "o.csv",
    [("a", selectLine "y")], [("b", selectLine "z")], by decide +kernel, by decide +kernel, by decide +kernel,
    by decide +kernel⟩

/-- **C96** `--unique`: a run does not know the rows and records of the runs before. -/
theorem C96_unique_false :
    (∃ (c : SelectCmd) (o : CsvOpts) (path : Bytes) (a b : List (String × Bytes)), c.limit = 0 ∧
      (runsAfter (c.save o none true path) [a, b] (fun _ => none)).map (· path) = some (some (bs "x,y\nx,\nx,y\nx,\n")) ∧
      (c.save o none true path (a ++ b) (fun _ => none)).map (· path) = some (some (bs "x,y\nx,\n"))) ∧
    ∃ (z : Gzip) (c : ConcatCmd) (path : Bytes) (a b : List (String × Bytes)),
      (runsAfter (c.save z true path none) [a, b] (fun _ => none)).map (· path) =
        some (some (recLine "1" ++ recLine "1")) ∧
      (c.save z true path none (a ++ b) (fun _ => none)).map (· path) = some (some (recLine "1")) :=
  ⟨⟨(selectSample true false toyHash).get (by decide +kernel), ⟨0x2C, .necessary, fun _ => false⟩, bs "o.csv",
    [("a", selectLine "y")], [("b", selectLine "y")], by decide +kernel, by decide +kernel, by decide +kernel⟩,
   ⟨toyGzip, concatSample true .idn, bs "o.dat", [("a", recLine "1")], [("b", recLine "1")], by decide +kernel,
    by decide +kernel⟩⟩

/-- **C96** `--limit`: each run has its own limit. -/
theorem C96_limit_false : ∃ (z : Gzip) (c : FilterCmd) (path : Bytes) (a b : List (String × Bytes)), c.limit = 1 ∧
    (runsAfter (c.save z false true path none) [a, b] (fun _ => none)).map (· path) =
      some (some (recLine "1" ++ recLine "2")) ∧
    (c.save z false true path none (a ++ b) (fun _ => none)).map (· path) = some (some (recLine "1")) :=
  ⟨toyGzip, appendFilter 1 false, bs "o.dat", [("a", recLine "1")], [("b", recLine "2")], rfl,
    by decide +kernel, by decide +kernel⟩

/-! ## examples -/

/-- the hypotheses of `C96_filter_partial`, with a tee file, and what is in the files -/
example := C96_filter_partial toyGzip (appendFilter 0 true) rfl (bs "o.dat") (some (bs "t.dat")) (by decide +kernel)
  (fun p hp => by simp only [Option.some.injEq] at hp; subst hp; exact ⟨by decide +kernel, by decide +kernel⟩)
  [[("a", recLine "1")], [("b", recLine "2"), ("c", recLine "3")]] (by simp) (fun _ => none)

example :
    (runsAfter ((appendFilter 0 true).save toyGzip false true (bs "o.dat") (some (bs "t.dat")))
      [[("a", recLine "1")], [("b", recLine "2"), ("c", recLine "3")]]
      (fun p => if p = bs "o.dat" then some (recLine "0") else none)).map (fun fs => (fs (bs "o.dat"), fs (bs "t.dat"))) =
    some (some (recLine "0" ++ recLine "1" ++ recLine "2" ++ recLine "3"),
      some (recLine "1" ++ recLine "2" ++ recLine "3")) := by decide +kernel

example := C96_concat_partial toyGzip (concatSample false .idn) rfl (bs "o.dat") none (by decide +kernel)
  (fun p hp => by simp at hp) [[("a", recLine "1")], [("b", recLine "1")]] (by simp) (fun _ => none)

example := C96_select_partial ((selectSample false false toyHash).get (by decide +kernel)) (by decide +kernel)
  (by decide +kernel) ⟨0x2C, .necessary, fun _ => false⟩ (by decide +kernel) (bs "o.csv")
  [[("a", selectLine "y")], [("b", selectLine "y")]] (by simp) (fun _ => none)

example : (runsAfter ((countSample (.csv true)).save true (bs "o.csv"))
    [[("a", recLine "1")], [("b", recLine "1" ++ recLine "2")]] (fun _ => none)).map (· (bs "o.csv")) =
    some (some (bs "records,fields,subfields\n1,1,1\nrecords,fields,subfields\n2,2,2\n")) := by decide +kernel

example : ((appendFilter 0 false).save toyGzip true false (bs "o.dat") none [("a", recLine "1")]
    (fun _ => none)).isSome = true := by decide +kernel

example : ((appendFilter 0 true).save toyGzip false false (bs "o.dat") (some (bs "t.dat")) [("a", recLine "1")]
    (fun _ => some (recLine "0"))).isSome = true ∧ (appendFilter 0 true).tee = true := by decide +kernel

example : ((concatSample true .idn).save toyGzip false (bs "o.dat") none [("a", recLine "1"), ("b", recLine "1")]
    (fun _ => some (recLine "0"))).map (· (bs "o.dat")) = some (some (recLine "1")) ∧
    (concatSample true .idn).tee = (none : Option Bytes).isSome := by decide +kernel

example : ((countSample (.csv true)).save false (bs "o.csv") [("a", recLine "1")] (fun _ => some (recLine "0"))).map
    (· (bs "o.csv")) = some (some (bs "records,fields,subfields\n1,1,1\n")) := by decide +kernel

/-- the file of `C96_gz_false` -/
example : extension (bs "o.dat.gz") = some (bs "gz") ∧
    (runsAfter ((appendFilter 0 false).save toyGzip false true (bs "o.dat.gz") none)
      [[("a", recLine "1")], [("b", recLine "2")]] (fun _ => none)).isSome = true := by decide +kernel

end Pica.Props
