import Verif.Model.SliceRuns
import Verif.Spec.SliceRuns
import Verif.Props.Slice
import Verif.Props.Append

/-! # C99: slices one after the other -/

namespace Pica.Props
open Pica Spec

theorem slice_builder {gzip append : Bool} {b : WBuilder} (h : WCommand.slice.writer gzip append = .writer b) :
    b = ⟨append, gzip⟩ := by
  have h1 : WCommand.slice.writer false false = .writer ⟨false, false⟩ := by decide
  have h2 : WCommand.slice.writer false true = .writer ⟨true, false⟩ := by decide
  have h3 : WCommand.slice.writer true false = .writer ⟨false, true⟩ := by decide
  have h4 : WCommand.slice.writer true true = .panic := by decide
  cases gzip <;> cases append <;> simp_all

/-- **C99** the output file of a run of `slice` that succeeds: with `--append`, the old content comes first;
without, it is lost.  Other files are not changed. -/
theorem C99_file (z : Gzip) (c : SliceCmd) (gzip append : Bool) (path : Bytes)
    (files : List (String × Bytes)) (fs fs' : FileMap) (h : c.save z gzip append path files fs = some fs') :
    ∃ s, c.run files = .ok s ∧
      fs' path = some ((if append then (fs path).getD [] else []) ++
        (if gzip = true ∨ extension path = some (bs "gz") then z.compress s.out else s.out)) ∧
      ∀ p, p ≠ path → fs' p = fs p := by
  unfold SliceCmd.save at h
  split at h
  · rename_i b s hb hs
    simp only [Option.some.injEq] at h
    have hb' := slice_builder hb
    subst hb'
    subst h
    refine ⟨s, hs, ?_, fun p hp => ?_⟩
    · rw [dataFile_apply, if_pos rfl]
    · rw [dataFile_apply, if_neg hp]
  · simp at h

theorem sliced_take (c : SliceCmd) (hl : c.limit = 0) (e : Nat) (rs : List ByteRecord) :
    sliced c e rs = ((picked c.sel rs).take e).drop c.start := by
  rw [sliced, range_from, hl, limited, if_pos rfl, Nat.sub_zero, Nat.sub_zero]

/-- **C99** slices from cut to cut, each appended to the same file, leave all selected records from the first
to the last cut in it, each once and in order. -/
theorem C99_cuts_partial (z : Gzip) (c : SliceCmd) (hl : c.limit = 0) (path : Bytes) (he : extension path ≠ some (bs "gz"))
    (files : List (String × Bytes)) (rs : List ByteRecord) (hi : Input files rs) (a : Nat) (cuts : List Nat)
    (hc : Growing a cuts) (hne : cuts ≠ []) (fs fs' : FileMap)
    (h : c.saveAll z path files (between a cuts) fs = some fs') :
    fs' path = some ((fs path).getD [] ++
      (((picked c.sel rs).take (lastCut a cuts)).drop a).flatMap ByteRecord.write) ∧
    ∀ p, p ≠ path → fs' p = fs p := by
  have grow : ∀ (cuts : List Nat) (a : Nat), Growing a cuts → a ≤ lastCut a cuts := by
    intro cuts
    induction cuts with
    | nil => exact fun a _ => Nat.le_refl a
    | cons b cuts ih => exact fun a h => Nat.le_trans h.1 (ih b h.2.2)
  induction cuts generalizing a fs with
  | nil => exact absurd rfl hne
  | cons b cuts ih =>
    rw [between, SliceCmd.saveAll] at h
    obtain ⟨fs1, h1, h2⟩ := Option.bind_eq_some_iff.1 h
    obtain ⟨s, hs, hp, ho⟩ := C99_file z _ _ _ _ _ _ _ h1
    rw [if_pos rfl, if_neg (by simp [he])] at hp
    rw [C34_end ({ c with start := a, «end» := b, length := 0 }) hc.2.1 rfl files rs hi s hs,
      sliced_take ({ c with start := a, «end» := b, length := 0 }) hl] at hp
    dsimp only at hp
    cases cuts with
    | nil =>
      rw [between, SliceCmd.saveAll, Option.some.injEq] at h2
      subst h2
      exact ⟨hp, ho⟩
    | cons d cuts =>
      obtain ⟨h3, h4⟩ := ih b hc.2.2 (by simp) fs1 h2
      refine ⟨?_, fun p hq => (h4 p hq).trans (ho p hq)⟩
      have el : lastCut a (b :: d :: cuts) = lastCut b (d :: cuts) := rfl
      rw [h3, hp, Option.getD_some, el, List.append_assoc, ← List.flatMap_append]
      have hab := hc.1
      have hbe := grow _ _ hc.2.2
      generalize lastCut b (d :: cuts) = e at hbe ⊢
      congr 4
      generalize picked c.sel rs = l
      have e1 : (l.take b).drop a = ((l.take e).drop a).take (b - a) := by
        rw [List.take_drop, List.take_take, Nat.add_sub_cancel' hab, Nat.min_eq_left hbe]
      have e2 : (l.take e).drop b = ((l.take e).drop a).drop (b - a) := by
        rw [List.drop_drop, Nat.add_sub_cancel' hab]
      rw [e1, e2, List.take_append_drop]

/-- **C99** if the last run has no end, the file has all selected records from the first position on. -/
theorem C99_whole_partial (z : Gzip) (c : SliceCmd) (hl : c.limit = 0) (path : Bytes) (he : extension path ≠ some (bs "gz"))
    (files : List (String × Bytes)) (rs : List ByteRecord) (hi : Input files rs)
    (hsize : (picked c.sel rs).length < 2 ^ 64) (a b : Nat) (hab : a ≤ b) (hb : 0 < b) (fs fs' : FileMap)
    (h : c.saveAll z path files [(a, b, 0), (b, 0, 0)] fs = some fs') :
    fs' path = some ((fs path).getD [] ++ ((picked c.sel rs).drop a).flatMap ByteRecord.write) := by
  rw [SliceCmd.saveAll] at h
  obtain ⟨fs1, h1, h4⟩ := Option.bind_eq_some_iff.1 h
  rw [SliceCmd.saveAll] at h4
  obtain ⟨fs2, h2, h3⟩ := Option.bind_eq_some_iff.1 h4
  clear h h4
  rw [SliceCmd.saveAll, Option.some.injEq] at h3
  subst h3
  obtain ⟨s, hs, hp, -⟩ := C99_file z _ _ _ _ _ _ _ h1
  obtain ⟨t, ht, hq, -⟩ := C99_file z _ _ _ _ _ _ _ h2
  rw [if_pos rfl, if_neg (by simp [he])] at hp hq
  rw [hq, hp, C34_end ({ c with start := a, «end» := b, length := 0 }) hb rfl files rs hi s hs,
    sliced_take ({ c with start := a, «end» := b, length := 0 }) hl,
    C34_start ({ c with start := b, «end» := 0, length := 0 }) rfl rfl files rs hi hsize t ht, Option.getD_some]
  dsimp only
  rw [hl, limited, if_pos rfl, List.append_assoc, ← List.flatMap_append]
  congr 4
  generalize picked c.sel rs = l
  have e1 : (l.take b).drop a = (l.drop a).take (b - a) := by rw [List.take_drop, Nat.add_sub_cancel' hab]
  have e2 : l.drop b = (l.drop a).drop (b - a) := by rw [List.drop_drop, Nat.add_sub_cancel' hab]
  rw [e1, e2, List.take_append_drop]

theorem saveAll_append (z : Gzip) (c : SliceCmd) (path : Bytes) (files : List (String × Bytes))
    (xs ys : List (Nat × Nat × Nat)) (fs : FileMap) :
    c.saveAll z path files (xs ++ ys) fs = (c.saveAll z path files xs fs).bind (c.saveAll z path files ys) := by
  induction xs generalizing fs with
  | nil => rfl
  | cons x xs ih =>
    obtain ⟨a, b, l⟩ := x
    rw [List.cons_append, SliceCmd.saveAll, SliceCmd.saveAll, Option.bind_assoc]
    congr 1
    funext fs1
    exact ih fs1

/-- **C99** pages of `n` records with `--start` and `--length`: `k` pages are the first `k * n` selected records, if
no invalid line is skipped. -/
theorem C99_pages_partial (z : Gzip) (c : SliceCmd) (hl : c.limit = 0) (path : Bytes) (he : extension path ≠ some (bs "gz"))
    (files : List (String × Bytes)) (hv : c.skip = false ∨ AllValid files) (rs : List ByteRecord) (hi : Input files rs)
    (n k : Nat) (hn : 0 < n) (hk : (k + 1) * n < 2 ^ 64) (fs fs' : FileMap)
    (h : c.saveAll z path files (pages n (k + 1)) fs = some fs') :
    fs' path = some ((fs path).getD [] ++ ((picked c.sel rs).take ((k + 1) * n)).flatMap ByteRecord.write) := by
  have one : ∀ (i : Nat) (fs fs' : FileMap), (i + 1) * n < 2 ^ 64 →
      (({ c with start := i * n, «end» := 0, length := n } : SliceCmd).save z false true path files fs) = some fs' →
      fs' path = some ((fs path).getD [] ++
        (((picked c.sel rs).take ((i + 1) * n)).drop (i * n)).flatMap ByteRecord.write) := by
    intro i fs fs' hi' h
    obtain ⟨s, hs, hp, -⟩ := C99_file z _ _ _ _ _ _ _ h
    rw [if_pos rfl, if_neg (by simp [he])] at hp
    rw [Nat.succ_mul] at hi' ⊢
    rw [hp, (C34_length_partial ({ c with start := i * n, «end» := 0, length := n }) rfl hn hi' files hv rs hi s hs).1,
      sliced_take ({ c with start := i * n, «end» := 0, length := n }) hl]
  induction k generalizing fs' with
  | zero =>
    rw [pages, List.range_succ, List.range_zero, List.nil_append, List.map_singleton, SliceCmd.saveAll] at h
    obtain ⟨fs1, h1, h2⟩ := Option.bind_eq_some_iff.1 h
    rw [SliceCmd.saveAll, Option.some.injEq] at h2
    subst h2
    have := one 0 fs fs1 hk h1
    rwa [Nat.zero_mul, List.drop_zero] at this
  | succ k ih =>
    rw [pages, List.range_succ, List.map_append, saveAll_append] at h
    obtain ⟨fs1, h1, h2⟩ := Option.bind_eq_some_iff.1 h
    have e1 := ih (Nat.lt_of_le_of_lt (Nat.mul_le_mul_right n (Nat.le_succ _)) hk) fs1 h1
    rw [List.map_singleton, SliceCmd.saveAll] at h2
    obtain ⟨fs2, h4, h3⟩ := Option.bind_eq_some_iff.1 h2
    clear h h2
    rw [SliceCmd.saveAll, Option.some.injEq] at h3
    subst h3
    rw [one (k + 1) fs1 fs2 hk h4, e1, Option.getD_some, List.append_assoc, ← List.flatMap_append]
    congr 4
    generalize picked c.sel rs = l
    have hle : (k + 1) * n ≤ (k + 1 + 1) * n := Nat.mul_le_mul_right n (Nat.le_succ _)
    have e : l.take ((k + 1) * n) = (l.take ((k + 1 + 1) * n)).take ((k + 1) * n) := by
      rw [List.take_take, Nat.min_eq_left hle]
    rw [e, List.take_append_drop]

/-- **C99** the runs succeed if invalid lines are skipped or absent and neither lists nor matcher panic. -/
theorem C99_finishes (z : Gzip) (c : SliceCmd) (path : Bytes) (files : List (String × Bytes)) (rs : List ByteRecord)
    (hi : Input files rs) (hc : c.skip = true ∨ AllValid files) (hp : ∀ r ∈ rs, NoPanic c.sel r.record)
    (ranges : List (Nat × Nat × Nat)) (hr : AllValid files ∨ ∀ x ∈ ranges, x.2.2 = 0) (fs : FileMap) :
    ∃ fs', c.saveAll z path files ranges fs = some fs' := by
  induction ranges generalizing fs with
  | nil => exact ⟨fs, rfl⟩
  | cons x ranges ih =>
    obtain ⟨a, b, l⟩ := x
    obtain ⟨s, hs⟩ := C34_finishes ({ c with start := a, «end» := b, length := l }) files rs hi
      (hr.elim (fun h => .inr (.inr h)) (fun h => .inl (h (a, b, l) (by simp)))) hc hp
    have hw : WCommand.slice.writer false true = .writer ⟨true, false⟩ := by decide
    obtain ⟨fs', h⟩ := ih (hr.imp id (fun h x hx => h x (by simp [hx]))) ((⟨true, false⟩ : WBuilder).dataFile z path s.out fs)
    refine ⟨fs', ?_⟩
    rw [SliceCmd.saveAll, SliceCmd.save, hw, hs]
    exact h

/-- **C99, negative part** with `--skip-invalid` the pages overlap: after an invalid line, a record is in two
pages. -/
theorem C99_pages_false : ∃ (z : Gzip) (c : SliceCmd) (path : Bytes) (files : List (String × Bytes)), c.skip = true ∧
    (c.saveAll z path files (pages 1 2) (fun _ => none)).map (· path) =
      some (some (recLine "1" ++ recLine "2" ++ recLine "2" ++ recLine "3")) :=
  ⟨toyGzip, sliceSample true 0 0 0, bs "o.dat", [("a", bs "x" ++ [LF] ++ recLine "1" ++ recLine "2" ++ recLine "3")], rfl,
    by decide +kernel⟩

/-- **C99, negative part** a first cut at 0: `--end 0` is no end, so the records are written twice. -/
theorem C99_zero_false : ∃ (z : Gzip) (c : SliceCmd) (path : Bytes) (files : List (String × Bytes)),
    (c.saveAll z path files (between 0 [0, 1]) (fun _ => none)).map (· path) =
      some (some (recLine "1" ++ recLine "2" ++ recLine "1")) ∧ lastCut 0 [0, 1] = 1 :=
  ⟨toyGzip, sliceSample true 0 0 0, bs "o.dat", [("a", recLine "1" ++ recLine "2")], by decide +kernel, rfl⟩

/-! ## examples -/

example : Growing 0 [1, 1, 3] ∧ lastCut 0 [1, 1, 3] = 3 ∧ ¬ Growing 0 [2, 1] := by simp [Growing, lastCut]

example : ((sliceSample true 0 0 0).saveAll toyGzip (bs "o.dat") [("a", recLine "1" ++ recLine "2" ++ recLine "3")]
    (between 0 [1, 1, 3]) (fun _ => none)).map (· (bs "o.dat")) = some (some (recLine "1" ++ recLine "2" ++ recLine "3")) := by
  decide +kernel

example : ((sliceSample true 0 0 0).saveAll toyGzip (bs "o.dat") [("a", recLine "1" ++ recLine "2" ++ recLine "3")]
    [(1, 2, 0), (2, 0, 0)] (fun _ => none)).map (· (bs "o.dat")) = some (some (recLine "2" ++ recLine "3")) := by
  decide +kernel

example : ((sliceSample false 0 0 0).saveAll toyGzip (bs "o.dat") [("a", recLine "1" ++ recLine "2" ++ recLine "3")]
    (pages 2 2) (fun _ => none)).map (· (bs "o.dat")) = some (some (recLine "1" ++ recLine "2" ++ recLine "3")) := by
  decide +kernel

example : pages 2 2 = [(0, 0, 2), (2, 0, 2)] := by decide

example := C99_cuts_partial toyGzip (sliceSample true 0 0 0) rfl (bs "o.dat") (by decide +kernel)
  [("a", recLine "1" ++ bs "x" ++ [LF] ++ recLine "2" ++ recLine "3")] _ (input_of _) 0 [1, 1, 3] (by simp [Growing]) (by simp)
  (fun _ => none)

end Pica.Props
