import Verif.Model.Slice
import Verif.Props.Split

/-! # C34: slice -/

namespace Pica.Props
open Pica Spec

/-- the selected records at the positions `start ≤ i < stop`, at most `limit` -/
noncomputable def sliced (c : SliceCmd) (stop : Nat) (rs : List ByteRecord) : List ByteRecord :=
  limited c.limit (((picked c.sel rs).zipIdx.filter
    (fun x => decide (c.start ≤ x.2 ∧ x.2 < stop))).map Prod.fst)

theorem range_from {α : Type} (a b : Nat) (l : List α) : ∀ i,
    ((l.zipIdx i).filter (fun x => decide (a ≤ x.2 ∧ x.2 < b))).map Prod.fst =
      (l.take (b - i)).drop (a - i) := by
  induction l with
  | nil => intro i; simp
  | cons x l ih =>
    intro i
    rw [List.zipIdx_cons, List.filter_cons]
    by_cases h2 : i < b
    · have e2 : b - i = (b - (i + 1)) + 1 := by omega
      by_cases h1 : a ≤ i
      · have e1 : a - i = 0 := by omega
        have e1' : a - (i + 1) = 0 := by omega
        rw [if_pos (by simp [h1, h2]), List.map_cons, ih, e1, e2, e1', List.take_succ_cons]
        simp
      · have e1 : a - i = (a - (i + 1)) + 1 := by omega
        rw [if_neg (by simp [h1]), ih, e1, e2, List.take_succ_cons, List.drop_succ_cons]
    · have e2 : b - i = 0 := by omega
      have e2' : b - (i + 1) = 0 := by omega
      rw [if_neg (by simp [h2]), ih, e2, e2']; simp

theorem slice_run (c : SliceCmd) : ∀ (rs : List ByteRecord) (s : SliceState),
    c.limit = 0 ∨ s.count < c.limit →
    ∃ s', runSteps c.act rs s = some s' ∧
      s'.out = s.out ++ (let l := (rs.take (s.rangeEnd - s.i)).drop (c.start - s.i)
        if c.limit = 0 then l else l.take (c.limit - s.count)).flatMap ByteRecord.write := by
  intro rs
  induction rs with
  | nil => intro s _; exact ⟨s, rfl, by simp⟩
  | cons r rs ih =>
    intro s hc
    rw [runSteps, SliceCmd.act]
    by_cases h1 : c.start ≤ s.i ∧ s.i < s.rangeEnd
    · have hb : (decide (c.start ≤ s.i) && decide (s.i < s.rangeEnd)) = true := by simpa using h1
      have e2 : s.rangeEnd - s.i = (s.rangeEnd - (s.i + 1)) + 1 := by omega
      have e1 : c.start - s.i = 0 := by omega
      have e1' : c.start - (s.i + 1) = 0 := by omega
      rw [if_pos hb]
      dsimp only
      by_cases h2 : c.limit > 0 ∧ s.count + 1 ≥ c.limit
      · rw [if_pos (by simpa using h2)]
        refine ⟨_, rfl, ?_⟩
        have e3 : c.limit - s.count = 1 := by omega
        have e4 : ¬ c.limit = 0 := by omega
        rw [e2, e1, if_neg e4, e3]
        simp
      · rw [if_neg (by simpa using h2)]
        dsimp only
        obtain ⟨s', h3, h4⟩ := ih { rangeEnd := s.rangeEnd, i := s.i + 1, count := s.count + 1, out := s.out ++ r.write }
          (by simp only; omega)
        refine ⟨s', h3, ?_⟩
        rw [h4]
        dsimp only
        rw [e2, e1, e1', List.take_succ_cons, List.drop_zero, List.drop_zero]
        by_cases h5 : c.limit = 0
        · rw [if_pos h5, if_pos h5]; simp
        · have e3 : c.limit - s.count = (c.limit - (s.count + 1)) + 1 := by omega
          rw [if_neg h5, if_neg h5, e3, List.take_succ_cons]; simp
    · have hb : ¬ (decide (c.start ≤ s.i) && decide (s.i < s.rangeEnd)) = true := by simpa using h1
      rw [if_neg hb]
      by_cases h2 : s.i < c.start
      · rw [if_pos h2]
        dsimp only
        obtain ⟨s', h3, h4⟩ := ih { s with i := s.i + 1 } hc
        refine ⟨s', h3, ?_⟩
        rw [h4]
        dsimp only
        have e1 : c.start - s.i = (c.start - (s.i + 1)) + 1 := by omega
        have e : ((r :: rs).take (s.rangeEnd - s.i)).drop (c.start - s.i) =
            (rs.take (s.rangeEnd - (s.i + 1))).drop (c.start - (s.i + 1)) := by
          rw [e1]
          by_cases h5 : s.i < s.rangeEnd
          · have e2 : s.rangeEnd - s.i = (s.rangeEnd - (s.i + 1)) + 1 := by omega
            rw [e2, List.take_succ_cons, List.drop_succ_cons]
          · have e2 : s.rangeEnd - s.i = 0 := by omega
            have e2' : s.rangeEnd - (s.i + 1) = 0 := by omega
            rw [e2, e2']; simp
        rw [e]
      · rw [if_neg h2]
        refine ⟨s, rfl, ?_⟩
        have e2 : s.rangeEnd - s.i = 0 := by omega
        rw [e2]; simp

/-- no skipped error can move the end of the range -/
def NoShift (c : SliceCmd) (files : List (String × Bytes)) : Prop :=
  c.length = 0 ∨ c.skip = false ∨ AllValid files

theorem slice_noShift {c : SliceCmd} {files} (h : NoShift c files) :
    c.run files = filesLoop c.skip id (selBody c.sel.test c.act) files ⟨c.rangeEnd, 0, 0, []⟩ := by
  unfold SliceCmd.run
  rcases h with h | h
  · have : c.onSkip = id := by funext s; simp [SliceCmd.onSkip, h]
    rw [this]
  · exact filesLoop_onSkip h _

theorem slice_out {c : SliceCmd} {files rs} (hi : Input files rs) (hs : NoShift c files)
    {s : SliceState} (h : c.run files = .ok s) :
    s.out = (sliced c c.rangeEnd rs).flatMap ByteRecord.write := by
  rw [slice_noShift hs] at h
  have h1 := runSteps_sel (filesLoop_ok hi h)
  rw [chosen_eq_picked] at h1
  obtain ⟨s', h2, h3⟩ := slice_run c (picked c.sel rs) ⟨c.rangeEnd, 0, 0, []⟩
    (by simp only; omega)
  rw [h2] at h1
  cases h1
  rw [h3]
  simp only [sliced, range_from, limited, List.nil_append, Nat.sub_zero]

/-- **C34** `--start s --end e` writes exactly the selected records at the
positions `s ≤ i < e` (with a limit: the first of them). -/
theorem C34_end (c : SliceCmd) (he : 0 < c.end) (hl : c.length = 0)
    (files : List (String × Bytes)) (rs : List ByteRecord) (hi : Input files rs)
    (s : SliceState) (h : c.run files = .ok s) :
    s.out = (sliced c c.end rs).flatMap ByteRecord.write := by
  rw [slice_out hi (.inl hl) h, SliceCmd.rangeEnd, if_pos he]

/-- **C34** `--start s` alone writes all selected records from position `s` on. -/
theorem C34_start (c : SliceCmd) (he : c.end = 0) (hl : c.length = 0)
    (files : List (String × Bytes)) (rs : List ByteRecord) (hi : Input files rs)
    (hsize : (picked c.sel rs).length < 2 ^ 64)
    (s : SliceState) (h : c.run files = .ok s) :
    s.out = (limited c.limit ((picked c.sel rs).drop c.start)).flatMap ByteRecord.write := by
  rw [slice_out hi (.inl hl) h, SliceCmd.rangeEnd, if_neg (by omega), if_neg (by omega), sliced, range_from,
    Nat.sub_zero, Nat.sub_zero, List.take_of_length_le (by omega)]

/-- **C34** `--start s --length l` writes the selected records at the positions
`s ≤ i < s + l`, hence at most `l` records, when no invalid line is skipped.
Missing: skipped invalid lines and sums beyond 64 bits (see below). -/
theorem C34_length_partial (c : SliceCmd) (he : c.end = 0) (hl : 0 < c.length)
    (hw : c.start + c.length < 2 ^ 64)
    (files : List (String × Bytes)) (hs : c.skip = false ∨ AllValid files)
    (rs : List ByteRecord) (hi : Input files rs)
    (s : SliceState) (h : c.run files = .ok s) :
    s.out = (sliced c (c.start + c.length) rs).flatMap ByteRecord.write ∧
    (sliced c (c.start + c.length) rs).length ≤ c.length := by
  constructor
  · rw [slice_out hi (.inr hs) h, SliceCmd.rangeEnd, if_neg (by omega), if_pos hl, Nat.mod_eq_of_lt hw]
  · rw [sliced, range_from, limited]
    split <;> simp <;> omega

/-- **C34** with skipped lines, `--length l` writes at most `l` records more than
there are invalid lines.
Missing: the bound `l` itself, which is false (see below). -/
theorem C34_length_skip_partial (c : SliceCmd) (he : c.end = 0) (hl : 0 < c.length)
    (files : List (String × Bytes)) (rs : List ByteRecord) (hi : Input files rs) (n : Nat)
    (hn : InvalidCount files n) (s : SliceState) (h : c.run files = .ok s) :
    ∃ ws : List ByteRecord, ws.Sublist (picked c.sel rs) ∧ s.out = ws.flatMap ByteRecord.write ∧ ws.length ≤ c.length + n := by
  unfold SliceCmd.run at h
  let P : Nat → List ByteRecord → SliceState → Prop := fun k done s =>
    ∃ ws : List ByteRecord, ws.Sublist (chosen c.sel.test done) ∧ s.out = ws.flatMap ByteRecord.write ∧
      s.rangeEnd ≤ c.start + c.length + k ∧ ws.length ≤ c.length + k ∧
      (ws.length = 0 ∨ c.start + ws.length ≤ s.i)
  let Q : Nat → List ByteRecord → SliceState → Prop := fun k done s =>
    ∃ ws : List ByteRecord, ws.Sublist (chosen c.sel.test done) ∧ s.out = ws.flatMap ByteRecord.write ∧
      ws.length ≤ c.length + k
  have hskip : ∀ k rs s, P k rs s → P (k + 1) rs (c.onSkip s) := by
    rintro k rs s ⟨ws, h1, h2, h3, h4, h5⟩
    refine ⟨ws, h1, ?_⟩
    unfold SliceCmd.onSkip
    split
    · exact ⟨h2, by simp only; omega, by omega, h5⟩
    · exact ⟨h2, by omega, by omega, h5⟩
  have hchosen : ∀ (rs : List ByteRecord) r, chosen c.sel.test (rs ++ [r]) =
      chosen c.sel.test rs ++ (if c.sel.test r = some true then [r] else []) := by
    intro rs r
    rw [chosen, List.filter_append]
    congr 1
    by_cases ht : c.sel.test r = some true <;> simp [ht]
  have hstep : ∀ k rs s r, P k rs s →
      (∀ s', selBody c.sel.test c.act s r = .next s' → P k (rs ++ [r]) s') ∧
      (∀ s', selBody c.sel.test c.act s r = .stop s' → Q k (rs ++ [r]) s') := by
    rintro k rs s r ⟨ws, h1, h2, h3, h4, h5⟩
    unfold selBody
    cases ht : c.sel.test r with
    | none => exact ⟨fun s' hb => by simp at hb, fun s' hb => by simp at hb⟩
    | some b =>
      cases b with
      | false =>
        refine ⟨fun s' hb => ?_, fun s' hb => by simp at hb⟩
        simp only [Step.next.injEq] at hb
        subst hb
        refine ⟨ws, ?_, h2, h3, h4, h5⟩
        rw [hchosen, ht]; simpa using h1
      | true =>
        dsimp only
        have hsub : ws.Sublist (chosen c.sel.test (rs ++ [r])) := by
          rw [hchosen]; exact h1.trans (List.sublist_append_left _ _)
        have hsub' : (ws ++ [r]).Sublist (chosen c.sel.test (rs ++ [r])) := by
          rw [hchosen, if_pos ht]; exact h1.append (List.Sublist.refl _)
        unfold SliceCmd.act
        by_cases hin : c.start ≤ s.i ∧ s.i < s.rangeEnd
        · rw [if_pos (by simpa using hin)]
          have hlen : ws.length + 1 ≤ c.length + k := by omega
          dsimp only
          split
          · refine ⟨fun s' hb => by simp at hb, fun s' hb => ?_⟩
            simp only [Step.stop.injEq] at hb
            subst hb
            exact ⟨ws ++ [r], hsub', by simp [h2], by simp; omega⟩
          · refine ⟨fun s' hb => ?_, fun s' hb => by simp at hb⟩
            simp only [Step.next.injEq] at hb
            subst hb
            exact ⟨ws ++ [r], hsub', by simp [h2], h3, by simp; omega, .inr (by simp; omega)⟩
        · rw [if_neg (by simpa using hin)]
          split
          · refine ⟨fun s' hb => ?_, fun s' hb => by simp at hb⟩
            simp only [Step.next.injEq] at hb
            subst hb
            exact ⟨ws, hsub, h2, h3, h4, by simp only; omega⟩
          · refine ⟨fun s' hb => by simp at hb, fun s' hb => ?_⟩
            simp only [Step.stop.injEq] at hb
            subst hb
            exact ⟨ws, hsub, h2, h4⟩
  have h0 : P 0 [] ⟨c.rangeEnd, 0, 0, []⟩ := by
    refine ⟨[], by simp, rfl, ?_, by simp, .inl rfl⟩
    simp only [SliceCmd.rangeEnd]
    rw [if_neg (by omega), if_pos hl]
    have := Nat.mod_le (c.start + c.length) (2 ^ 64)
    omega
  obtain ⟨k, rs', hk, hp, ws, h1, h2, h4⟩ := filesLoop_inv P Q hskip
    (fun k rs s r s' hP => (hstep k rs s r hP).1 s')
    (fun k rs s r s' hP => (hstep k rs s r hP).2 s')
    (fun k rs s ⟨ws, h1, h2, _, h4, _⟩ => ⟨ws, h1, h2, h4⟩) hi hn 0 [] _ _ h0 h
  refine ⟨ws, ?_, h2, by omega⟩
  rw [List.nil_append] at h1
  rw [← chosen_eq_picked]
  exact h1.trans (hp.sublist.filter _)

/-- **C34** the command finishes when the invalid lines are skipped or absent and
neither lists nor matcher panic. -/
theorem C34_finishes (c : SliceCmd) (files : List (String × Bytes)) (rs : List ByteRecord)
    (hi : Input files rs) (hs : NoShift c files) (hc : c.skip = true ∨ AllValid files)
    (hp : ∀ r ∈ rs, NoPanic c.sel r.record) : ∃ s, c.run files = .ok s := by
  rw [slice_noShift hs, filesLoop_clean hi hc, runSteps_sel_total (fun r hr => test_total (hp r hr))]
  obtain ⟨s', h2, _⟩ := slice_run c (chosen c.sel.test rs) ⟨c.rangeEnd, 0, 0, []⟩ (by simp only; omega)
  rw [h2]; exact ⟨s', rfl⟩

/-- options of the examples: start, end, length -/
def sliceSample (skip : Bool) (a b l : Nat) : SliceCmd := ⟨skip, a, b, l, 0, noSelection⟩

/-- **C34** is false: `--length 1 --skip-invalid` writes two records when an
invalid line comes first. -/
theorem C34_length_false : ∃ files s, (sliceSample true 0 0 1).run files = .ok s ∧
    s.out = recLine "1" ++ recLine "2" :=
  ⟨[("a", bs "x" ++ [LF] ++ recLine "1" ++ recLine "2" ++ recLine "3")],
    ⟨2, 2, 2, recLine "1" ++ recLine "2"⟩, by decide +kernel, rfl⟩

/-- **C34** is false when start and length exceed 64 bits: nothing is written. -/
theorem C34_wrap_false : ∃ files s, (sliceSample true 2 0 (2 ^ 64 - 1)).run files = .ok s ∧
    s.out = [] ∧ ∃ rs, Input files rs ∧ sliced (sliceSample true 2 0 (2 ^ 64 - 1)) (2 + (2 ^ 64 - 1)) rs ≠ [] := by
  refine ⟨[("a", recLine "1" ++ recLine "2" ++ recLine "3")], ⟨1, 2, 0, []⟩, by decide +kernel, rfl, ?_⟩
  have hl : ∀ x : String, x ∈ ["1", "2", "3"] → LineRecord (recOf x) := by
    intro x hx
    refine ⟨(recLine x).dropLast, ?_, ?_, ?_⟩ <;>
    · simp only [List.mem_cons, List.not_mem_nil, or_false] at hx
      rcases hx with rfl | rfl | rfl <;> decide +kernel
  have hi := input_of_records (fun _ => "a") [[recOf "1", recOf "2", recOf "3"]] 0 (by
    intro c hc r hr
    simp only [List.mem_singleton] at hc
    subst hc
    simp only [List.mem_cons, List.not_mem_nil, or_false] at hr
    rcases hr with rfl | rfl | rfl <;> exact hl _ (by simp))
  have e : ([[recOf "1", recOf "2", recOf "3"]].zipIdx.map
      (fun x => ("a", x.1.flatMap ByteRecord.write))) = [("a", recLine "1" ++ recLine "2" ++ recLine "3")] := by
    decide +kernel
  rw [e] at hi
  refine ⟨_, hi, ?_⟩
  have hp : picked noSelection [[recOf "1", recOf "2", recOf "3"]].flatten = [recOf "1", recOf "2", recOf "3"] := by
    rw [← chosen_eq_picked]; decide +kernel
  unfold sliced
  rw [range_from]
  change limited 0 (List.drop 2 (List.take _ (picked noSelection _))) ≠ []
  rw [hp]
  simp [limited]

example : (sliceSample true 1 3 0).run [("a", recLine "1" ++ bs "x" ++ [LF] ++ recLine "2"), ("b", recLine "3" ++ recLine "4")]
    = .ok ⟨3, 3, 2, recLine "2" ++ recLine "3"⟩ := by decide +kernel
example : (sliceSample false 1 0 1).run [("a", recLine "1" ++ recLine "2" ++ recLine "3")]
    = .ok ⟨2, 2, 1, recLine "2"⟩ := by decide +kernel
example : (sliceSample false 1 0 0).run [("a", recLine "1" ++ recLine "2" ++ recLine "3")]
    = .ok ⟨2 ^ 64 - 1, 3, 2, recLine "2" ++ recLine "3"⟩ := by decide +kernel

/-! ## the theorems on concrete files -/

example := C34_end (sliceSample true 1 3 0) (by decide) rfl
  [("a", recLine "1" ++ bs "x" ++ [LF] ++ recLine "2"), ("b", recLine "3" ++ recLine "4")] _ (input_of _)
  ⟨3, 3, 2, recLine "2" ++ recLine "3"⟩ (by decide +kernel)
example := C34_start (sliceSample false 1 0 0) rfl rfl [("a", recLine "1" ++ recLine "2" ++ recLine "3")] _
  (input_of _) (Nat.lt_of_le_of_lt (List.length_filter_le _ _) (by decide +kernel))
  ⟨2 ^ 64 - 1, 3, 2, recLine "2" ++ recLine "3"⟩ (by decide +kernel)
example := C34_length_partial (sliceSample false 1 0 1) rfl (by decide) (by decide)
  [("a", recLine "1" ++ recLine "2" ++ recLine "3")] (.inl rfl) _ (input_of _) ⟨2, 2, 1, recLine "2"⟩ (by decide +kernel)
example := C34_finishes (sliceSample false 1 0 1) [("a", recLine "1" ++ recLine "2" ++ recLine "3")] _ (input_of _)
  (.inr (.inr (allValid_of (by decide +kernel)))) (.inr (allValid_of (by decide +kernel))) (noPanic_of (by decide +kernel))

end Pica.Props
