import Verif.Model.Sample
import Verif.Props.Split

/-! # C35: sample -/

namespace Pica.Props
open Pica Spec

/-- the random numbers are in the range that was asked for -/
def InRange (draw : Nat → Nat) : Prop := ∀ c, 0 < c → draw c < c

/-- the records that may be drawn: the selected ones, up to the limit -/
noncomputable def drawable (c : SampleCmd) (rs : List ByteRecord) : List ByteRecord :=
  limited c.limit (picked c.sel rs)

/-- the positions in the reservoir after `n` records -/
def reservoir (size : Nat) (draw : Nat → Nat) : Nat → List Nat
  | 0 => []
  | n + 1 =>
    if n < size then reservoir size draw n ++ [n]
    else if draw n < size then (reservoir size draw n).set (draw n) n
    else reservoir size draw n

theorem mem_set_cases {α : Type} {l : List α} {i : Nat} {a x : α} (h : x ∈ l.set i a) : x = a ∨ x ∈ l := by
  rcases List.mem_or_eq_of_mem_set h with h | h
  · exact .inr h
  · exact .inl h

theorem nodup_set {l : List Nat} {i a : Nat} (h : l.Nodup) (ha : a ∉ l) : (l.set i a).Nodup := by
  induction l generalizing i with
  | nil => simp
  | cons b l ih =>
    rw [List.nodup_cons] at h
    simp only [List.mem_cons, not_or] at ha
    cases i with
    | zero => rw [List.set_cons_zero, List.nodup_cons]; exact ⟨ha.2, h.2⟩
    | succ i =>
      rw [List.set_cons_succ, List.nodup_cons]
      refine ⟨?_, ih h.2 ha.2⟩
      intro hb
      rcases mem_set_cases hb with rfl | hb
      · exact ha.1 rfl
      · exact h.1 hb

/-- the positions are distinct, and there are `min size n` -/
theorem reservoir_props (size : Nat) (draw : Nat → Nat) (n : Nat) :
    (reservoir size draw n).Nodup ∧ (reservoir size draw n).length = min size n ∧
    ∀ p ∈ reservoir size draw n, p < n := by
  induction n with
  | zero => simp [reservoir]
  | succ n ih =>
    obtain ⟨h1, h2, h3⟩ := ih
    have hn : n ∉ reservoir size draw n := fun h => absurd (h3 n h) (Nat.lt_irrefl n)
    rw [reservoir]
    split
    · refine ⟨?_, by rw [List.length_append, h2]; simp; omega, ?_⟩
      · rw [List.nodup_append]
        refine ⟨h1, by simp, ?_⟩
        intro a ha b hb
        rw [List.mem_singleton] at hb
        subst hb
        exact fun he => hn (he ▸ ha)
      · intro p hp
        rcases List.mem_append.1 hp with hp | hp
        · exact Nat.lt_succ_of_lt (h3 p hp)
        · rw [List.mem_singleton] at hp; omega
    · split
      · refine ⟨nodup_set h1 hn, by rw [List.length_set, h2]; omega, ?_⟩
        intro p hp
        rcases mem_set_cases hp with rfl | hp
        · exact Nat.lt_succ_self _
        · exact Nat.lt_succ_of_lt (h3 p hp)
      · exact ⟨h1, by rw [h2]; omega, fun p hp => Nat.lt_succ_of_lt (h3 p hp)⟩

/-- the bytes of the records at the given positions -/
def bytesAt (rs : List ByteRecord) (ps : List Nat) : List Bytes :=
  ps.map (fun p => match rs[p]? with | some r => r.write | none => [])

theorem bytesAt_append {rs rs' : List ByteRecord} {ps : List Nat} (h : ∀ p ∈ ps, p < rs.length) :
    bytesAt (rs ++ rs') ps = bytesAt rs ps := by
  refine List.map_congr_left (fun p hp => ?_)
  rw [List.getElem?_append_left (h p hp)]

theorem sample_fold (c : SampleCmd) (rs : List ByteRecord) : ∀ (done : List ByteRecord),
    rs.foldl c.step ⟨bytesAt done (reservoir c.size c.draw done.length), done.length⟩ =
      ⟨bytesAt (done ++ rs) (reservoir c.size c.draw (done ++ rs).length), (done ++ rs).length⟩ := by
  induction rs with
  | nil => intro done; simp
  | cons r rs ih =>
    intro done
    have e : done ++ r :: rs = (done ++ [r]) ++ rs := by simp
    rw [List.foldl_cons, e, ← ih (done ++ [r])]
    congr 1
    have hlt := (reservoir_props c.size c.draw done.length).2.2
    have hlen : (done ++ [r]).length = done.length + 1 := by simp
    have hlast : bytesAt (done ++ [r]) [done.length] = [r.write] := by simp [bytesAt]
    rw [hlen, SampleCmd.step]
    dsimp only
    rw [reservoir]
    by_cases h1 : done.length < c.size
    · rw [if_pos h1, if_pos h1]
      rw [show ∀ a b, bytesAt (done ++ [r]) (a ++ b) = bytesAt (done ++ [r]) a ++ bytesAt (done ++ [r]) b
        from fun a b => by simp [bytesAt], hlast, bytesAt_append hlt]
    · rw [if_neg h1, if_neg h1]
      by_cases h2 : c.draw done.length < c.size
      · rw [if_pos h2, if_pos h2]
        have : bytesAt (done ++ [r]) ((reservoir c.size c.draw done.length).set (c.draw done.length) done.length) =
            (bytesAt (done ++ [r]) (reservoir c.size c.draw done.length)).set (c.draw done.length) r.write := by
          unfold bytesAt
          rw [List.map_set]
          simp
        rw [this, bytesAt_append hlt]
      · rw [if_neg h2, if_neg h2, bytesAt_append hlt]

theorem sample_step_count (c : SampleCmd) (s : SampleState) (r) : (c.step s r).count = s.count + 1 := by
  unfold SampleCmd.step
  dsimp only
  split
  · rfl
  · split <;> rfl

theorem output_lines {l : List ByteRecord} (h : ∀ r ∈ l, LineRecord r) :
    SampleCmd.output (l.map ByteRecord.write) = some (l.flatMap ByteRecord.write) := by
  induction l with
  | nil => rfl
  | cons r l ih =>
    obtain ⟨t, _, hb, hw⟩ := h r (by simp)
    rw [List.map_cons, SampleCmd.output, hw, hb]
    dsimp only
    rw [ih (fun r hr => h r (by simp [hr]))]
    rfl

theorem bytesAt_eq {rs : List ByteRecord} {ps : List Nat} (h : ∀ p ∈ ps, p < rs.length) :
    ∃ l : List ByteRecord, All2 (fun p r => rs[p]? = some r) ps l ∧ bytesAt rs ps = l.map ByteRecord.write := by
  induction ps with
  | nil => exact ⟨[], .nil, rfl⟩
  | cons p ps ih =>
    obtain ⟨l, h1, h2⟩ := ih (fun p hp => h p (by simp [hp]))
    have hp := h p (by simp)
    refine ⟨rs[p] :: l, .cons (by simp [hp]) h1, ?_⟩
    rw [List.map_cons, ← h2]
    simp [bytesAt, hp]

/-- **C35** the output is that of the reservoir of positions. -/
theorem C35_positions (c : SampleCmd) (files : List (String × Bytes)) (rs : List ByteRecord)
    (hi : Input files rs) (out : Bytes) (h : c.run files = .ok out) :
    ∃ l, All2 (fun p r => (drawable c rs)[p]? = some r)
        (reservoir c.size c.draw (drawable c rs).length) l ∧
      out = l.flatMap ByteRecord.write := by
  unfold SampleCmd.run at h
  cases hl : c.loop files with
  | err e s => rw [hl] at h; simp at h
  | panic => rw [hl] at h; simp at h
  | ok s =>
    have hs := selLimitC_ok (cnt := SampleState.count) (g := c.step) (sample_step_count c) hi rfl hl
    rw [chosen_eq_picked] at hs
    have hf := sample_fold c (drawable c rs) []
    rw [List.nil_append] at hf
    have hs' : s = ⟨bytesAt (drawable c rs) (reservoir c.size c.draw (drawable c rs).length), (drawable c rs).length⟩ := by
      rw [hs]; exact hf
    obtain ⟨l, h1, h2⟩ := bytesAt_eq (reservoir_props c.size c.draw (drawable c rs).length).2.2
    refine ⟨l, h1, ?_⟩
    rw [hl] at h
    dsimp only at h
    rw [hs'] at h
    dsimp only at h
    rw [h2, output_lines] at h
    · simp only [LoopResult.ok.injEq] at h; exact h.symm
    · intro r hr
      obtain ⟨p, _, hp⟩ := h1.mem_right r hr
      have hm : r ∈ drawable c rs := List.mem_of_getElem? hp
      exact input_lineRecord hi r (List.mem_filter.1 (mem_limited hm)).1

/-- **C35** the output consists of `min k n` records from distinct positions of
the input, for every stream of random numbers.
Missing: that every record can be drawn, and that all samples are equally likely
(both false, see below). -/
theorem C35_distinct_partial (c : SampleCmd) (files : List (String × Bytes)) (rs : List ByteRecord)
    (hi : Input files rs) (out : Bytes) (h : c.run files = .ok out) :
    ∃ (ps : List Nat) (l : List ByteRecord), ps.Nodup ∧ ps.length = min c.size (drawable c rs).length ∧
      All2 (fun p r => (drawable c rs)[p]? = some r) ps l ∧ out = l.flatMap ByteRecord.write := by
  obtain ⟨l, h1, h2⟩ := C35_positions c files rs hi out h
  obtain ⟨h3, h4, _⟩ := reservoir_props c.size c.draw (drawable c rs).length
  exact ⟨_, l, h3, h4, h1, h2⟩

/-- **C35** the command finishes when the invalid lines are skipped or absent and
neither lists nor matcher panic; in particular the final `unwrap` does not. -/
theorem C35_finishes (c : SampleCmd) (files : List (String × Bytes)) (rs : List ByteRecord)
    (hi : Input files rs) (hc : c.skip = true ∨ AllValid files)
    (hp : ∀ r ∈ rs, NoPanic c.sel r.record) : ∃ out, c.run files = .ok out := by
  obtain ⟨s, hs⟩ := selLimitC_clean (cnt := SampleState.count) (g := c.step) (limit := c.limit)
    (sample_step_count c) hi hc (fun r hr => test_total (hp r hr)) ⟨[], 0⟩ rfl
  have hs' := selLimitC_ok (cnt := SampleState.count) (g := c.step) (sample_step_count c) hi rfl hs
  rw [chosen_eq_picked] at hs'
  have hf := sample_fold c (drawable c rs) []
  rw [List.nil_append] at hf
  have e : s.reservoir = bytesAt (drawable c rs) (reservoir c.size c.draw (drawable c rs).length) := by
    rw [hs']; exact congrArg SampleState.reservoir hf
  obtain ⟨l, h1, h2⟩ := bytesAt_eq (reservoir_props c.size c.draw (drawable c rs).length).2.2
  unfold SampleCmd.run SampleCmd.loop
  rw [hs]
  dsimp only
  rw [e, h2, output_lines]
  · exact ⟨_, rfl⟩
  · intro r hr
    obtain ⟨p, _, hp⟩ := h1.mem_right r hr
    have hm : r ∈ drawable c rs := List.mem_of_getElem? hp
    exact input_lineRecord hi r (List.mem_filter.1 (mem_limited hm)).1

/-- **C35** for sample sizes from 2 on, every record can be drawn. -/
theorem C35_every_record_partial (size : Nat) (hs : 2 ≤ size) (n p : Nat) (hp : p < n) :
    ∃ draw, InRange draw ∧ p ∈ reservoir size draw n := by
  refine ⟨fun c => if c < 2 then 0 else if p < size then (if p = 0 then 1 else 0) else if c = p then 0 else 1,
    ?_, ?_⟩
  · intro c hc
    dsimp only
    split
    · exact hc
    · split
      · split <;> omega
      · split <;> omega
  · by_cases h : p < size
    · -- position `p` is filled by record `p` and never replaced
      have key : ∀ n, p < n → ∀ draw : Nat → Nat, (∀ c, size ≤ c → draw c ≠ p) →
          (reservoir size draw n)[p]? = some p := by
        intro n
        induction n with
        | zero => intro h; omega
        | succ n ih =>
          intro hpn draw hd
          have hlen := (reservoir_props size draw n).2.1
          rw [reservoir]
          by_cases hn : p = n
          · subst hn
            rw [if_pos h, List.getElem?_append_right (by rw [hlen]; omega), hlen]
            simp [Nat.min_eq_right (Nat.le_of_lt h)]
          · have ih := ih (by omega) draw hd
            split
            · rw [List.getElem?_append_left (by rw [hlen]; omega)]; exact ih
            · rename_i hns
              split
              · rw [List.getElem?_set_ne (hd n (by omega))]; exact ih
              · exact ih
      refine List.mem_of_getElem? (key n hp _ ?_)
      intro c hc
      rw [if_neg (by omega), if_pos h]
      split <;> omega
    · -- record `p` replaces position 0, which is not replaced later
      have key : ∀ n, p < n → ∀ draw : Nat → Nat, draw p = 0 → (∀ c, p < c → draw c = 1) →
          (reservoir size draw n)[0]? = some p := by
        intro n
        induction n with
        | zero => intro h; omega
        | succ n ih =>
          intro hpn draw h0 h1
          have hlen := (reservoir_props size draw n).2.1
          rw [reservoir]
          by_cases hn : p = n
          · subst hn
            rw [if_neg h, h0, if_pos (by omega), List.getElem?_set_self (by rw [hlen]; omega)]
          · have ih := ih (by omega) draw h0 h1
            rw [if_neg (by omega), h1 n (by omega), if_pos (by omega), List.getElem?_set_ne (by omega)]
            exact ih
      refine List.mem_of_getElem? (key n hp _ ?_ ?_)
      · rw [if_neg (by omega), if_neg h, if_pos rfl]
      · intro c hc
        rw [if_neg (by omega), if_neg h, if_neg (by omega)]

/-- **C35** is false: with sample size 1 and at least two records, the first
record is never drawn. -/
theorem C35_first_never_false (draw : Nat → Nat) (hd : InRange draw) (n : Nat) (hn : 2 ≤ n) :
    0 ∉ reservoir 1 draw n := by
  induction n with
  | zero => omega
  | succ n ih =>
    intro hm
    rw [reservoir, if_neg (by omega)] at hm
    by_cases h1 : n = 1
    · subst h1
      have h0 : draw 1 = 0 := by have := hd 1 (by omega); omega
      rw [h0] at hm
      simp [reservoir] at hm
    · have ih := ih (by omega)
      split at hm
      · rcases mem_set_cases hm with h | h
        · omega
        · exact ih h
      · exact ih hm

/-- **C35** is false: with one record more than the sample size, the last record
is always drawn, so the samples are not equally likely. -/
theorem C35_uniform_false (draw : Nat → Nat) (hd : InRange draw) (size : Nat) (hs : 0 < size) :
    size ∈ reservoir size draw (size + 1) := by
  rw [reservoir, if_neg (by omega), if_pos (hd size hs)]
  have hlen := (reservoir_props size draw size).2.1
  refine List.mem_of_getElem? (i := draw size) ?_
  rw [List.getElem?_set_self (by rw [hlen]; have := hd size hs; omega)]

/-- **C35** as bytes: `sample 1` of two records always writes the second. -/
theorem C35_two_records_false (c : SampleCmd) (hs : c.size = 1) (hd : InRange c.draw)
    (files : List (String × Bytes)) (rs : List ByteRecord) (hi : Input files rs) (a b : ByteRecord)
    (hab : drawable c rs = [a, b]) (out : Bytes) (h : c.run files = .ok out) : out = b.write := by
  obtain ⟨l, h1, h2⟩ := C35_positions c files rs hi out h
  have h0 : c.draw 1 = 0 := by have := hd 1 (by omega); omega
  have e : reservoir c.size c.draw (drawable c rs).length = [1] := by
    rw [hab, hs]; simp [reservoir, h0]
  rw [e, hab] at h1
  cases h1 with
  | cons hr ht =>
    cases ht
    simp only [List.getElem?_cons_succ, List.getElem?_cons_zero, Option.some.injEq] at hr
    rw [h2, ← hr]; simp

def sampleSample (size : Nat) (draw : Nat → Nat) : SampleCmd := ⟨true, size, 0, draw, noSelection⟩

example : InRange (fun c => c - 1) := fun c h => by dsimp only; omega
example : (sampleSample 2 (fun c => c - 2)).run
    [("a", recLine "1" ++ recLine "2" ++ bs "x" ++ [LF]), ("b", recLine "3" ++ recLine "4")] =
    .ok (recLine "3" ++ recLine "4") := by decide +kernel
example : (sampleSample 3 (fun c => c - 1)).run [("a", recLine "1" ++ recLine "2")] =
    .ok (recLine "1" ++ recLine "2") := by decide +kernel
example : (sampleSample 1 (fun c => c - 1)).run [("a", recLine "1" ++ recLine "2" ++ recLine "3")] =
    .ok (recLine "2") := by decide +kernel
example : (sampleSample 1 (fun _ => 0)).run [("a", recLine "1" ++ recLine "2" ++ recLine "3")] =
    .ok (recLine "3") := by decide +kernel

/-! ## the theorems on concrete files -/

/-- four records and an invalid line -/
def sampleFiles : List (String × Bytes) :=
  [("a", recLine "1" ++ recLine "2" ++ bs "x" ++ [LF]), ("b", recLine "3" ++ recLine "4")]

example := C35_positions (sampleSample 2 (fun c => c - 2)) sampleFiles _ (input_of _) (recLine "3" ++ recLine "4")
  (by decide +kernel)
example := C35_distinct_partial (sampleSample 2 (fun c => c - 2)) sampleFiles _ (input_of _)
  (recLine "3" ++ recLine "4") (by decide +kernel)
example := C35_finishes (sampleSample 2 (fun c => c - 2)) sampleFiles _ (input_of _) (.inl rfl)
  (noPanic_of (by decide +kernel))
example := C35_every_record_partial 2 (by decide) 7 4 (by decide)
example := C35_first_never_false (fun c => c - 1) (fun c h => by dsimp only; omega) 5 (by decide)
example := C35_uniform_false (fun c => c - 1) (fun c h => by dsimp only; omega) 3 (by decide)
example := C35_two_records_false (sampleSample 1 (fun c => c - 1)) rfl (fun c h => by dsimp only [sampleSample]; omega)
  [("a", recLine "1" ++ recLine "2")] _ (input_of _) (recOf "1") (recOf "2")
  (by unfold drawable; rw [← chosen_eq_picked]; decide +kernel) (recLine "2") (by decide +kernel)

end Pica.Props
