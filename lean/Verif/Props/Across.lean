import Verif.Props.Pipeline
import Verif.Props.Frequency
import Verif.Props.Select
import Verif.Props.Describe
import Verif.Props.Count
import Verif.Props.Print
import Verif.Props.Slice

/-! C67: what different commands report about the same input is consistent. -/

namespace Pica.Props

open Pica Spec

/-- a frequency table written out: each row as often as it says -/
def expanded {α : Type} (table : List (α × Nat)) : List α := table.flatMap (fun x => List.replicate x.2 x.1)

theorem count_expanded {α : Type} [BEq α] [LawfulBEq α] (table : List (α × Nat)) (hk : (table.map Prod.fst).Nodup)
    (row : α) : (∀ n, (row, n) ∈ table → (expanded table).count row = n) ∧
      (row ∉ table.map Prod.fst → (expanded table).count row = 0) := by
  induction table with
  | nil => simp [expanded]
  | cons x table ih =>
    rw [List.map_cons, List.nodup_cons] at hk
    obtain ⟨ih1, ih2⟩ := ih hk.2
    unfold expanded at ih1 ih2 ⊢
    rw [List.flatMap_cons, List.count_append]
    constructor
    · intro n hn
      rcases List.mem_cons.1 hn with h | h
      · subst h
        rw [List.count_replicate_self, ih2 hk.1]
        omega
      · have hne : x.1 ≠ row := by
          intro e
          exact hk.1 (by rw [e]; exact List.mem_map.2 ⟨_, h, rfl⟩)
        rw [ih1 n h, List.count_replicate, if_neg (by simpa using hne)]
        omega
    · intro hn
      rw [List.map_cons, List.mem_cons, not_or] at hn
      rw [ih2 hn.2, List.count_replicate, if_neg (by simpa using fun e => hn.1 e.symm)]

theorem listing_keys {unique reverse results full} (h : Listing unique reverse results full) :
    (full.map Prod.fst).Nodup := by
  unfold List.Nodup
  rw [List.pairwise_map]
  refine h.ordered.imp_of_mem ?_
  intro a b ha hb hab e
  have h1 := ((h.exact a.1 a.2).1 ha).2.2
  have h2 := ((h.exact b.1 b.2).1 hb).2.2
  rw [← e, ← h1] at h2
  rcases hab with hab | hab
  · split at hab <;> omega
  · exact hab.2.1 e

theorem listing_expanded {reverse results full} (h : Listing false reverse results full) :
    (wantedRows false results.flatten).Perm (expanded full) := by
  rw [List.perm_iff_count]
  intro row
  obtain ⟨h1, h2⟩ := count_expanded full (listing_keys h) row
  have hw : Wanted false row ↔ Useful row := by simp [Wanted, Useful]
  by_cases hu : Useful row
  · have hc : (wantedRows false results.flatten).count row = occurrences false results row := by
      unfold wantedRows occurrences
      rw [if_neg (by simp), List.count_filter (by simpa using hw.2 hu), List.count_eq_countP, List.countP_eq_length_filter]
      refine congrArg List.length (List.filter_congr ?_)
      intro x _
      rw [Bool.eq_iff_iff]
      simp
    rw [hc]
    by_cases h0 : occurrences false results row = 0
    · rw [h0, h2]
      intro hm
      obtain ⟨⟨a, n⟩, hm', rfl⟩ := List.mem_map.1 hm
      have := (h.exact a n).1 hm'
      dsimp only at h0
      omega
    · rw [h1 _ ((h.exact row _).2 ⟨hu, by omega, rfl⟩)]
  · rw [h2 (by
      intro hm
      obtain ⟨⟨a, n⟩, hm', rfl⟩ := List.mem_map.1 hm
      exact hu ((h.exact a n).1 hm').1)]
    rw [List.count_eq_zero]
    intro hm
    unfold wantedRows at hm
    exact hu (hw.1 (by simpa using (List.mem_filter.1 hm).2))

/-- **C67** with the same query, options and selection, the table of `frequency` is the
table of the rows that `select` writes: written out it is a permutation of them. -/
theorem C67_frequency_select (c : SelectCmd) (d : FreqCmd) (hiter : ∀ t, (d.iter t).Perm t)
    (hq : d.query = c.query) (hE : d.E = c.E) (ho : d.qo = c.qo) (hs : d.sel = c.sel) (hl : d.limit = c.limit)
    (ht : d.text = c.text) (hu : c.unique = false) (hn : c.noEmptyColumns = false) (hdu : d.unique = false)
    (hdn : d.num = 0) (hdt : d.threshold ≤ 1) (files : List (String × Bytes)) (rs : List ByteRecord)
    (hi : Input files rs) (s : SelectState) (h : c.run files = .ok s) (out : List (Row × Nat))
    (h' : d.run files = .ok out) : s.out.Perm (expanded out) := by
  obtain ⟨results, h1, h2⟩ := C46_rows c hu files rs hi s h
  obtain ⟨results', full, h3, h4, h5⟩ := freq_run d hiter files rs hi out h'
  have he : results' = results := by
    unfold Results at h3
    unfold SelResults at h1
    rw [hq, hE, ho, hs, hl] at h3
    clear h2 h4
    revert h3 h1
    generalize limited c.limit (picked c.sel rs) = xs
    intro h1 h3
    induction h1 generalizing results' with
    | nil => cases h3; rfl
    | cons ha _ ih =>
      cases h3 with
      | cons hb ht =>
        rw [ha] at hb
        injection hb with hb
        rw [ih _ ht, hb]
  subst he
  rw [hdu] at h4
  have hall : (limited d.num full).takeWhile (fun x => decide (d.threshold ≤ x.2)) = full := by
    rw [hdn, limited, if_pos rfl]
    refine takeWhile_eq_self ?_
    intro x hx
    have := ((h4.exact x.1 x.2).1 hx).2.1
    simp only [decide_eq_true_eq]
    omega
  rw [h2, h5, hall, hn, ht]
  have e : expanded (full.map (fun x => (x.1.map c.text, x.2))) = (expanded full).map (·.map c.text) := by
    unfold expanded
    rw [List.flatMap_map, List.map_flatMap]
    simp
  rw [e]
  exact (listing_expanded h4).map _

/-- **C67** hence the frequencies add up to the number of rows that `select` writes. -/
theorem C67_frequency_sum (c : SelectCmd) (d : FreqCmd) (hiter : ∀ t, (d.iter t).Perm t)
    (hq : d.query = c.query) (hE : d.E = c.E) (ho : d.qo = c.qo) (hs : d.sel = c.sel) (hl : d.limit = c.limit)
    (ht : d.text = c.text) (hu : c.unique = false) (hn : c.noEmptyColumns = false) (hdu : d.unique = false)
    (hdn : d.num = 0) (hdt : d.threshold ≤ 1) (files : List (String × Bytes)) (rs : List ByteRecord)
    (hi : Input files rs) (s : SelectState) (h : c.run files = .ok s) (out : List (Row × Nat))
    (h' : d.run files = .ok out) : (out.map Prod.snd).sum = s.out.length := by
  rw [(C67_frequency_select c d hiter hq hE ho hs hl ht hu hn hdu hdn hdt files rs hi s h out h').length_eq]
  unfold expanded
  rw [List.length_flatMap]
  refine congrArg List.sum (List.map_congr_left ?_)
  intro x _
  exact (List.length_replicate ..).symm

example : (selectSample false false toyHash).map (·.run [("a", selectLine "y" ++ selectLine "z" ++ selectLine "y")]) =
      some (.ok ⟨[[bs "x", bs "y"], [bs "x", []], [bs "x", bs "z"], [bs "x", []], [bs "x", bs "y"], [bs "x", []]], [], 3⟩) ∧
    (selectSample false false toyHash).map (fun c =>
      { skip := true, unique := false, reverse := true, num := 0, threshold := 1, limit := 0, query := c.query, E := c.E,
        qo := c.qo, iter := List.reverse, text := id, sel := c.sel : FreqCmd }.run
          [("a", selectLine "y" ++ selectLine "z" ++ selectLine "y")]) =
      some (.ok [([bs "x", bs "z"], 1), ([bs "x", bs "y"], 2), ([bs "x", []], 3)]) := by
  refine ⟨?_, ?_⟩ <;> decide +kernel

/-- every element is counted under its key -/
theorem sum_countP_keys {α κ : Type} [BEq κ] [LawfulBEq κ] (key : α → κ) (ks : List κ) (hk : ks.Nodup) (l : List α)
    (h : ∀ x ∈ l, key x ∈ ks) : (ks.map (fun k => l.countP (fun x => key x == k))).sum = l.length := by
  induction l with
  | nil => induction ks with
    | nil => rfl
    | cons k ks ih =>
      rw [List.map_cons, List.sum_cons, ih (List.nodup_cons.1 hk).2 (by simp)]
      rfl
  | cons x l ih =>
    have e : (ks.map (fun k => (x :: l).countP (fun x => key x == k))).sum =
        (ks.map (fun k => l.countP (fun x => key x == k))).sum + ks.count (key x) := by
      clear ih h hk
      induction ks with
      | nil => rfl
      | cons k ks ih =>
        rw [List.map_cons, List.sum_cons, List.map_cons, List.sum_cons, ih, List.countP_cons, List.count_cons]
        by_cases hx : key x = k
        · subst hx
          simp only [beq_self_eq_true, if_true]
          omega
        · rw [if_neg (by simpa using hx), if_neg (by simpa using fun e => hx e.symm)]
          omega
    rw [e, ih (fun y hy => h y (List.mem_cons_of_mem _ hy)), List.length_cons,
      List.count_eq_one_of_mem hk (h x (List.mem_cons_self ..))]

/-- the cells of a table add up to the number of subfields -/
theorem describes_sum {fs : List Field} {d : Description} (h : Describes fs d) :
    ((d.rows.map (fun x => x.2.sum)).sum) = (fs.map (fun f => f.subfields.length)).sum := by
  have hcodes : d.codes.Nodup := by
    refine h.codesSorted.imp ?_
    intro a b hab e
    subst e
    simp at hab
  have htags : (d.rows.map Prod.fst).Nodup := by
    unfold List.Nodup
    rw [List.pairwise_map]
    exact h.tagsSorted.imp (fun hab => hab.2)
  have h1 : d.rows.map (fun x => x.2.sum) =
      (d.rows.map Prod.fst).map (fun t => ((fs.filter (fun f => f.tag == t)).flatMap Field.subfields).length) := by
    rw [List.map_map]
    refine List.map_congr_left ?_
    intro x hx
    rw [h.cells x hx]
    refine (sum_countP_keys (fun s : Subfield => s.code) d.codes hcodes _ ?_).trans rfl
    intro s hs
    obtain ⟨f, hf, hs⟩ := List.mem_flatMap.1 hs
    exact (h.codes s.code).2 ⟨f, (List.mem_filter.1 hf).1, s, hs, rfl⟩
  rw [h1]
  -- each subfield together with the tag of its field
  have h2 := sum_countP_keys (fun x : Bytes × Subfield => x.1) (d.rows.map Prod.fst) htags
    (fs.flatMap (fun f => f.subfields.map (fun s => (f.tag, s)))) (by
      intro x hx
      obtain ⟨f, hf, hx⟩ := List.mem_flatMap.1 hx
      obtain ⟨s, _, rfl⟩ := List.mem_map.1 hx
      exact (h.tags f.tag).2 ⟨f, hf, rfl⟩)
  rw [List.length_flatMap] at h2
  simp only [List.length_map] at h2
  rw [← h2]
  refine congrArg List.sum (List.map_congr_left ?_)
  intro t _
  clear h h1 h2 hcodes htags
  induction fs with
  | nil => rfl
  | cons f fs ih =>
    rw [List.filter_cons, List.flatMap_cons, List.countP_append, List.countP_map]
    by_cases hf : f.tag = t
    · rw [if_pos (by simpa using hf), List.flatMap_cons, List.length_append, ih]
      congr 1
      symm
      rw [List.countP_eq_length]
      intro s _
      simpa using hf
    · rw [if_neg (by simpa using hf), ih]
      have : List.countP ((fun x : Bytes × Subfield => x.fst == t) ∘ fun s => (f.tag, s)) f.subfields = 0 := by
        rw [List.countP_eq_zero]
        intro s _
        simpa using hf
      rw [this, Nat.zero_add]

/-- **C67** the cells of the table of `describe` add up to the number of subfields that
`count` reports. -/
theorem C67_describe_count (c : DescribeCmd) (hiter : ∀ t, (c.iter t).Perm t) (hl : c.limit = 0)
    (hd : c.discard = []) (hk : c.keep = []) (k : CountCmd) (hs : k.sel = c.sel) (files : List (String × Bytes))
    (rs : List ByteRecord) (hi : Input files rs) (d : Description) (h : c.run files = .ok d) (s : CountState)
    (h' : k.loop files = .ok s) : (d.rows.map (fun x => x.2.sum)).sum = s.subfields := by
  rw [describes_sum (C50_table c hiter files rs hi d h), (C37_exact k files rs hi s h').2.2, hs, hl, hd, hk]
  unfold limited
  rw [if_pos rfl]
  generalize picked c.sel rs = xs
  induction xs with
  | nil => rfl
  | cons x xs ih =>
    rw [List.flatMap_cons, List.map_append, List.sum_append, ih, List.map_cons, List.sum_cons, reduced_nil]

example : describeSample.run [("a", sampleBytes ++ recLine "1")] =
      .ok ⟨[0x30, 0x61, 0x62], [(bs "003@", [2, 0, 0]), (bs "012A", [0, 1, 1])]⟩ ∧
    (countSample .plain).loop [("a", sampleBytes ++ recLine "1")] = .ok ⟨2, 3, 4⟩ := by
  refine ⟨?_, ?_⟩ <;> decide +kernel

/-- **C67** `hash` writes as many rows as `count` reports records. -/
theorem C67_hash_count (c : HashCmd) (hl : c.limit = 0) (k : CountCmd) (hs : k.sel = c.sel)
    (files : List (String × Bytes)) (rs : List ByteRecord) (hi : Input files rs) (t : HashState)
    (h : c.run files = .ok t) (s : CountState) (h' : k.loop files = .ok s) : t.out.length = s.records := by
  rw [C52_rows c files rs hi t h, (C37_exact k files rs hi s h').1, hs, hl, List.length_map]
  rfl

example : { hashSample with limit := 0 }.run [("a", sampleBytes ++ recLine "1")] =
      .ok ⟨[(bs "123456789X", bs "3030"), (bs "1", bs "3030")], 2⟩ ∧
    (countSample .plain).loop [("a", sampleBytes ++ recLine "1")] = .ok ⟨2, 3, 4⟩ := by
  refine ⟨?_, ?_⟩ <;> decide +kernel

theorem slice_window {c : SliceCmd} (he : 0 < c.end) (hl : c.length = 0) (hm : c.limit = 0)
    {files rs} (hi : Input files rs) {s : SliceState} (h : c.run files = .ok s) :
    s.out = (((picked c.sel rs).take c.end).drop c.start).flatMap ByteRecord.write := by
  rw [C34_end c he hl files rs hi s h, sliced, range_from, hm]
  rfl

/-- **C67** adjacent slices: what `--start a --end b` and `--start b --end e` write is,
one after the other, what `--start a --end e` writes. -/
theorem C67_slice_adjacent (c d e : SliceCmd) (hd : d.sel = c.sel) (he : e.sel = c.sel)
    (hb : c.end = d.start) (ha : e.start = c.start) (hz : e.end = d.end)
    (h0 : 0 < c.end) (h1 : c.start ≤ c.end) (h2 : c.end ≤ d.end)
    (hcl : c.length = 0) (hdl : d.length = 0) (hel : e.length = 0)
    (hcm : c.limit = 0) (hdm : d.limit = 0) (hem : e.limit = 0)
    (files : List (String × Bytes)) (rs : List ByteRecord) (hi : Input files rs)
    (s t u : SliceState) (hs : c.run files = .ok s) (ht : d.run files = .ok t) (hu : e.run files = .ok u) :
    s.out ++ t.out = u.out := by
  rw [slice_window h0 hcl hcm hi hs, slice_window (by omega) hdl hdm hi ht, slice_window (by omega) hel hem hi hu,
    ← List.flatMap_append, hd, he, ha, hz, ← hb]
  congr 1
  rw [List.drop_take, List.drop_take, List.drop_take]
  have e1 : d.end - c.start = (c.end - c.start) + (d.end - c.end) := by omega
  have e2 : List.drop c.end (picked c.sel rs) = List.drop (c.end - c.start) (List.drop c.start (picked c.sel rs)) := by
    rw [List.drop_drop]
    congr 1
    omega
  rw [e1, e2, List.take_add]

/-- **C67** a head and the rest: what `--end b` and `--start b` write is, one after the
other, the selected input. -/
theorem C67_slice_rest (c d : SliceCmd) (hd : d.sel = c.sel) (hb : c.end = d.start) (h0 : 0 < c.end)
    (hc0 : c.start = 0) (hd0 : d.end = 0) (hcl : c.length = 0) (hdl : d.length = 0) (hcm : c.limit = 0) (hdm : d.limit = 0)
    (files : List (String × Bytes)) (rs : List ByteRecord) (hi : Input files rs)
    (hsize : (picked c.sel rs).length < 2 ^ 64)
    (s t : SliceState) (hs : c.run files = .ok s) (ht : d.run files = .ok t) :
    s.out ++ t.out = (picked c.sel rs).flatMap ByteRecord.write := by
  rw [slice_window h0 hcl hcm hi hs, C34_start d hd0 hdl files rs hi (by rw [hd]; exact hsize) t ht, hdm, hd, hc0, ← hb,
    ← List.flatMap_append, limited, if_pos rfl, List.drop_zero, List.take_append_drop]

/-- **C67** slicing twice: the records at the positions `a' ≤ i < b'` of the records at the
positions `a ≤ i < b` are those at the positions `a + a' ≤ i < min b (a + b')`. -/
theorem C67_slice_slice (c d e : SliceCmd) (hd : ∀ r, Picked c.sel r → Picked d.sel r) (he : e.sel = c.sel)
    (ha : e.start = c.start + d.start) (hz : e.end = min c.end (c.start + d.end))
    (h0 : 0 < c.end) (h1 : 0 < d.end)
    (hcl : c.length = 0) (hdl : d.length = 0) (hel : e.length = 0)
    (hcm : c.limit = 0) (hdm : d.limit = 0) (hem : e.limit = 0)
    (files : List (String × Bytes)) (rs : List ByteRecord) (hi : Input files rs) (name : String)
    (s t u : SliceState) (hs : c.run files = .ok s) (ht : d.run [(name, s.out)] = .ok t) (hu : e.run files = .ok u) :
    t.out = u.out := by
  have hout := slice_window h0 hcl hcm hi hs
  have hmem : ∀ r ∈ ((picked c.sel rs).take c.end).drop c.start, r ∈ picked c.sel rs :=
    fun r hr => List.mem_of_mem_take (List.mem_of_mem_drop hr)
  have hi2 := input_of_records (fun _ => name) [((picked c.sel rs).take c.end).drop c.start] 0 (by
    intro l hl r hr
    simp only [List.mem_singleton] at hl
    subst hl
    exact input_lineRecord hi r (List.mem_filter.1 (hmem r hr)).1)
  simp only [List.zipIdx_cons, List.zipIdx_nil, List.map_cons, List.map_nil, List.flatten_cons, List.flatten_nil,
    List.append_nil] at hi2
  rw [← hout] at hi2
  rw [slice_window h1 hdl hdm hi2 ht, slice_window (by omega) hel hem hi hu, he, ha, hz]
  have hp : picked d.sel (((picked c.sel rs).take c.end).drop c.start) = ((picked c.sel rs).take c.end).drop c.start := by
    conv_lhs => unfold picked
    refine List.filter_eq_self.2 ?_
    intro r hr
    have h2 := (List.mem_filter.1 (hmem r hr)).2
    simp only [decide_eq_true_eq] at h2 ⊢
    exact hd _ h2
  rw [hp]
  congr 1
  rw [List.take_drop, List.drop_drop, List.take_take, Nat.min_comm]

/-- what a run has written -/
def sliceOut : LoopResult SliceState → Bytes
  | .ok s => s.out
  | _ => []

/-- five records -/
def fiveLines : Bytes := recLine "1" ++ recLine "2" ++ recLine "3" ++ recLine "4" ++ recLine "5"

example : sliceOut ((sliceSample true 1 3 0).run [("a", fiveLines)]) = recLine "2" ++ recLine "3" ∧
    sliceOut ((sliceSample true 3 4 0).run [("a", fiveLines)]) = recLine "4" ∧
    sliceOut ((sliceSample true 1 4 0).run [("a", fiveLines)]) = recLine "2" ++ recLine "3" ++ recLine "4" ∧
    sliceOut ((sliceSample true 0 3 0).run [("a", fiveLines)]) = recLine "1" ++ recLine "2" ++ recLine "3" ∧
    sliceOut ((sliceSample true 3 0 0).run [("a", fiveLines)]) = recLine "4" ++ recLine "5" ∧
    sliceOut ((sliceSample true 1 5 0).run [("b", recLine "2" ++ recLine "3" ++ recLine "4")]) = recLine "3" ++ recLine "4" ∧
    sliceOut ((sliceSample true 2 4 0).run [("a", fiveLines)]) = recLine "3" ++ recLine "4" := by decide +kernel

/-- **C67** filtering twice with the same expression and limit is filtering once. -/
theorem C67_filter_twice (c : FilterCmd) (hd : c.discard = []) (hk : c.keep = []) (files : List (String × Bytes))
    (rs : List ByteRecord) (name : String) (hi : Input files rs) (s t : FilterOut) (n k : Nat)
    (h : c.run files = .ok (s, n)) (h' : c.run [(name, s.out)] = .ok (t, k)) : t.out = s.out := by
  classical
  rw [C64_filter_filter c c files rs name hi s t n k h h', filter_delivered c files rs hi s n h]
  congr 1
  unfold delivered
  rw [hd, hk, show reduced [] [] = id from funext reduced_nil, List.map_id, List.map_id]
  have hpass : ∀ r ∈ limited c.limit ((rs.map (·.record)).filter (fun r => decide (Passes c r))), Passes c r ∧ r ≠ [] := by
    intro r hr
    obtain ⟨h1, h2⟩ := List.mem_filter.1 (mem_limited' hr)
    obtain ⟨x, hx, rfl⟩ := List.mem_map.1 h1
    obtain ⟨b, hb⟩ := input_fromBytes hi x hx
    exact ⟨by simpa using h2, (Record.fromBytes_eq_some.1 (ByteRecord.fromBytes_eq_some.1 hb).1).1⟩
  have e1 : (limited c.limit ((rs.map (·.record)).filter (fun r => decide (Passes c r)))).filter (fun r => !r.isEmpty) =
      limited c.limit ((rs.map (·.record)).filter (fun r => decide (Passes c r))) :=
    List.filter_eq_self.2 (fun r hr => by simpa using (hpass r hr).2)
  rw [e1, List.filter_eq_self.2 (fun r hr => by simpa using (hpass r hr).1)]
  unfold limited
  split
  · rfl
  · rw [List.take_take, Nat.min_self]

example : (do
    let c ← pipeSample "003@{0 =^ '1'}"
    let a := outOf ({ c with limit := 1 }.run [("a", recLine "2" ++ recLine "1" ++ recLine "10")])
    some (a, outOf ({ c with limit := 1 }.run [("b", a)]))) = some (recLine "1", recLine "1") := by decide +kernel

end Pica.Props
