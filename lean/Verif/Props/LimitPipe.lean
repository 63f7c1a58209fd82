import Verif.Props.Limit
import Verif.Props.Pipeline
import Verif.Props.Slice

/-! # C98: a limit is the same as slicing the output -/

namespace Pica.Props
open Pica Spec

theorem delivered_limit (c : FilterCmd) {n : Nat} (hn : 0 < n) (rs : List Record) :
    delivered { c with limit := n } rs = (delivered { c with limit := 0 } rs).take n := by
  classical
  unfold delivered
  rw [← List.map_take]
  have e : n ≠ 0 := by omega
  simp only [limited, e, if_true, if_false]
  rfl

/-- `slice --end n` of records that have been written -/
theorem slice_written {l : List Record} (hl : ∀ r ∈ l, r ≠ [] → LineRecord (asRead r)) (hne : ∀ r ∈ l, r ≠ [])
    {n : Nat} (hn : 0 < n) (skip : Bool) {sel : Selection} (hsel : ∀ r, sel.test r = some true) (name : String) :
    ∃ u, (⟨skip, 0, n, 0, 0, sel⟩ : SliceCmd).run [(name, l.flatMap Record.write)] = .ok u ∧
      u.out = (l.take n).flatMap Record.write := by
  classical
  obtain ⟨hi', hv⟩ := written_input name l hl
  rw [List.filter_eq_self.2 (fun r hr => by simpa using hne r hr)] at hi'
  obtain ⟨u, hu⟩ : ∃ u, (⟨skip, 0, n, 0, 0, sel⟩ : SliceCmd).run [(name, l.flatMap Record.write)] = .ok u := by
    rw [slice_noShift (.inl rfl), filesLoop_clean hi' (.inr hv), runSteps_sel_total (fun r _ => ⟨true, hsel r⟩)]
    obtain ⟨u, hu, -⟩ := slice_run (⟨skip, 0, n, 0, 0, sel⟩ : SliceCmd) (chosen sel.test (l.map asRead))
      ⟨SliceCmd.rangeEnd ⟨skip, 0, n, 0, 0, sel⟩, 0, 0, []⟩ (by simp)
    exact ⟨u, by rw [hu]⟩
  have hp : ∀ rs : List ByteRecord, picked sel rs = rs := by
    intro rs
    rw [← chosen_eq_picked]
    exact List.filter_eq_self.2 (fun r _ => by rw [hsel]; rfl)
  refine ⟨u, hu, ?_⟩
  rw [C34_end (⟨skip, 0, n, 0, 0, sel⟩ : SliceCmd) hn rfl _ _ hi' u hu, sliced, range_from, limited, if_pos rfl, hp]
  simp only [Nat.sub_zero, List.drop_zero]
  rw [← List.map_take, List.flatMap_map]
  rfl

/-- **C98** `filter --limit n` writes what `filter | slice --end n` writes, if no record loses all its fields; and
if `filter` succeeds without the limit, both succeed. -/
theorem C98_sliced_partial (c : FilterCmd) (n : Nat) (hn : 0 < n) (files : List (String × Bytes)) (rs : List ByteRecord)
    (hi : Input files rs) (s : FilterOut) (k : Nat) (h : ({ c with limit := 0 } : FilterCmd).run files = .ok (s, k))
    (hne : ∀ r ∈ rs, reduced c.discard c.keep r.record ≠ []) (skip : Bool) (sel : Selection)
    (hsel : ∀ r, sel.test r = some true) (name : String) :
    ∃ t m u, ({ c with limit := n } : FilterCmd).run files = .ok (t, m) ∧
      (⟨skip, 0, n, 0, 0, sel⟩ : SliceCmd).run [(name, s.out)] = .ok u ∧ u.out = t.out := by
  classical
  obtain ⟨t, m, ht⟩ : ∃ t m, ({ c with limit := n } : FilterCmd).run files = .ok (t, m) := by
    rcases C98_filter c n 0 (.inl rfl) files with e | ⟨t, ht, -⟩
    · exact ⟨s, k, by rw [e, h]⟩
    · exact ⟨t.1, t.2, ht⟩
  have h1 := filter_delivered _ files rs hi s k h
  have h2 := filter_delivered _ files rs hi t m ht
  have hl := delivered_lines { c with limit := 0 } rs (input_lineRecord hi)
  have hne' : ∀ r ∈ delivered { c with limit := 0 } (rs.map (·.record)), r ≠ [] := by
    intro r hr
    unfold delivered at hr
    obtain ⟨x, hx, rfl⟩ := List.mem_map.1 hr
    obtain ⟨y, hy, rfl⟩ := List.mem_map.1 (List.mem_filter.1 (mem_limited' hx)).1
    exact hne y hy
  rw [delivered_limit c hn] at h2
  obtain ⟨u, hu, ho⟩ := slice_written hl hne' hn skip hsel name
  rw [← h1] at hu
  exact ⟨t, m, u, ht, hu, by rw [ho, h2]⟩

/-- **C98** `explode --limit n` writes what `explode | slice --end n` writes, if no part loses all its fields. -/
theorem C98_sliced_explode_partial (c : ExplodeCmd) (n : Nat) (hn : 0 < n) (files : List (String × Bytes))
    (rs : List ByteRecord) (hi : Input files rs) (out : Bytes) (k : Nat)
    (h : ({ c with limit := 0 } : ExplodeCmd).run files = .ok (out, k))
    (hne : ∀ r ∈ rs.flatMap (exploded c.level), reduced c.discard c.keep r.record ≠ []) (skip : Bool) (sel : Selection)
    (hsel : ∀ r, sel.test r = some true) (name : String) :
    ∃ out' m u, ({ c with limit := n } : ExplodeCmd).run files = .ok (out', m) ∧
      (⟨skip, 0, n, 0, 0, sel⟩ : SliceCmd).run [(name, out)] = .ok u ∧ u.out = out' := by
  classical
  obtain ⟨out', m, ht⟩ : ∃ t m, ({ c with limit := n } : ExplodeCmd).run files = .ok (t, m) := by
    rcases C98_explode c n 0 (.inl rfl) files with e | ⟨t, ht, -⟩
    · exact ⟨out, k, by rw [e, h]⟩
    · exact ⟨t.1, t.2, ht⟩
  have h1 := (C30_output _ files rs hi out k h).1
  have h2 := (C30_output _ files rs hi out' m ht).1
  simp only [limited, if_true, show n ≠ 0 by omega, if_false] at h1 h2
  have hl : ∀ r ∈ (picked c.sel (rs.flatMap (exploded c.level))).map (fun r => reduced c.discard c.keep r.record),
      r ≠ [] → LineRecord (asRead r) := by
    intro r hr hr'
    obtain ⟨x, hx, rfl⟩ := List.mem_map.1 hr
    obtain ⟨y, hy, hxy⟩ := List.mem_flatMap.1 (List.mem_filter.1 hx).1
    obtain ⟨b, hb⟩ := input_fromBytes hi y hy
    obtain ⟨xs, he, hsub⟩ := mem_explode_main (ByteRecord.fromBytes_eq_some.1 hb).1 c.level
    rw [exploded, he, Option.getD_some] at hxy
    obtain ⟨z, hz, rfl⟩ := List.mem_map.1 hxy
    exact asRead_line (input_lineRecord hi y hy) (fun f hf => (hsub z hz).2 f (reduced_sub _ _ _ f hf)) hr'
  have hne' : ∀ r ∈ (picked c.sel (rs.flatMap (exploded c.level))).map (fun r => reduced c.discard c.keep r.record),
      r ≠ [] := by
    intro r hr
    obtain ⟨x, hx, rfl⟩ := List.mem_map.1 hr
    exact hne x (List.mem_filter.1 hx).1
  obtain ⟨u, hu, ho⟩ := slice_written hl hne' hn skip hsel name
  rw [List.flatMap_map, ← h1] at hu
  exact ⟨out', m, u, ht, hu, by rw [ho, h2, ← List.map_take, List.flatMap_map]⟩

/-- a filter for the records with `003@`, without this field -/
def dropSample (limit : Nat) : FilterCmd := { appendFilter limit false with discard := pred003 }

/-- **C98** otherwise this is false: a record without a field left counts for the limit, but is not written, so
that the slice has the next one. -/
theorem C98_sliced_false :
    let other := bs "012A " ++ [0x1F] ++ bs "lx" ++ [0x1E, 0x0A]
    (dropSample 1).run [("a", recLine "1" ++ linkLine "2" "x")] = .ok (⟨[], none⟩, 1) ∧
    (dropSample 0).run [("a", recLine "1" ++ linkLine "2" "x")] = .ok (⟨other, none⟩, 2) ∧
    (sliceSample false 0 1 0).run [("b", other)] = .ok ⟨1, 1, 1, other⟩ := by decide +kernel

/-- two records; the limit and the slice leave the first -/
example : (appendFilter 0 false).run [("a", recLine "1" ++ recLine "2")] = .ok (⟨recLine "1" ++ recLine "2", none⟩, 2) ∧
    (appendFilter 1 false).run [("a", recLine "1" ++ recLine "2")] = .ok (⟨recLine "1", none⟩, 1) ∧
    (sliceSample false 0 1 0).run [("b", recLine "1" ++ recLine "2")] = .ok ⟨1, 1, 1, recLine "1"⟩ := by decide +kernel

theorem twoRecords_left : ∀ r ∈ inputOf [("a", recLine "1" ++ recLine "2")], reduced [] [] r.record ≠ [] := by
  intro r hr
  rw [reduced_nil]
  revert r
  decide +kernel

/-- all hypotheses are met -/
example (skip : Bool) (name : String) := C98_sliced_partial (appendFilter 0 false) 1 (by decide)
  [("a", recLine "1" ++ recLine "2")] _ (input_of _) ⟨recLine "1" ++ recLine "2", none⟩ 2 (by decide +kernel)
  twoRecords_left skip noSelection (fun r => (picked_iff noSelection r).2 (noSelection_all r.record)) name

/-- a record with two local parts; the limit leaves the first -/
def partSample (limit : Nat) : ExplodeCmd := ⟨false, .local, limit, noSelection, [], []⟩

theorem partSample_left : ∀ r ∈ (inputOf [("a", explodeSample.write)]).flatMap (exploded .local), reduced [] [] r.record ≠ [] := by
  intro r hr
  rw [reduced_nil]
  revert r
  decide +kernel

example : ∃ o1 o2, (partSample 0).run [("a", explodeSample.write)] = .ok (o1 ++ o2, 2) ∧
    (partSample 1).run [("a", explodeSample.write)] = .ok (o1, 1) ∧ o2 ≠ [] := by
  refine ⟨Record.write (explodeSample.take 5), Record.write (explodeSample.take 1 ++ explodeSample.drop 5), ?_⟩
  decide +kernel

example (skip : Bool) (name : String) := C98_sliced_explode_partial (partSample 0) 1 (by decide)
  [("a", explodeSample.write)] _ (input_of _) (Record.write (explodeSample.take 5) ++ Record.write (explodeSample.take 1 ++ explodeSample.drop 5))
  2 (by decide +kernel)
  partSample_left skip noSelection (fun r => (picked_iff noSelection r).2 (noSelection_all r.record)) name

end Pica.Props
