import Verif.Props.SliceRuns
import Verif.Props.Piped

/-! # C99: a slice of a slice -/

namespace Pica.Props
open Pica Spec

/-- **C99** a slice of the output of a slice is a slice of the input: the positions are counted from the start of
the first range, and what is behind its end is not there. The second run never fails. -/
theorem C99_nested (c d : SliceCmd) (he : 0 < c.end) (hl : c.length = 0) (hm : c.limit = 0)
    (hde : 0 < d.end) (hdl : d.length = 0) (hdm : d.limit = 0) (hsel : ∀ r, d.sel.test r = some true)
    (files : List (String × Bytes)) (s : SliceState) (h : c.run files = .ok s) (name : String) :
    ∃ t, d.run [(name, s.out)] = .ok t ∧
      ∀ u, ({ c with start := c.start + d.start, «end» := min c.end (c.start + d.end) } : SliceCmd).run files = .ok u →
        u.out = t.out := by
  obtain ⟨rs, hi⟩ := input_exists files
  have h1 := C34_end c he hl files rs hi s h
  rw [sliced_take c hm] at h1
  have hlines : ∀ r ∈ ((picked c.sel rs).take c.end).drop c.start, LineRecord r := fun r hr =>
    input_lineRecord hi r (List.mem_filter.1 (List.mem_of_mem_take (List.mem_of_mem_drop hr))).1
  obtain ⟨hi', hv⟩ := lines_input name hlines
  rw [← h1] at hi' hv
  obtain ⟨t, ht⟩ : ∃ t, d.run [(name, s.out)] = .ok t := by
    rw [slice_noShift (.inl hdl), filesLoop_clean hi' (.inr hv), runSteps_sel_total (fun r _ => ⟨true, hsel r⟩)]
    obtain ⟨u, hu, -⟩ := slice_run d (chosen d.sel.test (((picked c.sel rs).take c.end).drop c.start))
      ⟨d.rangeEnd, 0, 0, []⟩ (.inl hdm)
    exact ⟨u, by rw [hu]⟩
  have hp : ∀ rs : List ByteRecord, picked d.sel rs = rs := by
    intro rs
    rw [← chosen_eq_picked]
    exact List.filter_eq_self.2 (fun r _ => by rw [hsel]; rfl)
  refine ⟨t, ht, fun u hu => ?_⟩
  rw [C34_end d hde hdl _ _ hi' t ht, sliced_take d hdm, hp]
  rw [C34_end ({ c with start := c.start + d.start, «end» := min c.end (c.start + d.end) }) (by dsimp only; omega) hl
    files rs hi u hu,
    sliced_take ({ c with start := c.start + d.start, «end» := min c.end (c.start + d.end) } : SliceCmd) hm]
  dsimp only
  congr 1
  generalize picked c.sel rs = l
  rw [List.take_drop, List.take_take, List.drop_drop, Nat.min_comm]

/-- positions 1 and 2 of the input, and of these the second -/
example : (sliceSample false 1 3 0).run [("a", recLine "1" ++ recLine "2" ++ recLine "3")] =
      .ok ⟨3, 3, 2, recLine "2" ++ recLine "3"⟩ ∧
    (sliceSample false 1 5 0).run [("b", recLine "2" ++ recLine "3")] = .ok ⟨5, 2, 1, recLine "3"⟩ ∧
    (sliceSample false 2 3 0).run [("a", recLine "1" ++ recLine "2" ++ recLine "3")] = .ok ⟨3, 3, 1, recLine "3"⟩ := by
  decide +kernel

example (name : String) := C99_nested (sliceSample false 1 3 0) (sliceSample false 1 5 0) (by decide) rfl rfl (by decide) rfl rfl
  (fun r => (picked_iff noSelection r).2 (noSelection_all r.record))
  [("a", recLine "1" ++ recLine "2" ++ recLine "3")] ⟨3, 3, 2, recLine "2" ++ recLine "3"⟩ (by decide +kernel) name

end Pica.Props
