import Verif.Props.Concat
import Verif.Props.Count
import Verif.Props.Piped

/-! # C32: `concat` in stages -/

namespace Pica.Props
open Pica Spec

/-- the records that are written, alone, lead to the same state -/
theorem concat_kept (c : ConcatCmd) (rs : List ByteRecord) (s t : ConcatState) (h : runSteps c.body rs s = some t) :
    ∃ kept, kept.Sublist rs ∧ t.out = s.out ++ kept.flatMap ByteRecord.write ∧ runSteps c.body kept s = some t := by
  induction rs generalizing s with
  | nil =>
    rw [runSteps, Option.some.injEq] at h
    subst h
    exact ⟨[], List.Sublist.refl _, by simp, rfl⟩
  | cons r rs ih =>
    have keep : ∀ u, c.body s r = .next u → u.out = s.out ++ r.write →
        ∃ kept, kept.Sublist (r :: rs) ∧ t.out = s.out ++ kept.flatMap ByteRecord.write ∧ runSteps c.body kept s = some t := by
      intro u hu ho
      rw [runSteps, hu] at h
      obtain ⟨kept, h1, h2, h3⟩ := ih u h
      refine ⟨r :: kept, h1.cons_cons r, ?_, ?_⟩
      · rw [h2, ho, List.flatMap_cons, List.append_assoc]
      · rw [runSteps, hu]
        exact h3
    by_cases hu : c.unique = true
    · cases hk : c.key r with
      | none =>
        rw [runSteps, ConcatCmd.body, if_pos hu, hk] at h
        simp at h
      | some k =>
        by_cases hs : (s.seen.contains k || k.isEmpty) = true
        · rw [runSteps, ConcatCmd.body, if_pos hu, hk] at h
          dsimp only at h
          rw [if_pos hs] at h
          obtain ⟨kept, h1, h2, h3⟩ := ih s h
          exact ⟨kept, h1.cons r, h2, h3⟩
        · refine keep (ConcatCmd.emit { s with seen := k :: s.seen } r) ?_ rfl
          rw [ConcatCmd.body, if_pos hu, hk]
          dsimp only
          rw [if_neg hs]
    · refine keep (ConcatCmd.emit s r) ?_ rfl
      rw [ConcatCmd.body, if_neg hu]

/-- **C32** `concat` may be done in stages, with and without `--unique`: the output of a run that has succeeded can
take the place of its files, whatever files come after it. In particular a second run changes nothing. -/
theorem C32_stages (c : ConcatCmd) (files more : List (String × Bytes)) (s : ConcatState) (h : c.run files = .ok s)
    (name : String) : c.run ((name, s.out) :: more) = c.run (files ++ more) ∧ c.run [(name, s.out)] = .ok s := by
  obtain ⟨rs, hi⟩ := input_exists files
  have hn : ∀ s r s', c.body s r ≠ .stop s' := by
    intro s r s' he
    unfold ConcatCmd.body at he
    split at he
    · split at he
      · simp at he
      · split at he <;> simp at he
    · simp at he
  obtain ⟨kept, h1, h2, h3⟩ := concat_kept c rs _ s (filesLoop_ok hi h)
  rw [List.nil_append] at h2
  obtain ⟨hi', hv⟩ := lines_input name (fun r hr => input_lineRecord hi r (h1.mem hr))
  rw [← h2] at hi' hv
  have h4 : c.run [(name, s.out)] = .ok s := by
    unfold ConcatCmd.run
    rw [filesLoop_clean hi' (.inr hv), h3]
  refine ⟨?_, h4⟩
  rw [← List.singleton_append]
  unfold ConcatCmd.run at h h4 ⊢
  rw [filesLoop_append hn, filesLoop_append hn, h, h4]

/-- the second record of the first file is left out, and so is the record of the last file -/
example : (concatSample true .idn).run ([("a", recLine "1" ++ recLine "1")] ++ [("c", recLine "1" ++ recLine "2")]) =
      .ok ⟨recLine "1" ++ recLine "2", none, [bs "2", bs "1"]⟩ ∧
    (concatSample true .idn).run [("a", recLine "1" ++ recLine "1")] = .ok ⟨recLine "1", none, [bs "1"]⟩ := by
  decide +kernel

example := C32_stages (concatSample true .idn) [("a", recLine "1" ++ recLine "1")] [("c", bs "x\n")]
  ⟨recLine "1", none, [bs "1"]⟩ (by decide +kernel) "b"

end Pica.Props
