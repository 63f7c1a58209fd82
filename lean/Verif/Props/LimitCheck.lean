import Verif.Props.Limit
import Verif.Props.AnyOrder

/-! # C98: `check` with `--limit`

`C98_check_false` (Props/Limit) shows that a link rule may report more with a limit. Here are the rule sets
without link rules. -/

namespace Pica.Props
open Pica Spec

/-- no rule has been changed, and the reports have only grown -/
def ChecksLe (s t : CheckState) : Prop :=
  s.out <+: t.out ∧
    ((∀ x ∈ s.rulesets, ∀ y ∈ x.rules, Memoryless y.check) → t.rulesets = s.rulesets)

theorem checksLe_refl (s : CheckState) : ChecksLe s s := ⟨List.prefix_refl _, fun _ => rfl⟩

theorem checksLe_trans (a b c : CheckState) (h1 : ChecksLe a b) (h2 : ChecksLe b c) : ChecksLe a c := by
  refine ⟨h1.1.trans h2.1, fun hm => ?_⟩
  have e := h1.2 hm
  rw [h2.2 (by rw [e]; exact hm), e]

theorem check_grows (c : CheckCmd) (s : CheckState) (r : ByteRecord) (t : CheckState)
    (h : c.body s r = .next t ∨ c.body s r = .stop t) : ChecksLe s t := by
  unfold CheckCmd.body at h
  split at h
  · simp at h
  · rename_i ss out hr
    rw [limitStep_state h]
    exact ⟨List.prefix_append _ _, fun hm => memoryless_record hm hr⟩

theorem check_sooner (c : CheckCmd) {m n : Nat} (h : LimitLe m n) (s : CheckState) (r : ByteRecord) :
    Sooner ChecksLe (({ c with limit := m } : CheckCmd).body s r) (({ c with limit := n } : CheckCmd).body s r) := by
  unfold CheckCmd.body
  dsimp only
  split
  · exact .inl rfl
  · exact limitStep_sooner checksLe_refl h _ _

theorem finish_memoryless {C : CheckEnv} {ss : List RuleSet} (hm : ∀ s ∈ ss, ∀ x ∈ s.rules, Memoryless x.check) :
    ss.flatMap (RuleSet.finish C) = [] := by
  rw [List.flatMap_eq_nil_iff]
  intro s hs
  unfold RuleSet.finish
  rw [List.flatMap_eq_nil_iff]
  intro x hx
  have := hm s hs x hx
  unfold CheckRule.finish
  split
  · rename_i e; rw [e] at this; exact this.elim
  · rfl

/-- **C98** `check`: without a link rule the reports with a smaller limit are the beginning of the reports with
a larger one or without. -/
theorem C98_check_partial (c : CheckCmd) (m n : Nat) (h : LimitLe m n)
    (hm : ∀ s ∈ c.rulesets, ∀ x ∈ s.rules, Memoryless x.check) (files : List (String × Bytes)) :
    Shorter (fun a b => a <+: b) (({ c with limit := m } : CheckCmd).run files)
      (({ c with limit := n } : CheckCmd).run files) := by
  have hm' : ∀ s ∈ c.prepared, ∀ x ∈ s.rules, Memoryless x.check := by
    intro s hs x hx
    obtain ⟨s0, h3, rfl⟩ := List.mem_map.1 (List.mem_filter.1 hs).1
    exact hm s0 h3 x (List.mem_filter.1 hx).1
  have key := filesLoop_sooner (R := ChecksLe) (skip := c.skip) (onSkip := id) checksLe_refl checksLe_trans checksLe_refl
    (selBody_sooner (test := c.sel.test) (check_sooner c h))
    (selBody_grows checksLe_refl (check_grows { c with limit := n })) files ⟨c.prepared, [], 0⟩
  have first := filesLoop_grows (R := ChecksLe) (skip := c.skip) (onSkip := id) checksLe_refl checksLe_trans checksLe_refl
    (selBody_grows (test := c.sel.test) checksLe_refl (check_grows { c with limit := m })) files ⟨c.prepared, [], 0⟩
  unfold CheckCmd.run
  change Shorter _
    (match filesLoop c.skip id (selBody c.sel.test (CheckCmd.body { c with limit := m })) files ⟨c.prepared, [], 0⟩ with
      | .ok s => .ok (s.out ++ s.rulesets.flatMap (RuleSet.finish c.C))
      | .err e s => .err e s.out
      | .panic => .panic)
    (match filesLoop c.skip id (selBody c.sel.test (CheckCmd.body { c with limit := n })) files ⟨c.prepared, [], 0⟩ with
      | .ok s => .ok (s.out ++ s.rulesets.flatMap (RuleSet.finish c.C))
      | .err e s => .err e s.out
      | .panic => .panic)
  rcases key with key | ⟨t, ht, h2⟩
  · rw [key]
    exact .inl rfl
  · rw [ht] at first ⊢
    have e1 : t.rulesets = c.prepared := by
      rcases first with h | ⟨u, hu, h | ⟨e, h⟩⟩
      · simp at h
      · simp only [LoopResult.ok.injEq] at h
        subst h
        exact hu.2 hm'
      · simp at h
    have f1 : t.rulesets.flatMap (RuleSet.finish c.C) = [] := by rw [e1]; exact finish_memoryless hm'
    right
    rcases h2 with h2 | ⟨t', hle, h2 | ⟨e, h2⟩⟩
    · rw [h2]
      exact ⟨_, rfl, .inl rfl⟩
    · rw [h2]
      refine ⟨_, rfl, .inr ⟨_, ?_, .inl rfl⟩⟩
      rw [f1, List.append_nil]
      exact hle.1.trans (List.prefix_append _ _)
    · rw [h2]
      refine ⟨_, rfl, .inr ⟨_, ?_, .inr ⟨e, rfl⟩⟩⟩
      rw [f1, List.append_nil]
      exact hle.1

/-- two records are reported, one with the limit -/
example : (∀ s ∈ (checkSample false [failRule "A"]).rulesets, ∀ x ∈ s.rules, Memoryless x.check) ∧
    ({ checkSample false [failRule "A"] with limit := 1 } : CheckCmd).run [("a", recLine "1" ++ recLine "2")] =
      .ok [⟨some (bs "1"), bs "A", .error, none⟩] ∧
    (checkSample false [failRule "A"]).run [("a", recLine "1" ++ recLine "2")] =
      .ok [⟨some (bs "1"), bs "A", .error, none⟩, ⟨some (bs "2"), bs "A", .error, none⟩] := by
  refine ⟨fun s hs x hx => ?_, by decide +kernel, by decide +kernel⟩
  simp only [checkSample, List.mem_singleton] at hs
  subst hs
  simp only [List.mem_singleton] at hx
  subst hx
  trivial

end Pica.Props
