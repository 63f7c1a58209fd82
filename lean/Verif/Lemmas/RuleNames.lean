import Verif.Props.CheckOrder

/-! Which rules report records at once, and which at the end. -/

namespace Pica.Props
open Pica Spec

/-- the rule compares the records with each other, so that it reports at the end -/
def IsLinkRule (x : CheckRule) : Prop := ∃ E o source target matcher s, x.check = .link E o source target matcher s

theorem linkRule_check {C : CheckEnv} {r : Record} {c c' : Checks} {b : Bool} {m : Option Bytes}
    (h : c.check C r = some (c', b, m)) :
    (∃ E o source target matcher s, c = .link E o source target matcher s) ∧
      (∃ E o source target matcher s, c' = .link E o source target matcher s) ∧ b = false ∨
    (¬ ∃ E o source target matcher s, c = .link E o source target matcher s) ∧ c' = c := by
  cases c with
  | link E o source target matcher s =>
    refine .inl ⟨⟨_, _, _, _, _, _, rfl⟩, ?_⟩
    dsimp only [Checks.check] at h
    split at h
    · simp only [Option.some.injEq, Prod.mk.injEq] at h
      exact ⟨⟨_, _, _, _, _, _, h.1.symm⟩, h.2.1.symm⟩
    · simp at h
  | unicode nf =>
    refine .inr ⟨by simp, ?_⟩
    dsimp only [Checks.check] at h
    split at h
    · split at h
      · simp only [Option.some.injEq, Prod.mk.injEq] at h; exact h.1.symm
      · simp only [Option.map_eq_some_iff, Prod.mk.injEq] at h
        obtain ⟨_, _, h, _⟩ := h; exact h.symm
    · simp only [Option.some.injEq, Prod.mk.injEq] at h; exact h.1.symm
  | datetime E o path parses offset =>
    refine .inr ⟨by simp, ?_⟩
    dsimp only [Checks.check] at h
    split at h
    · simp at h
    · simp only [Option.map_eq_some_iff, Prod.mk.injEq] at h
      obtain ⟨_, _, h, _⟩ := h; exact h.symm
  | _ =>
    refine .inr ⟨by simp, ?_⟩
    dsimp only [Checks.check] at h
    simp only [Option.map_eq_some_iff, Prod.mk.injEq] at h
    obtain ⟨_, _, h, _⟩ := h; exact h.symm

theorem linkRule_preprocess {r : Record} {x x' : CheckRule} (h : x.preprocess r = some x') :
    x'.id = x.id ∧ (IsLinkRule x' ↔ IsLinkRule x) := by
  unfold CheckRule.preprocess at h
  obtain ⟨k, hk, rfl⟩ := Option.map_eq_some_iff.1 h
  refine ⟨rfl, ?_⟩
  unfold IsLinkRule
  cases hc : x.check <;> rw [hc] at hk <;> unfold Checks.preprocess at hk
  case link =>
    obtain ⟨s', -, rfl⟩ := Option.map_eq_some_iff.1 hk
    exact ⟨fun _ => ⟨_, _, _, _, _, _, rfl⟩, fun _ => ⟨_, _, _, _, _, _, rfl⟩⟩
  all_goals
    cases hk
    simp

theorem linkRule_run {C : CheckEnv} {r : Record} {x x' : CheckRule} {out : List Report} {b : Bool}
    (h : x.run C r = some (x', out, b)) :
    x'.id = x.id ∧ (IsLinkRule x' ↔ IsLinkRule x) ∧ ∀ rep ∈ out, rep.rule = x.id ∧ ¬ IsLinkRule x := by
  unfold CheckRule.run at h
  split at h
  · simp at h
  · rename_i k m hk
    simp only [Option.some.injEq, Prod.mk.injEq] at h
    obtain ⟨rfl, rfl, -⟩ := h
    refine ⟨rfl, ?_, by simp⟩
    unfold IsLinkRule
    rcases linkRule_check hk with ⟨h1, h2, -⟩ | ⟨h1, rfl⟩
    · exact ⟨fun _ => h1, fun _ => h2⟩
    · exact Iff.rfl
  · rename_i k m hk
    rcases linkRule_check hk with ⟨h1, h2, h3⟩ | ⟨h1, h2⟩
    · simp at h3
    · split at h
      · simp at h
      · simp only [Option.some.injEq, Prod.mk.injEq] at h
        obtain ⟨rfl, rfl, -⟩ := h
        refine ⟨rfl, ?_, fun rep hr => ?_⟩
        · unfold IsLinkRule; rw [h2]
        · rw [List.mem_singleton.1 hr]
          exact ⟨rfl, h1⟩

/-- some rule with the name, of the given kind -/
def Names (rules : List CheckRule) (link : Bool) (id : Bytes) : Prop :=
  ∃ x ∈ rules, x.id = id ∧ (IsLinkRule x ↔ link = true)

theorem names_cons {x : CheckRule} {l : List CheckRule} {k : Bool} {id : Bytes} :
    Names (x :: l) k id ↔ (x.id = id ∧ (IsLinkRule x ↔ k = true)) ∨ Names l k id := by
  unfold Names; simp [or_and_right, exists_or]

theorem names_preprocess {r : Record} : ∀ {l l' : List CheckRule}, mapP (CheckRule.preprocess r) l = some l' →
    ∀ k id, Names l' k id ↔ Names l k id
  | [], l', h, k, id => by cases h; exact Iff.rfl
  | x :: l, l', h, k, id => by
    unfold mapP at h
    split at h
    · simp at h
    · rename_i y hy
      obtain ⟨ys, hys, rfl⟩ := Option.map_eq_some_iff.1 h
      obtain ⟨h1, h2⟩ := linkRule_preprocess hy
      rw [names_cons, names_cons, names_preprocess hys, h1, h2]

theorem names_check {C : CheckEnv} {fast : Bool} {r : Record} : ∀ {l l' : List CheckRule} {out : List Report},
    RuleSet.checkRules C fast r l = some (l', out) →
    (∀ k id, Names l' k id ↔ Names l k id) ∧ ∀ rep ∈ out, Names l false rep.rule
  | [], l', out, h => by cases h; exact ⟨fun _ _ => Iff.rfl, by simp⟩
  | x :: l, l', out, h => by
    unfold RuleSet.checkRules at h
    split at h
    · simp at h
    · rename_i x' reports result hx
      obtain ⟨h1, h2, h3⟩ := linkRule_run hx
      have h4 : ∀ rep ∈ reports, Names (x :: l) false rep.rule := fun rep hr =>
        names_cons.2 (.inl ⟨(h3 rep hr).1.symm, by simpa using (h3 rep hr).2⟩)
      split at h
      · simp only [Option.some.injEq, Prod.mk.injEq] at h
        obtain ⟨rfl, rfl⟩ := h
        exact ⟨fun k id => by rw [names_cons, names_cons, h1, h2], h4⟩
      · split at h
        · simp at h
        · rename_i cs' reports' hcs
          simp only [Option.some.injEq, Prod.mk.injEq] at h
          obtain ⟨rfl, rfl⟩ := h
          obtain ⟨h5, h6⟩ := names_check hcs
          refine ⟨fun k id => by rw [names_cons, names_cons, h1, h2, h5], fun rep hr => ?_⟩
          rcases List.mem_append.1 hr with hr | hr
          · exact h4 rep hr
          · exact names_cons.2 (.inr (h6 rep hr))

theorem names_step {C : CheckEnv} {r : Record} {s s' : RuleSet} {out : List Report}
    (h : s.step C r = some (s', out)) :
    (∀ k id, Names s'.rules k id ↔ Names s.rules k id) ∧ ∀ rep ∈ out, Names s.rules false rep.rule := by
  unfold RuleSet.step at h
  split at h
  · simp at h
  · rename_i t ht
    unfold RuleSet.preprocess at ht
    obtain ⟨rules, hr, rfl⟩ := Option.map_eq_some_iff.1 ht
    have h0 := names_preprocess hr
    unfold RuleSet.check at h
    split at h
    · simp at h
    · simp only [Option.some.injEq, Prod.mk.injEq] at h
      obtain ⟨rfl, rfl⟩ := h
      exact ⟨h0, by simp⟩
    · obtain ⟨⟨l', o⟩, hl, he⟩ := Option.map_eq_some_iff.1 h
      simp only [Prod.mk.injEq] at he
      obtain ⟨rfl, rfl⟩ := he
      obtain ⟨h5, h6⟩ := names_check hl
      exact ⟨fun k id => (h5 k id).trans (h0 k id), fun rep hr => (h0 _ _).1 (h6 rep hr)⟩

/-- the same for several rule sets -/
def SetNames (ss : List RuleSet) (link : Bool) (id : Bytes) : Prop := ∃ s ∈ ss, Names s.rules link id

theorem names_record {C : CheckEnv} {r : Record} : ∀ {ss ss' : List RuleSet} {out : List Report},
    CheckCmd.record C r ss = some (ss', out) →
    (∀ k id, SetNames ss' k id ↔ SetNames ss k id) ∧ ∀ rep ∈ out, SetNames ss false rep.rule
  | [], ss', out, h => by cases h; exact ⟨fun _ _ => Iff.rfl, by simp⟩
  | s :: ss, ss', out, h => by
    unfold CheckCmd.record at h
    split at h
    · simp at h
    · rename_i s' o hs
      split at h
      · simp at h
      · rename_i ss'' o' hss
        simp only [Option.some.injEq, Prod.mk.injEq] at h
        obtain ⟨rfl, rfl⟩ := h
        obtain ⟨h1, h2⟩ := names_step hs
        obtain ⟨h3, h4⟩ := names_record hss
        unfold SetNames at *
        refine ⟨fun k id => ?_, fun rep hr => ?_⟩
        · simp only [List.mem_cons, exists_eq_or_imp, h1, h3]
        · simp only [List.mem_cons, exists_eq_or_imp]
          rcases List.mem_append.1 hr with hr | hr
          · exact .inl (h2 rep hr)
          · exact .inr (h4 rep hr)

theorem names_prepared {c : CheckCmd} {k : Bool} {id : Bytes} (h : SetNames c.prepared k id) :
    SetNames c.rulesets k id := by
  obtain ⟨s, hs, x, hx, h1, h2⟩ := h
  unfold CheckCmd.prepared at hs
  obtain ⟨t, ht, rfl⟩ := List.mem_map.1 (List.mem_filter.1 hs).1
  exact ⟨t, ht, x, (List.mem_filter.1 hx).1, h1, h2⟩

/-- what holds of rule sets and reports at every moment of the run -/
def NamesInv (c : CheckCmd) (s : CheckState) : Prop :=
  (∀ k id, SetNames s.rulesets k id → SetNames c.rulesets k id) ∧ ∀ rep ∈ s.out, SetNames c.rulesets false rep.rule

theorem names_loop (c : CheckCmd) (skip : Bool) (files : List (String × Bytes)) (s : CheckState)
    (h : filesLoop skip id (selBody c.sel.test c.body) files ⟨c.prepared, [], 0⟩ = .ok s) : NamesInv c s := by
  have := filesLoop_sim (R := fun s t => s = t ∧ NamesInv c s) (skip := skip) (f := selBody c.sel.test c.body)
    (g := selBody c.sel.test c.body) (fun s t r hr => by
      obtain ⟨rfl, h1, h2⟩ := hr
      unfold selBody
      split
      · exact .panic
      · exact .next ⟨rfl, h1, h2⟩
      · unfold CheckCmd.body
        split
        · exact .panic
        · rename_i ss out hb
          obtain ⟨h3, h4⟩ := names_record hb
          have hi : NamesInv c ⟨ss, s.out ++ out, s.count + 1⟩ := by
            refine ⟨fun k id hk => h1 k id ((h3 k id).1 hk), fun rep hr => ?_⟩
            rcases List.mem_append.1 hr with hr | hr
            · exact h2 rep hr
            · exact h1 _ _ (h4 rep hr)
          unfold limitStep
          split
          · exact .stop ⟨rfl, hi⟩
          · exact .next ⟨rfl, hi⟩) files ⟨c.prepared, [], 0⟩ ⟨c.prepared, [], 0⟩
    ⟨rfl, fun k id => names_prepared, by simp⟩
  rw [h] at this
  cases this with
  | ok h => exact h.2

theorem names_finish {C : CheckEnv} {ss : List RuleSet} {rep : Report}
    (h : rep ∈ ss.flatMap (RuleSet.finish C)) : SetNames ss true rep.rule := by
  obtain ⟨s, hs, h⟩ := List.mem_flatMap.1 h
  obtain ⟨x, hx, h⟩ := List.mem_flatMap.1 h
  refine ⟨s, hs, x, hx, ?_⟩
  unfold CheckRule.finish at h
  split at h
  · rename_i hc
    obtain ⟨y, -, rfl⟩ := List.mem_map.1 h
    exact ⟨rfl, by simp only [iff_true]; exact ⟨_, _, _, _, _, _, hc⟩⟩
  · simp at h

end Pica.Props
