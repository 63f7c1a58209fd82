import Verif.Props.AnyOrder

/-! Lemmas for C92: rule sets with fast termination. -/

namespace Pica.Props
open Pica Spec

/-- the rule would report the record -/
def fires (C : CheckEnv) (r : Record) (x : CheckRule) : Bool :=
  match x.check.check C r with
  | some (_, b, _) => b
  | none => false

/-- a rule and the records for which it is asked -/
abbrev AskedRule := (Record → Bool) × CheckRule

def askedStep (C : CheckEnv) (r : Record) (a : AskedRule) : Option (AskedRule × List Report) :=
  (ruleStep C (a.1 r) r a.2).map (fun z => ((a.1, z.1), z.2))

/-- with fast termination, a rule is asked if none of the rules before fires -/
def annot (C : CheckEnv) (fast : Bool) : (Record → Bool) → List CheckRule → List AskedRule
  | _, [] => []
  | act, x :: xs => (act, x) :: annot C fast (fun r => act r && !(fast && fires C r x)) xs

theorem fires_link {C : CheckEnv} {r : Record} {x : CheckRule} (h : ¬ Memoryless x.check) : fires C r x = false := by
  unfold fires
  cases hc : x.check with
  | link E o source target m s =>
    rw [Checks.check]
    split
    · rename_i heq
      split at heq <;> simp at heq
      simp [heq.2.1]
    · rfl
  | _ => rw [hc] at h; exact absurd trivial h

theorem preprocess_kind {r : Record} {x y : CheckRule} (h : x.preprocess r = some y) :
    (Memoryless x.check → y = x) ∧ (¬ Memoryless x.check → ¬ Memoryless y.check) := by
  unfold CheckRule.preprocess at h
  constructor
  · intro hm
    rw [memoryless_preprocess hm] at h
    simp only [Option.map_some, Option.some.injEq] at h
    exact h.symm
  · intro hm
    cases hc : x.check with
    | link E o source target m s =>
      rw [hc, Option.map_eq_some_iff] at h
      obtain ⟨z, hz, rfl⟩ := h
      rw [Checks.preprocess, Option.map_eq_some_iff] at hz
      obtain ⟨w, _, rfl⟩ := hz
      exact id
    | _ => rw [hc] at hm; exact absurd trivial hm

theorem run_kind {C : CheckEnv} {r : Record} {x : CheckRule} {z : CheckRule × List Report × Bool}
    (h : x.run C r = some z) :
    (Memoryless x.check → z.1 = x) ∧ (¬ Memoryless x.check → ¬ Memoryless z.1.check) ∧ fires C r x = z.2.2 := by
  refine ⟨fun hm => memoryless_run hm h, ?_, ?_⟩
  · intro hm
    cases hc : x.check with
    | link E o source target m s =>
      have key : ∀ y b msg, (Checks.link E o source target m s).check C r = some (y, b, msg) → ¬ Memoryless y := by
        intro y b msg hy
        rw [Checks.check] at hy
        split at hy <;> simp at hy
        rw [← hy.1]
        exact id
      unfold CheckRule.run at h
      rw [hc] at h
      split at h
      · simp at h
      · rename_i hk
        simp only [Option.some.injEq] at h
        subst h
        exact key _ _ _ hk
      · rename_i hk
        split at h
        · simp at h
        · simp only [Option.some.injEq] at h
          subst h
          exact key _ _ _ hk
    | _ => rw [hc] at hm; exact absurd trivial hm
  · unfold CheckRule.run at h
    unfold fires
    split at h
    · simp at h
    · rename_i hk
      rw [hk]
      simp only [Option.some.injEq] at h
      subst h
      rfl
    · rename_i hk
      rw [hk]
      split at h
      · simp at h
      · simp only [Option.some.injEq] at h
        subst h
        rfl

theorem fires_of_kind {C : CheckEnv} {x y : CheckRule} (h1 : Memoryless x.check → y = x)
    (h2 : ¬ Memoryless x.check → ¬ Memoryless y.check) (r : Record) : fires C r y = fires C r x := by
  rcases Classical.em (Memoryless x.check) with h | h
  · rw [h1 h]
  · rw [fires_link h, fires_link (h2 h)]

/-- what happens to the rules of a set for one record -/
theorem asked_rules {C : CheckEnv} {fast : Bool} {r : Record} : ∀ {xs ys : List CheckRule} {act : Record → Bool}
    {z : List CheckRule × List Report}, mapP (CheckRule.preprocess r) xs = some ys →
    (if act r = true then RuleSet.checkRules C fast r ys else some (ys, [])) = some z →
    ∃ ps, mapP (askedStep C r) (annot C fast act xs) = some ps ∧ ps.map (·.1) = annot C fast act z.1 ∧
      ps.flatMap (·.2) = z.2 := by
  intro xs
  induction xs with
  | nil =>
    intro ys act z hp hz
    simp only [mapP, Option.some.injEq] at hp
    subst hp
    have : z = ([], []) := by
      split at hz
      · simpa [RuleSet.checkRules] using hz.symm
      · simpa using hz.symm
    subst this
    exact ⟨[], rfl, rfl, rfl⟩
  | cons x xs ih =>
    intro ys act z hp hz
    rw [mapP] at hp
    cases hx : x.preprocess r with
    | none => rw [hx] at hp; simp at hp
    | some y =>
      cases hxs : mapP (CheckRule.preprocess r) xs with
      | none => rw [hx, hxs] at hp; simp at hp
      | some ys' =>
        rw [hx, hxs] at hp
        simp only [Option.map_some, Option.some.injEq] at hp
        subst hp
        have hk := preprocess_kind hx
        have hfy : ∀ r', fires C r' y = fires C r' x := fires_of_kind hk.1 hk.2
        -- the result for the head, and the rest
        have fin : ∀ (y' : CheckRule) (rep : List Report) (w : List CheckRule × List Report),
            ruleStep C (act r) r x = some (y', rep) → (∀ r', fires C r' y' = fires C r' x) →
            (if (act r && !(fast && fires C r x)) = true then RuleSet.checkRules C fast r ys' else some (ys', [])) = some w →
            z = (y' :: w.1, rep ++ w.2) →
            ∃ ps, mapP (askedStep C r) (annot C fast act (x :: xs)) = some ps ∧
              ps.map (·.1) = annot C fast act z.1 ∧ ps.flatMap (·.2) = z.2 := by
          intro y' rep w h1 h2 h3 h4
          obtain ⟨ps, k1, k2, k3⟩ := ih (act := fun r => act r && !(fast && fires C r x)) hxs h3
          refine ⟨((act, y'), rep) :: ps, ?_, ?_, ?_⟩
          · rw [annot, mapP, askedStep, h1]
            simp only [Option.map_some]
            rw [k1]
            rfl
          · subst h4
            rw [List.map_cons, k2]
            dsimp only
            rw [annot]
            congr 2
            funext r'
            rw [h2]
          · subst h4
            rw [List.flatMap_cons, k3]
        cases ha : act r with
        | false =>
          rw [ha] at hz
          simp only [Bool.false_eq_true, if_false, Option.some.injEq] at hz
          refine fin y [] (ys', []) ?_ hfy ?_ hz.symm
          · rw [ruleStep, hx, ha]; rfl
          · rw [ha]; rfl
        | true =>
          rw [ha, if_pos rfl, RuleSet.checkRules] at hz
          cases hr : y.run C r with
          | none => rw [hr] at hz; simp at hz
          | some q =>
            obtain ⟨y', rep, res⟩ := q
            obtain ⟨g1, g2, g3⟩ := run_kind hr
            dsimp only at g1 g2 g3
            have hfy' : ∀ r', fires C r' y' = fires C r' x := fun r' => by
              rw [fires_of_kind g1 g2 r', hfy]
            have hres : fires C r x = res := by rw [← hfy, g3]
            have hrs : ruleStep C (act r) r x = some (y', rep) := by rw [ruleStep, hx, ha]; simp [hr]
            rw [hr] at hz
            dsimp only at hz
            by_cases hb : (fast && res) = true
            · rw [if_pos hb, Option.some.injEq] at hz
              refine fin y' rep (ys', []) hrs hfy' ?_ (by rw [← hz, List.append_nil])
              rw [ha, hres, hb]; rfl
            · rw [if_neg hb] at hz
              cases hc : RuleSet.checkRules C fast r ys' with
              | none => rw [hc] at hz; simp at hz
              | some w =>
                rw [hc] at hz
                simp only [Option.some.injEq] at hz
                refine fin y' rep w hrs hfy' ?_ hz.symm
                rw [ha, hres]
                simp only [Bool.not_eq_true] at hb
                rw [hb]
                exact hc

/-- the records in scope -/
def inScopeB (C : CheckEnv) (scope : Option RecordMatcher) (r : Record) : Bool := scopeValue C scope r == some true

theorem asked_step {C : CheckEnv} {r : Record} {s : RuleSet} {z : RuleSet × List Report} (h : s.step C r = some z) :
    z.1.scope = s.scope ∧ z.1.fast = s.fast ∧
    together (askedStep C) r (annot C s.fast (inScopeB C s.scope) s.rules) =
      some (annot C s.fast (inScopeB C s.scope) z.1.rules, z.2) := by
  unfold RuleSet.step RuleSet.preprocess at h
  cases hp : mapP (CheckRule.preprocess r) s.rules with
  | none => rw [hp] at h; simp at h
  | some ys =>
    rw [hp] at h
    simp only [Option.map_some] at h
    unfold RuleSet.check at h
    dsimp only at h
    have key : ∀ w : List CheckRule × List Report,
        (if inScopeB C s.scope r = true then RuleSet.checkRules C s.fast r ys else some (ys, [])) = some w →
        together (askedStep C) r (annot C s.fast (inScopeB C s.scope) s.rules) =
          some (annot C s.fast (inScopeB C s.scope) w.1, w.2) := by
      intro w hw
      obtain ⟨ps, k1, k2, k3⟩ := asked_rules hp hw
      rw [together, k1, Option.map_some, k2, k3]
    split at h
    · simp at h
    · rename_i hs
      simp only [Option.some.injEq] at h
      subst h
      refine ⟨rfl, rfl, key (ys, []) ?_⟩
      have : scopeValue C s.scope r = some false := hs
      rw [inScopeB, this]
      rfl
    · rename_i hs
      rw [Option.map_eq_some_iff] at h
      obtain ⟨w, hw, rfl⟩ := h
      refine ⟨rfl, rfl, key w ?_⟩
      have : scopeValue C s.scope r = some true := hs
      rw [inScopeB, this]
      exact hw

theorem asked_iterate {C : CheckEnv} : ∀ {recs : List Record} {s : RuleSet} {z : RuleSet × List Report},
    iterate (fun r s => RuleSet.step C r s) recs s = some z →
    iterate (together (askedStep C)) recs (annot C s.fast (inScopeB C s.scope) s.rules) =
      some (annot C s.fast (inScopeB C s.scope) z.1.rules, z.2) := by
  intro recs
  induction recs with
  | nil => intro s z h; simp only [iterate, Option.some.injEq] at h; subst h; rfl
  | cons r recs ih =>
    intro s z h
    rw [iterate] at h
    cases hs : s.step C r with
    | none => rw [hs] at h; simp at h
    | some w =>
      rw [hs] at h
      dsimp only at h
      rw [Option.map_eq_some_iff] at h
      obtain ⟨v, hv, rfl⟩ := h
      obtain ⟨g1, g2, g3⟩ := asked_step hs
      have := ih hv
      rw [g1, g2] at this
      rw [iterate, g3]
      dsimp only
      rw [this]
      rfl

/-- what a rule reports for a list of records if it is the only rule and is asked for some records -/
def ruleWhere (C : CheckEnv) (act : Record → Bool) (recs : List Record) (x : CheckRule) : List Report :=
  match iterate (fun r => ruleStep C (act r) r) recs x with
  | none => []
  | some p => p.2 ++ p.1.finish C

theorem iterate_asked {C : CheckEnv} {act : Record → Bool} : ∀ (recs : List Record) (x : CheckRule),
    iterate (askedStep C) recs (act, x) =
      (iterate (fun r => ruleStep C (act r) r) recs x).map (fun p => ((act, p.1), p.2)) := by
  intro recs
  induction recs with
  | nil => intro x; rfl
  | cons r recs ih =>
    intro x
    rw [iterate, iterate, askedStep]
    cases ruleStep C (act r) r x with
    | none => rfl
    | some z =>
      simp only [Option.map_some]
      rw [ih]
      cases iterate (fun r => ruleStep C (act r) r) recs z.1 <;> rfl

theorem annot_finish {C : CheckEnv} {fast : Bool} : ∀ (l : List CheckRule) (act : Record → Bool),
    (annot C fast act l).flatMap (fun a => a.2.finish C) = l.flatMap (CheckRule.finish C) := by
  intro l
  induction l with
  | nil => intro _; rfl
  | cons x l ih => intro act; rw [annot, List.flatMap_cons, List.flatMap_cons, ih]

theorem asked_finish {C : CheckEnv} {recs : List Record} {s : RuleSet} {z : RuleSet × List Report}
    (h : iterate (fun r s => RuleSet.step C r s) recs s = some z) :
    (z.2 ++ z.1.finish C).Perm
      ((annot C s.fast (inScopeB C s.scope) s.rules).flatMap (fun a => ruleWhere C a.1 recs a.2)) := by
  have hi := asked_iterate h
  rcases iterate_together (askedStep C) recs (annot C s.fast (inScopeB C s.scope) s.rules) with
    ⟨_, h2⟩ | ⟨ps, out, h1, h2, h3⟩
  · rw [h2] at hi; simp at hi
  · rw [h2] at hi
    simp only [Option.some.injEq, Prod.mk.injEq] at hi
    obtain ⟨e1, rfl⟩ := hi
    have hall := mapP_all2 h1
    unfold RuleSet.finish
    rw [← annot_finish z.1.rules (inScopeB C s.scope) (fast := s.fast), ← e1, List.flatMap_map]
    refine (List.Perm.append_right _ h3).trans ?_
    refine (flatMap_append_perm _ _ ps).trans (List.Perm.symm ?_)
    refine flatMap_all2_perm (R := fun a q => iterate (askedStep C) recs a = some q) ?_ hall
    rintro ⟨act, x⟩ q hq
    rw [iterate_asked, Option.map_eq_some_iff] at hq
    obtain ⟨w, hw, rfl⟩ := hq
    rw [ruleWhere, hw]

theorem asked_sets {C : CheckEnv} {recs : List Record} {ss ss' : List RuleSet} {out : List Report}
    (h : iterate (CheckCmd.record C) recs ss = some (ss', out)) :
    (out ++ ss'.flatMap (RuleSet.finish C)).Perm (ss.flatMap (fun s =>
      (annot C s.fast (inScopeB C s.scope) s.rules).flatMap (fun a => ruleWhere C a.1 recs a.2))) := by
  have e : CheckCmd.record C = together (fun r s => RuleSet.step C r s) := by
    funext r ss; exact record_together C r ss
  rw [e] at h
  rcases iterate_together (fun r s => RuleSet.step C r s) recs ss with ⟨_, h2⟩ | ⟨ps, out', h1, h2, h3⟩
  · rw [h2] at h; simp at h
  · rw [h2] at h
    simp only [Option.some.injEq, Prod.mk.injEq] at h
    obtain ⟨rfl, rfl⟩ := h
    have hall := mapP_all2 h1
    rw [List.flatMap_map]
    refine (List.Perm.append_right _ h3).trans ?_
    refine (flatMap_append_perm _ _ ps).trans (List.Perm.symm ?_)
    exact flatMap_all2_perm (R := fun s q => iterate (fun r s => RuleSet.step C r s) recs s = some q)
      (fun s q hq => (asked_finish hq).symm) hall

/-- the loop of the command -/
theorem check_iterate {c : CheckCmd} {files : List (String × Bytes)} {rs : List ByteRecord}
    (hi : Input files rs) {out : List Report} (h : c.run files = .ok out) :
    ∃ p, iterate (CheckCmd.record c.C) (examined c rs) c.prepared = some p ∧
      out = p.2 ++ p.1.flatMap (RuleSet.finish c.C) := by
  unfold CheckCmd.run at h
  cases hl : filesLoop c.skip id (selBody c.sel.test c.body) files ⟨c.prepared, [], 0⟩ with
  | err e s => rw [hl] at h; simp at h
  | panic => rw [hl] at h; simp at h
  | ok s =>
    rw [hl] at h
    simp only [LoopResult.ok.injEq] at h
    have h1 := runSteps_sel (filesLoop_ok hi hl)
    have h2 := check_steps c (chosen c.sel.test rs) ⟨c.prepared, [], 0⟩ (by dsimp only; omega)
    rw [show (if c.limit = 0 then chosen c.sel.test rs else
        (chosen c.sel.test rs).take (c.limit - (⟨c.prepared, [], 0⟩ : CheckState).count)).map (·.record) =
        c.checked rs from rfl, checked_eq] at h2
    dsimp only at h2
    cases hit : iterate (CheckCmd.record c.C) (examined c rs) c.prepared with
    | none => rw [hit] at h2; rw [h2] at h1; simp at h1
    | some p =>
      rw [hit] at h2
      obtain ⟨n, hn⟩ := h2
      rw [hn] at h1
      simp only [Option.some.injEq] at h1
      subst h1
      exact ⟨p, rfl, by rw [← h, List.nil_append]⟩

end Pica.Props
