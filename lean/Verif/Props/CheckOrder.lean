import Verif.Lemmas.Check
import Verif.Props.Split
import Verif.Props.Checks

/-! # C45: the order of the rules -/

namespace Pica.Props
open Pica Spec

/-! ## simulation of record loops -/

/-- related outcomes of a loop body -/
inductive StepRel {S T : Type} (R : S → T → Prop) : Step S → Step T → Prop
  | next {s t} : R s t → StepRel R (.next s) (.next t)
  | stop {s t} : R s t → StepRel R (.stop s) (.stop t)
  | panic : StepRel R .panic .panic

/-- related outcomes of a loop -/
inductive LoopRel {S T : Type} (R : S → T → Prop) : LoopResult S → LoopResult T → Prop
  | ok {s t} : R s t → LoopRel R (.ok s) (.ok t)
  | err {e s t} : R s t → LoopRel R (.err e s) (.err e t)
  | panic : LoopRel R .panic .panic

theorem fileLoop_sim {S T : Type} {R : S → T → Prop} {skip : Bool} {f : S → ByteRecord → Step S}
    {g : T → ByteRecord → Step T} (h : ∀ s t r, R s t → StepRel R (f s r) (g t r)) (items : List Item) :
    ∀ s t, R s t →
    (∃ s' t', fileLoop skip id f items s = .eof s' ∧ fileLoop skip id g items t = .eof t' ∧ R s' t') ∨
    (∃ x y, fileLoop skip id f items s = .done x ∧ fileLoop skip id g items t = .done y ∧ LoopRel R x y) := by
  induction items with
  | nil => intro s t hr; exact .inl ⟨s, t, rfl, rfl, hr⟩
  | cons i items ih =>
    intro s t hr
    cases i with
    | error e =>
      rw [fileLoop, fileLoop]
      by_cases he : e.skipParse skip = true
      · rw [if_pos he, if_pos he]; exact ih s t hr
      · rw [if_neg he, if_neg he]; exact .inr ⟨_, _, rfl, rfl, .err hr⟩
    | ok r =>
      rw [fileLoop, fileLoop]
      have := h s t r hr
      revert this
      generalize f s r = x
      generalize g t r = y
      intro this
      cases this with
      | next h => exact ih _ _ h
      | stop h => exact .inr ⟨_, _, rfl, rfl, .ok h⟩
      | panic => exact .inr ⟨_, _, rfl, rfl, .panic⟩

theorem filesLoop_sim {S T : Type} {R : S → T → Prop} {skip : Bool} {f : S → ByteRecord → Step S}
    {g : T → ByteRecord → Step T} (h : ∀ s t r, R s t → StepRel R (f s r) (g t r))
    (files : List (String × Bytes)) : ∀ s t, R s t →
    LoopRel R (filesLoop skip id f files s) (filesLoop skip id g files t) := by
  induction files with
  | nil => intro s t hr; exact .ok hr
  | cons x files ih =>
    intro s t hr
    obtain ⟨name, content⟩ := x
    rw [filesLoop, filesLoop]
    rcases fileLoop_sim (skip := skip) h (readAll content (some name)) s t hr with
      ⟨s', t', h1, h2, h3⟩ | ⟨a, b, h1, h2, h3⟩
    · rw [h1, h2]; exact ih _ _ h3
    · rw [h1, h2]; exact h3

/-! ## permuted rules -/

theorem mapP_perm {α β : Type} (f : α → Option β) {l l' : List α} (h : l.Perm l') :
    (mapP f l = none ∧ mapP f l' = none) ∨
      ∃ ps ps', mapP f l = some ps ∧ mapP f l' = some ps' ∧ ps.Perm ps' := by
  induction h with
  | nil => exact .inr ⟨[], [], rfl, rfl, .nil⟩
  | cons a _ ih =>
    rw [mapP, mapP]
    cases f a with
    | none => exact .inl ⟨rfl, rfl⟩
    | some b =>
      rcases ih with ⟨h1, h2⟩ | ⟨ps, ps', h1, h2, h3⟩
      · left; rw [h1, h2]; exact ⟨rfl, rfl⟩
      · right; rw [h1, h2]; exact ⟨_, _, rfl, rfl, .cons b h3⟩
  | swap a b l =>
    simp only [mapP]
    cases f a with
    | none => left; cases f b <;> simp
    | some x =>
      cases f b with
      | none => left; simp
      | some y =>
        cases mapP f l with
        | none => left; simp
        | some ps => right; exact ⟨_, _, rfl, rfl, .swap x y ps⟩
  | trans _ _ ih1 ih2 =>
    rcases ih1 with ⟨h1, h2⟩ | ⟨ps, ps', h1, h2, h3⟩
    · rcases ih2 with ⟨h4, h5⟩ | ⟨qs, qs', h4, h5, h6⟩
      · exact .inl ⟨h1, h5⟩
      · rw [h2] at h4; simp at h4
    · rcases ih2 with ⟨h4, h5⟩ | ⟨qs, qs', h4, h5, h6⟩
      · rw [h2] at h4; simp at h4
      · rw [h2] at h4
        simp only [Option.some.injEq] at h4
        subst h4
        exact .inr ⟨_, _, h1, h5, h3.trans h6⟩

theorem mapP_map_congr {α β γ : Type} {f g : α → Option β} {e : β → γ} (h : ∀ a, (f a).map e = (g a).map e) :
    ∀ l : List α, (mapP f l).map (·.map e) = (mapP g l).map (·.map e) := by
  intro l
  induction l with
  | nil => rfl
  | cons a l ih =>
    rw [mapP, mapP]
    have ha := h a
    cases hf : f a with
    | none =>
      rw [hf] at ha
      cases hg : g a with
      | none => rfl
      | some _ => rw [hg] at ha; simp at ha
    | some b =>
      rw [hf] at ha
      cases hg : g a with
      | none => rw [hg] at ha; simp at ha
      | some b' =>
        rw [hg] at ha
        simp only [Option.map_some, Option.some.injEq] at ha
        cases hm : mapP f l with
        | none =>
          rw [hm] at ih
          cases hm' : mapP g l with
          | none => rfl
          | some _ => rw [hm'] at ih; simp at ih
        | some ps =>
          rw [hm] at ih
          cases hm' : mapP g l with
          | none => rw [hm'] at ih; simp at ih
          | some ps' =>
            rw [hm'] at ih
            simp only [Option.map_some, Option.some.injEq] at ih
            simp [ha, ih]

/-- the same rules in another order; no fast termination -/
def SameRules (s t : RuleSet) : Prop :=
  s.scope = t.scope ∧ s.fast = false ∧ t.fast = false ∧ s.rules.Perm t.rules

/-- the same environment except for the iteration orders, which are arbitrary -/
structure SameEnv (C D : CheckEnv) : Prop where
  E₀ : C.E₀ = D.E₀
  lossy : C.lossy = D.lossy
  trim : C.trim = D.trim
  permC : ∀ l, (C.iterLink l).Perm l
  permD : ∀ l, (D.iterLink l).Perm l

/-- the part `e` of a report does not depend on the order of the keys in the
message of `duplicates` -/
def Respects {β : Type} (C D : CheckEnv) (e : Report → β) : Prop :=
  C.iterDup = D.iterDup ∨ ∀ x m, e { x with message := m } = e x

theorem check_congr {C D : CheckEnv} (h : SameEnv C D) (r : Record) (c : Checks) :
    (c.check C r).map (fun x => (x.1, x.2.1)) = (c.check D r).map (fun x => (x.1, x.2.1)) ∧
      (C.iterDup = D.iterDup → c.check C r = c.check D r) := by
  cases c with
  | duplicates E ci q n sep =>
    simp only [Checks.check, h.lossy]
    refine ⟨?_, fun hd => ?_⟩
    · cases q.run E ⟨ci, bs "|", false, false⟩ r with
      | none => rfl
      | some rows =>
        simp only [Option.map_some, Option.some.injEq, Prod.mk.injEq, true_and]
        rw [Bool.eq_iff_iff, duplicatesCheck_iff, duplicatesCheck_iff]
    · have e : ∀ keys, duplicatesCheck C n keys = duplicatesCheck D n keys := by
        intro keys; unfold duplicatesCheck; rw [hd]
      simp only [e]
  | link E o s t m st => simp only [Checks.check, h.E₀]; exact ⟨trivial, fun _ => trivial⟩
  | allow | datetime | filter | isni | iso639 | jel | unicode =>
    simp only [Checks.check, h.lossy]; exact ⟨trivial, fun _ => trivial⟩

theorem run_congr {β : Type} {C D : CheckEnv} {e : Report → β} (h : SameEnv C D) (he : Respects C D e)
    (r : Record) (c : CheckRule) :
    (c.run C r).map (fun x => (x.1, x.2.1.map e)) = (c.run D r).map (fun x => (x.1, x.2.1.map e)) := by
  unfold CheckRule.run
  obtain ⟨h1, h2⟩ := check_congr h r c.check
  rcases he with hd | he
  · rw [h2 hd, h.E₀]
  · rw [h.E₀]
    cases hc : c.check.check C r with
    | none =>
      rw [hc] at h1
      cases hd : c.check.check D r with
      | none => rfl
      | some _ => rw [hd] at h1; simp at h1
    | some x =>
      rw [hc] at h1
      cases hd : c.check.check D r with
      | none => rw [hd] at h1; simp at h1
      | some y =>
        rw [hd] at h1
        obtain ⟨x1, x2, x3⟩ := x
        obtain ⟨y1, y2, y3⟩ := y
        simp only [Option.map_some, Option.some.injEq, Prod.mk.injEq] at h1
        obtain ⟨rfl, rfl⟩ := h1
        cases x2 with
        | false => rfl
        | true =>
          dsimp only
          cases r.ppn D.E₀ ⟨false⟩ with
          | none => rfl
          | some ppn =>
            simp only [Option.map_some, Option.some.injEq, Prod.mk.injEq, true_and, List.map_cons, List.map_nil]
            rw [← he ⟨ppn, c.id, c.level, x3⟩ y3]

theorem ruleStep_congr {β : Type} {C D : CheckEnv} {e : Report → β} (h : SameEnv C D) (he : Respects C D e)
    (b : Bool) (r : Record) (c : CheckRule) :
    (ruleStep C b r c).map (fun p => (p.1, p.2.map e)) = (ruleStep D b r c).map (fun p => (p.1, p.2.map e)) := by
  unfold ruleStep
  cases c.preprocess r with
  | none => rfl
  | some c' =>
    cases b with
    | false => rfl
    | true =>
      simp only [if_true, Option.map_map]
      exact run_congr h he r c'

theorem step_sim {β : Type} {C D : CheckEnv} {e : Report → β} (h : SameEnv C D) (he : Respects C D e)
    (r : Record) {s t : RuleSet} (hst : SameRules s t) :
    (s.step C r = none ∧ t.step D r = none) ∨ ∃ s' t' o o', s.step C r = some (s', o) ∧
      t.step D r = some (t', o') ∧ SameRules s' t' ∧ (o.map e).Perm (o'.map e) := by
  obtain ⟨hsc, hf, hf', hp⟩ := hst
  rw [step_eq C r s hf, step_eq D r t hf']
  have hscope : scopeValue C s.scope r = scopeValue D s.scope r := by
    unfold scopeValue; rw [h.E₀]
  rw [hscope, hsc]
  cases scopeValue D t.scope r with
  | none => exact .inl ⟨rfl, rfl⟩
  | some b =>
    simp only [Option.bind_some, together]
    have hcongr := mapP_map_congr (fun c => ruleStep_congr h he b r c) t.rules
    rcases mapP_perm (ruleStep C b r) hp with ⟨h1, h2⟩ | ⟨ps, ps', h1, h2, h3⟩
    · left
      rw [h2] at hcongr
      have : mapP (ruleStep D b r) t.rules = none := by
        cases hm : mapP (ruleStep D b r) t.rules with
        | none => rfl
        | some _ => rw [hm] at hcongr; simp at hcongr
      rw [h1, this]
      exact ⟨rfl, rfl⟩
    · right
      rw [h2] at hcongr
      cases hm : mapP (ruleStep D b r) t.rules with
      | none => rw [hm] at hcongr; simp at hcongr
      | some qs =>
        rw [hm] at hcongr
        simp only [Option.map_some, Option.some.injEq] at hcongr
        rw [h1]
        refine ⟨_, _, _, _, rfl, rfl, ⟨rfl, hf, hf', ?_⟩, ?_⟩
        · have e1 : ps'.map (·.1) = qs.map (·.1) := by
            have := congrArg (List.map (·.1)) hcongr
            simpa [List.map_map, Function.comp_def] using this
          dsimp only
          rw [← e1]
          exact h3.map _
        · have e2 : (ps'.flatMap (·.2)).map e = (qs.flatMap (·.2)).map e := by
            have := congrArg (List.flatMap (·.2)) hcongr
            simpa [List.flatMap_map, List.map_flatMap] using this
          rw [← e2]
          exact (h3.flatMap_right _).map e

theorem record_sim {β : Type} {C D : CheckEnv} {e : Report → β} (h : SameEnv C D) (he : Respects C D e)
    (r : Record) {ss ts : List RuleSet} (hst : All2 SameRules ss ts) :
    (CheckCmd.record C r ss = none ∧ CheckCmd.record D r ts = none) ∨
      ∃ ss' ts' o o', CheckCmd.record C r ss = some (ss', o) ∧ CheckCmd.record D r ts = some (ts', o') ∧
        All2 SameRules ss' ts' ∧ (o.map e).Perm (o'.map e) := by
  induction hst with
  | nil => exact .inr ⟨[], [], [], [], rfl, rfl, .nil, .nil⟩
  | cons hr _ ih =>
    rw [CheckCmd.record, CheckCmd.record]
    rcases step_sim h he r hr with ⟨h1, h2⟩ | ⟨s', t', o, o', h1, h2, h3, h4⟩
    · left; rw [h1, h2]; exact ⟨rfl, rfl⟩
    · rcases ih with ⟨h5, h6⟩ | ⟨ss', ts', p, p', h5, h6, h7, h8⟩
      · left; rw [h1, h2]; dsimp only; rw [h5, h6]; exact ⟨rfl, rfl⟩
      · right; rw [h1, h2]; dsimp only; rw [h5, h6]
        refine ⟨_, _, _, _, rfl, rfl, .cons h3 h7, ?_⟩
        rw [List.map_append, List.map_append]
        exact h4.append h8

/-- related states of the command -/
def StateRel {β : Type} (e : Report → β) (s t : CheckState) : Prop :=
  All2 SameRules s.rulesets t.rulesets ∧ (s.out.map e).Perm (t.out.map e) ∧ s.count = t.count

theorem finish_congr {β : Type} {C D : CheckEnv} (h : SameEnv C D) (e : Report → β) (c : CheckRule) :
    ((c.finish C).map e).Perm ((c.finish D).map e) := by
  unfold CheckRule.finish
  split
  · rename_i s
    refine List.Perm.map _ (List.Perm.map _ ?_)
    unfold LinkState.finish
    rw [h.lossy]
    exact List.Perm.filterMap _ ((h.permC _).trans (h.permD _).symm)
  · exact .nil

theorem sets_finish {β : Type} {C D : CheckEnv} (h : SameEnv C D) (e : Report → β) {ss ts : List RuleSet}
    (hst : All2 SameRules ss ts) :
    ((ss.flatMap (RuleSet.finish C)).map e).Perm ((ts.flatMap (RuleSet.finish D)).map e) := by
  rw [List.map_flatMap, List.map_flatMap]
  refine flatMap_all2_perm ?_ hst
  rintro s t ⟨_, _, _, hp⟩
  unfold RuleSet.finish
  rw [List.map_flatMap, List.map_flatMap]
  refine (hp.flatMap_right _).trans ?_
  have : ∀ l : List CheckRule, (l.flatMap (fun c => (c.finish C).map e)).Perm
      (l.flatMap (fun c => (c.finish D).map e)) := by
    intro l
    induction l with
    | nil => simp
    | cons c l ih => simp only [List.flatMap_cons]; exact (finish_congr h e c).append ih
  exact this _

theorem prepared_sim {c d : CheckCmd} (hf : c.filter = d.filter) (ht : c.tags = d.tags) (hC : c.C.trim = d.C.trim)
    (h : All2 SameRules c.rulesets d.rulesets) : All2 SameRules c.prepared d.prepared := by
  have hk : c.keeps = d.keeps := by funext r; unfold CheckCmd.keeps; rw [hf, ht, hC]
  unfold CheckCmd.prepared
  rw [hk]
  revert h
  generalize c.rulesets = ss
  generalize d.rulesets = ts
  intro h
  induction h with
  | nil => exact .nil
  | @cons s t ss ts hr _ ih =>
    obtain ⟨h1, h2, h3, h4⟩ := hr
    have hp : (s.rules.filter d.keeps).Perm (t.rules.filter d.keeps) := h4.filter _
    have he : (s.rules.filter d.keeps).isEmpty = (t.rules.filter d.keeps).isEmpty := by
      rw [Bool.eq_iff_iff, List.isEmpty_iff, List.isEmpty_iff]
      constructor
      · intro h; rw [h] at hp; exact hp.symm.eq_nil
      · intro h; rw [h] at hp; exact hp.eq_nil
    rw [List.map_cons, List.map_cons, List.filter_cons, List.filter_cons]
    dsimp only
    rw [he]
    split
    · exact .cons ⟨h1, h2, h3, hp⟩ ih
    · exact ih

/-- the outcomes of two runs, compared by the part `e` of their reports -/
theorem check_sim {β : Type} {c d : CheckCmd} {e : Report → β} (hskip : c.skip = d.skip) (hlim : c.limit = d.limit)
    (hsel : c.sel = d.sel) (hf : c.filter = d.filter) (ht : c.tags = d.tags)
    (hr : All2 SameRules c.rulesets d.rulesets) (h : SameEnv c.C d.C) (he : Respects c.C d.C e)
    (files : List (String × Bytes)) :
    LoopRel (fun o o' => (o.map e).Perm (o'.map e)) (c.run files) (d.run files) := by
  have hsim : LoopRel (StateRel e) (filesLoop c.skip id (selBody c.sel.test c.body) files ⟨c.prepared, [], 0⟩)
      (filesLoop d.skip id (selBody d.sel.test d.body) files ⟨d.prepared, [], 0⟩) := by
    rw [hskip, hsel]
    apply filesLoop_sim
    · rintro s t r ⟨h1, h2, h3⟩
      unfold selBody
      cases d.sel.test r with
      | none => exact .panic
      | some b =>
        cases b with
        | false => exact .next ⟨h1, h2, h3⟩
        | true =>
          dsimp only
          unfold CheckCmd.body
          rcases record_sim h he r.record h1 with ⟨h4, h5⟩ | ⟨ss', ts', o, o', h4, h5, h6, h7⟩
          · rw [h4, h5]; exact .panic
          · rw [h4, h5]
            dsimp only
            rw [hlim, h3]
            have hrel : StateRel e ⟨ss', s.out ++ o, t.count + 1⟩ ⟨ts', t.out ++ o', t.count + 1⟩ := by
              refine ⟨h6, ?_, rfl⟩
              rw [List.map_append, List.map_append]
              exact h2.append h7
            unfold limitStep
            split
            · exact .stop hrel
            · exact .next hrel
    · exact ⟨prepared_sim hf ht h.trim hr, .nil, rfl⟩
  unfold CheckCmd.run
  revert hsim
  generalize filesLoop c.skip id (selBody c.sel.test c.body) files ⟨c.prepared, [], 0⟩ = x
  generalize filesLoop d.skip id (selBody d.sel.test d.body) files ⟨d.prepared, [], 0⟩ = y
  intro hsim
  cases hsim with
  | ok hs =>
    obtain ⟨h1, h2, _⟩ := hs
    refine .ok ?_
    rw [List.map_append, List.map_append]
    exact h2.append (sets_finish h e h1)
  | err hs => exact .err hs.2.1
  | panic => exact .panic

/-- **C45** without fast termination, the multiset of reports does not depend on
the order of the rules and on the order in which the map of the link check is
iterated; also whether the command ends normally does not depend on it.
Missing: rule sets with `termination = "fast"`, see below. -/
theorem C45_order_partial (c : CheckCmd) (sets : List RuleSet) (hr : All2 SameRules c.rulesets sets)
    (iter : List (Bytes × List Bytes) → List (Bytes × List Bytes))
    (h1 : ∀ l, (c.C.iterLink l).Perm l) (h2 : ∀ l, (iter l).Perm l) (files : List (String × Bytes)) :
    LoopRel List.Perm (c.run files)
      ({ c with rulesets := sets, C := { c.C with iterLink := iter } }.run files) := by
  have := check_sim (c := c) (d := { c with rulesets := sets, C := { c.C with iterLink := iter } })
    (e := id) rfl rfl rfl rfl rfl hr ⟨rfl, rfl, rfl, h1, h2⟩ (.inl rfl) files
  simpa using this

/-- **C45** if also the iteration order of the map of the duplicates check varies,
the reports agree except for the messages. -/
theorem C45_maps_partial (c d : CheckCmd) (hskip : c.skip = d.skip) (hlim : c.limit = d.limit)
    (hsel : c.sel = d.sel) (hf : c.filter = d.filter) (ht : c.tags = d.tags)
    (hr : All2 SameRules c.rulesets d.rulesets) (h : SameEnv c.C d.C) (files : List (String × Bytes)) :
    LoopRel (fun o o' => (o.map (fun r => (r.ppn, r.rule, r.level))).Perm
      (o'.map (fun r => (r.ppn, r.rule, r.level)))) (c.run files) (d.run files) :=
  check_sim hskip hlim hsel hf ht hr h (.inr (fun _ _ => rfl)) files

/-- **C45** (modularity) without fast termination, a rule set reports what its
rules report when they are run alone. -/
theorem C45_modular_partial (c : CheckCmd) (hnf : c.NoFast) (files : List (String × Bytes))
    (rs : List ByteRecord) (hi : Input files rs) (out : List Report) (h : c.run files = .ok out) :
    out.Perm (c.prepared.flatMap (fun s => s.rules.flatMap (fun x =>
      ruleOut c.C s.scope ((limited c.limit (picked c.sel rs)).map (·.record)) x))) := by
  have := (check_ok hnf hi h).1
  unfold CheckCmd.checked at this
  rw [chosen_eq_picked] at this
  exact this

theorem run_result {C : CheckEnv} {r : Record} {c c' : CheckRule} {out : List Report} {b : Bool}
    (h : c.run C r = some (c', out, b)) : (b = false ∧ out = []) ∨ (b = true ∧ out.length = 1) := by
  unfold CheckRule.run at h
  split at h
  · simp at h
  · simp only [Option.some.injEq, Prod.mk.injEq] at h
    exact .inl ⟨h.2.2.symm, h.2.1.symm⟩
  · split at h
    · simp at h
    · simp only [Option.some.injEq, Prod.mk.injEq] at h
      exact .inr ⟨h.2.2.symm, by rw [← h.2.1]; rfl⟩

/-- **C45** with fast termination, at most one rule is reported for each record in
scope, and some rule is reported iff at least one rule of the set would report the
record, so *whether* a record is reported does not depend on the order of the rules
(*which* rule is reported does, see `C45_fast_false`).  The rules see the state they
have at this record; for rules other than `link` it is always the initial one. -/
theorem C45_fast_partial (C : CheckEnv) (r : Record) (rules rules' : List CheckRule) (hp : rules.Perm rules')
    (htotal : ∀ c ∈ rules, c.run C r ≠ none) :
    ∃ x y, RuleSet.checkRules C true r rules = some x ∧ RuleSet.checkRules C true r rules' = some y ∧
      x.2.length = y.2.length ∧ x.2.length ≤ 1 ∧
      (x.2.length = 1 ↔ ∃ c ∈ rules, ∃ c' out b, c.run C r = some (c', out, b) ∧ out ≠ []) ∧
      (∀ o ∈ x.2, ∃ c ∈ rules, ∃ c' b, c.run C r = some (c', [o], b)) := by
  have key : ∀ l : List CheckRule, (∀ c ∈ l, c.run C r ≠ none) →
      ∃ x, RuleSet.checkRules C true r l = some x ∧ x.2.length ≤ 1 ∧
        (x.2.length = 1 ↔ ∃ c ∈ l, ∃ c' out b, c.run C r = some (c', out, b) ∧ out ≠ []) ∧
        (∀ o ∈ x.2, ∃ c ∈ l, ∃ c' b, c.run C r = some (c', [o], b)) := by
    intro l
    induction l with
    | nil => intro _; exact ⟨_, rfl, by simp, by simp, by simp⟩
    | cons c l ih =>
      intro h
      obtain ⟨x, h1, h2, h3, h4⟩ := ih (fun c hc => h c (List.mem_cons_of_mem _ hc))
      rw [RuleSet.checkRules]
      cases hr : c.run C r with
      | none => exact absurd hr (h c (List.mem_cons_self ..))
      | some z =>
        obtain ⟨c', out, b⟩ := z
        rcases run_result hr with ⟨rfl, rfl⟩ | ⟨rfl, hlen⟩
        · simp only [Bool.true_and, Bool.false_eq_true, if_false]
          rw [h1]
          refine ⟨_, rfl, by simpa using h2, ?_, ?_⟩
          · simp only [List.nil_append]
            rw [h3]
            constructor
            · rintro ⟨d, hd, hx⟩; exact ⟨d, List.mem_cons_of_mem _ hd, hx⟩
            · rintro ⟨d, hd, hx⟩
              rcases List.mem_cons.1 hd with rfl | hd
              · obtain ⟨d', o, b', he, hne⟩ := hx
                rw [hr] at he
                simp only [Option.some.injEq, Prod.mk.injEq] at he
                exact absurd he.2.1.symm hne
              · exact ⟨d, hd, hx⟩
          · intro o ho
            obtain ⟨d, hd, hx⟩ := h4 o (by simpa using ho)
            exact ⟨d, List.mem_cons_of_mem _ hd, hx⟩
        · simp only [Bool.and_self, if_true]
          refine ⟨_, rfl, by simp [hlen], ?_, ?_⟩
          · simp only [hlen, true_iff]
            exact ⟨c, List.mem_cons_self .., c', out, true, hr, by intro hn; rw [hn] at hlen; simp at hlen⟩
          · intro o ho
            refine ⟨c, List.mem_cons_self .., c', true, ?_⟩
            rw [hr]
            obtain ⟨a, rfl⟩ := List.length_eq_one_iff.1 hlen
            simp only [List.mem_singleton] at ho
            rw [ho]
  obtain ⟨x, h1, h2, h3, h4⟩ := key rules htotal
  obtain ⟨y, k1, k2, k3, _⟩ := key rules' (fun c hc => htotal c (hp.mem_iff.2 hc))
  refine ⟨x, y, h1, k1, ?_, h2, h3, h4⟩
  have : x.2.length = 1 ↔ y.2.length = 1 := by
    rw [h3, k3]
    constructor
    · rintro ⟨c, hc, hx⟩; exact ⟨c, hp.mem_iff.1 hc, hx⟩
    · rintro ⟨c, hc, hx⟩; exact ⟨c, hp.mem_iff.2 hc, hx⟩
  omega

/-- a rule that no record passes -/
def failRule (id : String) : CheckRule :=
  ⟨bs id, none, .error, .filter toyEnv ⟨false⟩ (.single (.exists (.tag (bs "003@")) .none)) false⟩

/-- a check command with one rule set -/
def checkSample (fast : Bool) (rules : List CheckRule) : CheckCmd :=
  ⟨true, 0, noSelection, checkEnv, none, none, [⟨none, fast, rules⟩]⟩

/-- **C45** is false with fast termination: the first rule that fires is reported,
so the report depends on the iteration order of the hash map. -/
theorem C45_fast_false :
    (checkSample true [failRule "A", failRule "B"]).run [("a", recLine "1")] =
      .ok [⟨some (bs "1"), bs "A", .error, none⟩] ∧
    (checkSample true [failRule "B", failRule "A"]).run [("a", recLine "1")] =
      .ok [⟨some (bs "1"), bs "B", .error, none⟩] := by decide +kernel

example : (checkSample false [failRule "A", failRule "B"]).run [("a", recLine "1" ++ recLine "2")] =
    .ok [⟨some (bs "1"), bs "A", .error, none⟩, ⟨some (bs "1"), bs "B", .error, none⟩,
      ⟨some (bs "2"), bs "A", .error, none⟩, ⟨some (bs "2"), bs "B", .error, none⟩] := by decide +kernel

/-! ## the theorems on concrete rules -/

theorem swapRules (a b : CheckRule) : All2 SameRules [⟨none, false, [a, b]⟩] [⟨none, false, [b, a]⟩] :=
  .cons ⟨rfl, rfl, rfl, List.Perm.swap b a []⟩ .nil

example := C45_order_partial (checkSample false [failRule "A", failRule "B"]) [⟨none, false, [failRule "B", failRule "A"]⟩]
  (swapRules _ _) List.reverse (fun l => .refl l) (fun l => List.reverse_perm l) [("a", recLine "1" ++ recLine "2")]
example := C45_maps_partial (checkSample false [failRule "A", failRule "B"]) (checkSample false [failRule "B", failRule "A"])
  rfl rfl rfl rfl rfl (swapRules _ _) ⟨rfl, rfl, rfl, fun l => .refl l, fun l => .refl l⟩ [("a", recLine "1" ++ recLine "2")]
example := C45_modular_partial (checkSample false [failRule "A", failRule "B"]) (by simp [CheckCmd.NoFast, checkSample])
  [("a", recLine "1")] _ (input_of _) [⟨some (bs "1"), bs "A", .error, none⟩, ⟨some (bs "1"), bs "B", .error, none⟩]
  (by decide +kernel)
example := C45_fast_partial checkEnv (recOf "1").record [failRule "A", failRule "B"] [failRule "B", failRule "A"]
  (List.Perm.swap _ _ []) (by decide +kernel)

end Pica.Props
