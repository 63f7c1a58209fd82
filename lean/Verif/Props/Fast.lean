import Verif.Lemmas.Fast

/-! # C92: fast termination of rule sets -/

namespace Pica.Props
open Pica Spec

/-- the check of the rule is positive for the record -/
def Applies (C : CheckEnv) (r : Record) (x : CheckRule) : Prop :=
  ∃ y m, x.check.check C r = some (y, true, m)

/-- the report of a rule for a record: the PPN, the id and the level of the rule and the message
of its check -/
def IsReport (C : CheckEnv) (r : Record) (x : CheckRule) (o : Report) : Prop :=
  ∃ y m, x.check.check C r = some (y, true, m) ∧ r.ppn C.E₀ ⟨false⟩ = some o.ppn ∧
    o.rule = x.id ∧ o.level = x.level ∧ o.message = m

theorem applies_iff (C : CheckEnv) (r : Record) (x : CheckRule) : Applies C r x ↔ fires C r x = true := by
  unfold Applies fires
  constructor
  · rintro ⟨y, m, h⟩; rw [h]
  · intro h
    split at h
    · rename_i y b m he
      subst h
      exact ⟨_, _, he⟩
    · simp at h

theorem inScopeB_iff (C : CheckEnv) (scope : Option RecordMatcher) (r : Record) :
    inScopeB C scope r = true ↔ InScope C scope r := by
  rw [inScope_iff, inScopeB, beq_iff_eq]

/-- every element of a list with the elements before it -/
def withBefore {α : Type} : List α → List α → List (List α × α)
  | _, [] => []
  | p, x :: xs => (p, x) :: withBefore (p ++ [x]) xs

open Classical in
/-- the records for which a rule is asked if `before` are the rules before it in the set -/
noncomputable def asks (C : CheckEnv) (scope : Option RecordMatcher) (fast : Bool) (before : List CheckRule)
    (r : Record) : Bool :=
  decide (InScope C scope r ∧ (fast = true → ∀ y ∈ before, ¬ Applies C r y))

theorem asks_snoc (C : CheckEnv) (scope : Option RecordMatcher) (fast : Bool) (p : List CheckRule) (x : CheckRule)
    (r : Record) : asks C scope fast (p ++ [x]) r = (asks C scope fast p r && !(fast && fires C r x)) := by
  rw [Bool.eq_iff_iff]
  have ha := applies_iff C r x
  unfold asks
  cases fast <;> cases hf : fires C r x <;> simp [hf] at ha <;> simp [or_imp, forall_and, ha]

theorem annot_flatMap {β : Type} (C : CheckEnv) (scope : Option RecordMatcher) (fast : Bool) (g : AskedRule → List β) :
    ∀ (l p : List CheckRule), (annot C fast (asks C scope fast p) l).flatMap g =
      (withBefore p l).flatMap (fun q => g (asks C scope fast q.1, q.2)) := by
  intro l
  induction l with
  | nil => intro p; rfl
  | cons x l ih =>
    intro p
    rw [annot, withBefore, List.flatMap_cons, List.flatMap_cons, ← ih]
    congr 4
    funext r
    rw [asks_snoc]

theorem asks_nil (C : CheckEnv) (scope : Option RecordMatcher) (fast : Bool) :
    asks C scope fast [] = inScopeB C scope := by
  funext r
  rw [Bool.eq_iff_iff, inScopeB_iff]
  simp [asks]

theorem prepared_sets (c : CheckCmd) (f : RuleSet → List CheckRule → List Report)
    (hf : ∀ s rules, f { s with rules := rules } = f s) (hn : ∀ s, f s [] = []) :
    c.prepared.flatMap (fun s => f s s.rules) = c.rulesets.flatMap (fun s => f s (s.rules.filter c.keeps)) := by
  unfold CheckCmd.prepared
  generalize c.rulesets = ss
  induction ss with
  | nil => rfl
  | cons s ss ih =>
    rw [List.map_cons, List.filter_cons]
    split
    · rw [List.flatMap_cons, List.flatMap_cons, ih, hf]
    · rename_i h
      have : s.rules.filter c.keeps = [] := by simpa using h
      rw [List.flatMap_cons, ih, this, hn]
      rfl

open Classical in
/-- **C92** for all rules: the reports are those of the wanted rules, each taken alone; with fast
termination, a rule is asked for the records in scope to which none of the wanted rules before it
in the set applies. -/
theorem C92_reports (c : CheckCmd) (files : List (String × Bytes)) (rs : List ByteRecord) (hi : Input files rs)
    (out : List Report) (h : c.run files = .ok out) :
    out.Perm (c.rulesets.flatMap (fun s =>
      (withBefore [] (s.rules.filter (fun x => decide (Chosen c x)))).flatMap (fun q =>
        ruleWhere c.C (asks c.C s.scope s.fast q.1) (examined c rs) q.2))) := by
  obtain ⟨⟨ss, o⟩, h1, rfl⟩ := check_iterate hi h
  refine (asked_sets h1).trans ?_
  rw [prepared_sets c (fun s l => (annot c.C s.fast (inScopeB c.C s.scope) l).flatMap
    (fun a => ruleWhere c.C a.1 (examined c rs) a.2)) (fun _ _ => rfl) (fun _ => rfl)]
  refine List.Perm.of_eq ?_
  congr 1
  funext s
  rw [← asks_nil c.C s.scope s.fast, annot_flatMap]
  congr 3
  funext x
  rw [Bool.eq_iff_iff, keeps_iff]
  simp

theorem withBefore_append {α : Type} : ∀ (l p m : List α),
    withBefore p (l ++ m) = withBefore p l ++ withBefore (p ++ l) m := by
  intro l
  induction l with
  | nil => intro p m; simp [withBefore]
  | cons x l ih => intro p m; rw [List.cons_append, withBefore, ih, withBefore]; simp

theorem withBefore_mem {α : Type} {q : List α × α} : ∀ {l p : List α}, q ∈ withBefore p l → q.2 ∈ l := by
  intro l
  induction l with
  | nil => intro p h; simp [withBefore] at h
  | cons x l ih =>
    intro p h
    rw [withBefore, List.mem_cons] at h
    rcases h with rfl | h
    · simp
    · simp [ih h]

/-! ## rules without memory -/

/-- the report of a rule for a record -/
def theReport (C : CheckEnv) (r : Record) (x : CheckRule) : Report :=
  reportFor C x (match x.check.check C r with | some (_, _, m) => m | none => none) r

/-- the rules of a list that report a record: all that apply, with fast termination the first of
them -/
def reportingIn (C : CheckEnv) (fast : Bool) (r : Record) (xs : List CheckRule) : List CheckRule :=
  if fast then (xs.filter (fires C r)).take 1 else xs.filter (fires C r)

theorem run_report {C : CheckEnv} {r : Record} {x : CheckRule} {z : CheckRule × List Report × Bool}
    (h : x.run C r = some z) : (fires C r x = true → z.2.1 = [theReport C r x] ∧ IsReport C r x (theReport C r x)) ∧
      (fires C r x = false → z.2.1 = []) := by
  have hf := (run_kind h).2.2
  unfold CheckRule.run at h
  split at h
  · simp at h
  · simp only [Option.some.injEq] at h
    subst h
    exact ⟨fun h => by rw [hf] at h; simp at h, fun _ => rfl⟩
  · rename_i y m hk
    split at h
    · simp at h
    · rename_i ppn hppn
      simp only [Option.some.injEq] at h
      subst h
      have e : theReport C r x = ⟨ppn, x.id, x.level, m⟩ := by
        unfold theReport reportFor
        rw [hk, hppn]
        rfl
      refine ⟨fun _ => ⟨by rw [e], y, m, hk, by rw [e]; exact hppn, by rw [e], by rw [e], by rw [e]⟩, fun h => ?_⟩
      rw [hf] at h
      simp at h

theorem rules_report {C : CheckEnv} {fast : Bool} {r : Record} : ∀ {xs : List CheckRule}
    {y : List CheckRule × List Report}, RuleSet.checkRules C fast r xs = some y →
    y.2 = (reportingIn C fast r xs).map (theReport C r) ∧
      ∀ x ∈ reportingIn C fast r xs, IsReport C r x (theReport C r x) := by
  intro xs
  induction xs with
  | nil =>
    intro y h
    simp only [RuleSet.checkRules, Option.some.injEq] at h
    subst h
    cases fast <;> simp [reportingIn]
  | cons x xs ih =>
    intro y h
    rw [RuleSet.checkRules] at h
    cases hx : x.run C r with
    | none => rw [hx] at h; simp at h
    | some z =>
      obtain ⟨h1, h2⟩ := run_report hx
      have h3 := (run_kind hx).2.2
      obtain ⟨x', reports, result⟩ := z
      rw [hx] at h
      dsimp only at h h1 h2 h3
      cases hf : fires C r x with
      | false =>
        rw [hf] at h3
        subst h3
        simp only [Bool.and_false, Bool.false_eq_true, if_false] at h
        have e : reportingIn C fast r (x :: xs) = reportingIn C fast r xs := by
          unfold reportingIn
          rw [List.filter_cons_of_neg (by simp [hf])]
        rw [e]
        cases hxs : RuleSet.checkRules C fast r xs with
        | none => rw [hxs] at h; simp at h
        | some w =>
          rw [hxs] at h
          simp only [Option.some.injEq] at h
          subst h
          have := ih hxs
          rw [h2 hf]
          exact this
      | true =>
        rw [hf] at h3
        subst h3
        obtain ⟨g1, g2⟩ := h1 hf
        cases fast with
        | true =>
          simp only [Bool.and_self, if_true, Option.some.injEq] at h
          subst h
          have e : reportingIn C true r (x :: xs) = [x] := by
            unfold reportingIn
            rw [List.filter_cons_of_pos hf]
            simp
          rw [e]
          exact ⟨g1, by simpa using g2⟩
        | false =>
          simp only [Bool.false_and, Bool.false_eq_true, if_false] at h
          have e : reportingIn C false r (x :: xs) = x :: reportingIn C false r xs := by
            unfold reportingIn
            simp [List.filter_cons_of_pos hf]
          rw [e]
          cases hxs : RuleSet.checkRules C false r xs with
          | none => rw [hxs] at h; simp at h
          | some w =>
            rw [hxs] at h
            simp only [Option.some.injEq] at h
            subst h
            obtain ⟨k1, k2⟩ := ih hxs
            refine ⟨?_, ?_⟩
            · dsimp only
              rw [g1, k1]
              rfl
            · intro a ha
              rcases List.mem_cons.1 ha with rfl | ha
              · exact g2
              · exact k2 a ha

theorem memoryless_prep {r : Record} : ∀ {xs : List CheckRule}, (∀ x ∈ xs, Memoryless x.check) →
    mapP (CheckRule.preprocess r) xs = some xs := by
  intro xs
  induction xs with
  | nil => intro _; rfl
  | cons x xs ih =>
    intro hx
    have e : x.preprocess r = some x := by
      unfold CheckRule.preprocess
      rw [memoryless_preprocess (hx x (by simp))]
      rfl
    rw [mapP, e, ih (fun a ha => hx a (by simp [ha]))]
    rfl

/-- the rules of the set that report a record -/
def reportingSet (C : CheckEnv) (r : Record) (s : RuleSet) : List CheckRule :=
  if inScopeB C s.scope r then reportingIn C s.fast r s.rules else []

theorem set_report {C : CheckEnv} {r : Record} {s : RuleSet} {y : RuleSet × List Report}
    (hm : ∀ x ∈ s.rules, Memoryless x.check) (h : s.step C r = some y) :
    y.2 = (reportingSet C r s).map (theReport C r) ∧
      ∀ x ∈ reportingSet C r s, IsReport C r x (theReport C r x) := by
  unfold RuleSet.step RuleSet.preprocess at h
  rw [memoryless_prep hm] at h
  simp only [Option.map_some] at h
  unfold RuleSet.check at h
  unfold reportingSet
  split at h
  · simp at h
  · rename_i hs
    simp only [Option.some.injEq] at h
    subst h
    have : scopeValue C s.scope r = some false := hs
    simp [inScopeB, this]
  · rename_i hs
    rw [Option.map_eq_some_iff] at h
    obtain ⟨w, hw, rfl⟩ := h
    have : scopeValue C s.scope r = some true := hs
    have hin : inScopeB C s.scope r = true := by rw [inScopeB, this]; rfl
    rw [hin]
    exact rules_report hw

theorem record_report {C : CheckEnv} {r : Record} : ∀ {ss : List RuleSet} {y : List RuleSet × List Report},
    (∀ s ∈ ss, ∀ x ∈ s.rules, Memoryless x.check) → CheckCmd.record C r ss = some y →
    y.2 = ss.flatMap (fun s => (reportingSet C r s).map (theReport C r)) ∧
      ∀ s ∈ ss, ∀ x ∈ reportingSet C r s, IsReport C r x (theReport C r x) := by
  intro ss
  induction ss with
  | nil => intro y _ h; simp only [CheckCmd.record, Option.some.injEq] at h; subst h; simp
  | cons s ss ih =>
    intro y hm h
    rw [CheckCmd.record] at h
    cases hs : s.step C r with
    | none => rw [hs] at h; simp at h
    | some z =>
      obtain ⟨g1, g2⟩ := set_report (hm s (by simp)) hs
      rw [hs] at h
      obtain ⟨s', o⟩ := z
      dsimp only at h g1
      cases hss : CheckCmd.record C r ss with
      | none => rw [hss] at h; simp at h
      | some w =>
        rw [hss] at h
        simp only [Option.some.injEq] at h
        subst h
        obtain ⟨k1, k2⟩ := ih (fun a ha => hm a (by simp [ha])) hss
        refine ⟨?_, ?_⟩
        · dsimp only
          rw [List.flatMap_cons, g1, k1]
        · intro a ha
          rcases List.mem_cons.1 ha with rfl | ha
          · exact g2
          · exact k2 a ha

theorem iterate_report {C : CheckEnv} {ss : List RuleSet} (hm : ∀ s ∈ ss, ∀ x ∈ s.rules, Memoryless x.check) :
    ∀ {recs : List Record} {y : List RuleSet × List Report}, iterate (CheckCmd.record C) recs ss = some y →
      y.1 = ss ∧ y.2 = recs.flatMap (fun r => ss.flatMap (fun s => (reportingSet C r s).map (theReport C r))) ∧
      ∀ r ∈ recs, ∀ s ∈ ss, ∀ x ∈ reportingSet C r s, IsReport C r x (theReport C r x) := by
  intro recs
  induction recs with
  | nil => intro y h; simp only [iterate, Option.some.injEq] at h; subst h; simp
  | cons r recs ih =>
    intro y h
    rw [iterate] at h
    cases hr : CheckCmd.record C r ss with
    | none => rw [hr] at h; simp at h
    | some z =>
      have e := memoryless_record hm hr
      obtain ⟨g1, g2⟩ := record_report hm hr
      obtain ⟨ss', o⟩ := z
      dsimp only at e g1
      subst e
      rw [hr] at h
      dsimp only at h
      rw [Option.map_eq_some_iff] at h
      obtain ⟨w, hw, rfl⟩ := h
      obtain ⟨k0, k1, k2⟩ := ih hw
      refine ⟨k0, ?_, ?_⟩
      · dsimp only
        rw [List.flatMap_cons, g1, k1]
      · intro a ha
        rcases List.mem_cons.1 ha with rfl | ha
        · exact g2
        · exact k2 a ha

open Classical in
/-- the rules of a rule set that have to report a record: if it is in scope, the wanted rules that
apply to it, with fast termination the first of them only -/
noncomputable def reporting (c : CheckCmd) (r : Record) (s : RuleSet) : List CheckRule :=
  if InScope c.C s.scope r then
    let rules := s.rules.filter (fun x => decide (Chosen c x ∧ Applies c.C r x))
    if s.fast = true then rules.take 1 else rules
  else []

theorem reporting_eq (c : CheckCmd) (r : Record) (s : RuleSet) :
    reporting c r s = reportingSet c.C r { s with rules := s.rules.filter c.keeps } := by
  classical
  have e : s.rules.filter (fun x => decide (Chosen c x ∧ Applies c.C r x)) =
      (s.rules.filter c.keeps).filter (fires c.C r) := by
    rw [List.filter_filter]
    congr 1
    funext x
    rw [Bool.eq_iff_iff, Bool.and_eq_true, ← applies_iff, keeps_iff]
    simp [and_comm]
  unfold reporting reportingSet reportingIn
  by_cases h : InScope c.C s.scope r
  · rw [if_pos h, if_pos ((inScopeB_iff ..).2 h)]
    dsimp only
    rw [← e]
  · rw [if_neg h, if_neg (by simpa [← inScopeB_iff] using h)]

/-- **C92** without the check `link`, the command reports each record, for each rule set, by the
rules that apply, with fast termination by the first of them only; in the order of the records, of
the rule sets and of the rules. -/
theorem C92_first_partial (c : CheckCmd) (hm : ∀ s ∈ c.rulesets, ∀ x ∈ s.rules, Memoryless x.check)
    (files : List (String × Bytes)) (rs : List ByteRecord) (hi : Input files rs)
    (out : List Report) (h : c.run files = .ok out) :
    ∃ report : Record → CheckRule → Report,
      (∀ r ∈ examined c rs, ∀ s ∈ c.rulesets, ∀ x ∈ reporting c r s, IsReport c.C r x (report r x)) ∧
      out = (examined c rs).flatMap (fun r => c.rulesets.flatMap (fun s => (reporting c r s).map (report r))) := by
  have hm' : ∀ s ∈ c.prepared, ∀ x ∈ s.rules, Memoryless x.check := by
    intro s hs x hx
    obtain ⟨s0, h3, rfl⟩ := List.mem_map.1 (List.mem_filter.1 hs).1
    exact hm s0 h3 x (List.mem_filter.1 hx).1
  obtain ⟨⟨ss, o⟩, h1, rfl⟩ := check_iterate hi h
  obtain ⟨e1, e2, e3⟩ := iterate_report hm' h1
  dsimp only at e1 e2
  subst e1
  refine ⟨theReport c.C, ?_, ?_⟩
  · intro r hr s hs x hx
    rw [reporting_eq] at hx
    refine e3 r hr { s with rules := s.rules.filter c.keeps } ?_ x hx
    unfold CheckCmd.prepared
    refine List.mem_filter.2 ⟨List.mem_map.2 ⟨s, hs, rfl⟩, ?_⟩
    cases hl : s.rules.filter c.keeps with
    | nil =>
      rw [hl] at hx
      unfold reportingSet reportingIn at hx
      split at hx <;> simp at hx
    | cons => rfl
  · have hfin : c.prepared.flatMap (RuleSet.finish c.C) = [] := by
      rw [List.flatMap_eq_nil_iff]
      intro s hs
      unfold RuleSet.finish
      rw [List.flatMap_eq_nil_iff]
      intro x hx
      have := hm' s hs x hx
      unfold CheckRule.finish
      split
      · rename_i e; rw [e] at this; exact this.elim
      · rfl
    dsimp only
    rw [hfin, List.append_nil, e2]
    congr 1
    funext r
    rw [prepared_sets c (fun s l => (reportingSet c.C r { s with rules := l }).map (theReport c.C r))
      (fun _ _ => rfl) (fun s => by
        unfold reportingSet reportingIn
        split <;> simp)]
    simp only [reporting_eq]

theorem isReport_unique {C : CheckEnv} {r : Record} {x : CheckRule} {o o' : Report} (h : IsReport C r x o)
    (h' : IsReport C r x o') : o = o' := by
  obtain ⟨y, m, h1, h2, h3, h4, h5⟩ := h
  obtain ⟨y', m', h1', h2', h3', h4', h5'⟩ := h'
  rw [h1] at h1'
  rw [h2] at h2'
  simp only [Option.some.injEq, Prod.mk.injEq, true_and] at h1' h2'
  cases o
  cases o'
  simp_all

/-- the command with rule sets that differ in fast termination at most -/
def SlowCmd (c c' : CheckCmd) : Prop :=
  c' = { c with rulesets := c.rulesets.map (fun s => { s with fast := false }) }

/-- **C92** without the check `link`, fast termination loses reports but no reported record. -/
theorem C92_records_partial (c c' : CheckCmd) (hs : SlowCmd c c')
    (hm : ∀ s ∈ c.rulesets, ∀ x ∈ s.rules, Memoryless x.check)
    (files : List (String × Bytes)) (rs : List ByteRecord) (hi : Input files rs)
    (out out' : List Report) (h : c.run files = .ok out) (h' : c'.run files = .ok out') :
    (∀ o ∈ out, o ∈ out') ∧ ∀ ppn, (∃ o ∈ out, o.ppn = ppn) ↔ ∃ o ∈ out', o.ppn = ppn := by
  unfold SlowCmd at hs
  subst hs
  obtain ⟨f, h1, h2⟩ := C92_first_partial c hm files rs hi out h
  obtain ⟨g, h1', h2'⟩ := C92_first_partial _ (by
    intro s hs x hx
    obtain ⟨s0, hs0, rfl⟩ := List.mem_map.1 hs
    exact hm s0 hs0 x hx) files rs hi out' h'
  subst h2
  subst h2'
  have he : examined { c with rulesets := c.rulesets.map (fun s => { s with fast := false }) } rs = examined c rs := rfl
  rw [he] at h1'
  -- the rules that report
  have sub : ∀ r s, ∀ x ∈ reporting c r s,
      x ∈ reporting { c with rulesets := c.rulesets.map (fun s => { s with fast := false }) } r { s with fast := false } := by
    intro r s x hx
    unfold reporting at hx ⊢
    split at hx
    · rename_i hin
      rw [if_pos hin]
      dsimp only at hx ⊢
      split at hx
      · exact List.mem_of_mem_take hx
      · exact hx
    · simp at hx
  have some : ∀ r s, ∀ x ∈ reporting { c with rulesets := c.rulesets.map (fun s => { s with fast := false }) } r
      { s with fast := false }, ∃ y, y ∈ reporting c r s := by
    intro r s x hx
    unfold reporting at hx ⊢
    split at hx
    · rename_i hin
      rw [if_pos hin]
      simp only [Bool.false_eq_true, if_false] at hx
      dsimp only
      split
      · apply List.exists_mem_of_ne_nil
        intro hnil
        rw [List.take_eq_nil_iff] at hnil
        rcases hnil with hnil | hnil
        · simp at hnil
        · have hx' : x ∈ ([] : List CheckRule) := by
            rw [← hnil]
            exact hx
          simp at hx'
      · exact ⟨x, hx⟩
    · simp at hx
  have inc : ∀ o ∈ (examined c rs).flatMap (fun r => c.rulesets.flatMap (fun s => (reporting c r s).map (f r))),
      o ∈ (examined c rs).flatMap (fun r => (c.rulesets.map (fun s => { s with fast := false })).flatMap (fun s =>
        (reporting { c with rulesets := c.rulesets.map (fun s => { s with fast := false }) } r s).map (g r))) := by
    intro o ho
    obtain ⟨r, hr, ho⟩ := List.mem_flatMap.1 ho
    obtain ⟨s, hs, ho⟩ := List.mem_flatMap.1 ho
    obtain ⟨x, hx, rfl⟩ := List.mem_map.1 ho
    have hx' := sub r s x hx
    have hs' : ({ s with fast := false } : RuleSet) ∈ c.rulesets.map (fun s => { s with fast := false }) :=
      List.mem_map.2 ⟨s, hs, rfl⟩
    refine List.mem_flatMap.2 ⟨r, hr, List.mem_flatMap.2 ⟨_, hs', List.mem_map.2 ⟨x, hx', ?_⟩⟩⟩
    exact isReport_unique (h1' r hr _ hs' x hx') (h1 r hr s hs x hx)
  refine ⟨inc, fun ppn => ⟨fun ⟨o, ho, hp⟩ => ⟨o, inc o ho, hp⟩, ?_⟩⟩
  rintro ⟨o, ho, rfl⟩
  rw [he] at ho
  obtain ⟨r, hr, ho⟩ := List.mem_flatMap.1 ho
  obtain ⟨s', hs', ho⟩ := List.mem_flatMap.1 ho
  obtain ⟨x, hx, rfl⟩ := List.mem_map.1 ho
  have hx1 := h1' r hr s' hs' x hx
  obtain ⟨s, hs, rfl⟩ := List.mem_map.1 hs'
  obtain ⟨y, hy⟩ := some r s x hx
  refine ⟨f r y, List.mem_flatMap.2 ⟨r, hr, List.mem_flatMap.2 ⟨s, hs, List.mem_map.2 ⟨y, hy, rfl⟩⟩⟩, ?_⟩
  obtain ⟨_, _, _, hp, _⟩ := h1 r hr s hs y hy
  obtain ⟨_, _, _, hp', _⟩ := hx1
  rw [hp, Option.some.injEq] at hp'
  exact hp'

/-- **C92** is false with the check `link`, which is asked but reports at the end only: behind the
link check, the second rule reports the record too; before it, the dangling link is lost. -/
theorem C92_link_false :
    (checkSample true [linkSample.rule (bs "L") none .error ⟨[], []⟩, failRule "A"]).run
      [("a", linkLine "1" "9")] =
      .ok [⟨some (bs "1"), bs "A", .error, none⟩, ⟨some (bs "1"), bs "L", .error, some (bs "9")⟩] ∧
    (checkSample true [failRule "A", linkSample.rule (bs "L") none .error ⟨[], []⟩]).run
      [("a", linkLine "1" "9")] = .ok [⟨some (bs "1"), bs "A", .error, none⟩] := by
  decide +kernel

/-! ## all rules -/

theorem runStep_id {C : CheckEnv} {b : Bool} {r : Record} {x : CheckRule} {z : CheckRule × List Report}
    (h : ruleStep C b r x = some z) : z.1.id = x.id ∧ ∀ o ∈ z.2, o.rule = x.id := by
  unfold ruleStep at h
  cases hp : x.preprocess r with
  | none => rw [hp] at h; simp at h
  | some y =>
    have hy : y.id = x.id := by
      unfold CheckRule.preprocess at hp
      rw [Option.map_eq_some_iff] at hp
      obtain ⟨_, _, rfl⟩ := hp
      rfl
    rw [hp] at h
    dsimp only at h
    cases b with
    | false =>
      simp only [Bool.false_eq_true, if_false, Option.some.injEq] at h
      subst h
      exact ⟨hy, by simp⟩
    | true =>
      simp only [if_true] at h
      rw [Option.map_eq_some_iff] at h
      obtain ⟨w, hw, rfl⟩ := h
      unfold CheckRule.run at hw
      split at hw
      · simp at hw
      · simp only [Option.some.injEq] at hw
        subst hw
        exact ⟨hy, by simp⟩
      · split at hw
        · simp at hw
        · simp only [Option.some.injEq] at hw
          subst hw
          exact ⟨hy, by simpa using hy⟩

theorem ruleWhere_id {C : CheckEnv} {act : Record → Bool} {recs : List Record} {x : CheckRule} :
    ∀ o ∈ ruleWhere C act recs x, o.rule = x.id := by
  have key : ∀ (recs : List Record) (x : CheckRule) z, iterate (fun r => ruleStep C (act r) r) recs x = some z →
      z.1.id = x.id ∧ ∀ o ∈ z.2, o.rule = x.id := by
    intro recs
    induction recs with
    | nil => intro x z h; simp only [iterate, Option.some.injEq] at h; subst h; simp
    | cons r recs ih =>
      intro x z h
      rw [iterate] at h
      cases hs : ruleStep C (act r) r x with
      | none => rw [hs] at h; simp at h
      | some q =>
        rw [hs] at h
        dsimp only at h
        obtain ⟨h1, h2⟩ := runStep_id hs
        rw [Option.map_eq_some_iff] at h
        obtain ⟨w, hw, rfl⟩ := h
        obtain ⟨k1, k2⟩ := ih q.1 w hw
        refine ⟨k1.trans h1, ?_⟩
        intro o ho
        rcases List.mem_append.1 ho with ho | ho
        · exact h2 o ho
        · rw [k2 o ho]; exact h1
  intro o ho
  unfold ruleWhere at ho
  split at ho
  · simp at ho
  · rename_i p hp
    obtain ⟨h1, h2⟩ := key recs x p hp
    rcases List.mem_append.1 ho with ho | ho
    · exact h2 o ho
    · unfold CheckRule.finish at ho
      split at ho
      · obtain ⟨y, _, rfl⟩ := List.mem_map.1 ho
        exact h1
      · simp at ho

open Classical in
/-- **C92** every rule, also `link`: a wanted rule whose id no other rule has reports what it
reports alone, asked for the records in scope to which, with fast termination, none of the wanted
rules before it in the set applies. -/
theorem C92_rule (c : CheckCmd) (A B : List RuleSet) (scope : Option RecordMatcher) (fast : Bool)
    (X Y : List CheckRule) (x : CheckRule) (hsets : c.rulesets = A ++ [⟨scope, fast, X ++ [x] ++ Y⟩] ++ B)
    (hu : ∀ y ∈ A.flatMap RuleSet.rules ++ X ++ Y ++ B.flatMap RuleSet.rules, y.id ≠ x.id) (hw : Chosen c x)
    (files : List (String × Bytes)) (rs : List ByteRecord) (hi : Input files rs)
    (out : List Report) (h : c.run files = .ok out) :
    (out.filter (fun o => o.rule == x.id)).Perm (ruleWhere c.C (fun r => decide (InScope c.C scope r ∧
      (fast = true → ∀ y ∈ X, Chosen c y → ¬ Applies c.C r y))) (examined c rs) x) := by
  have h1 := (C92_reports c files rs hi out h).filter (fun o => o.rule == x.id)
  have hnil : ∀ (p Z : List CheckRule) (s : Option RecordMatcher) (f : Bool), (∀ y ∈ Z, y.id ≠ x.id) →
      ((withBefore p (Z.filter (fun x => decide (Chosen c x)))).flatMap (fun q =>
        ruleWhere c.C (asks c.C s f q.1) (examined c rs) q.2)).filter (fun o => o.rule == x.id) = [] := by
    intro p Z s f hZ
    rw [List.filter_eq_nil_iff]
    intro o ho
    obtain ⟨q, hq, ho⟩ := List.mem_flatMap.1 ho
    rw [ruleWhere_id o ho]
    simpa using hZ _ (List.mem_filter.1 (withBefore_mem hq)).1
  have hsets' : ∀ Z : List RuleSet, (∀ y ∈ Z.flatMap RuleSet.rules, y.id ≠ x.id) →
      (Z.flatMap (fun s => (withBefore [] (s.rules.filter (fun x => decide (Chosen c x)))).flatMap (fun q =>
        ruleWhere c.C (asks c.C s.scope s.fast q.1) (examined c rs) q.2))).filter (fun o => o.rule == x.id) = [] := by
    intro Z hZ
    rw [List.filter_eq_nil_iff]
    intro o ho
    obtain ⟨s, hs, ho⟩ := List.mem_flatMap.1 ho
    have := hnil [] s.rules s.scope s.fast (fun y hy => hZ y (List.mem_flatMap.2 ⟨s, hs, hy⟩))
    rw [List.filter_eq_nil_iff] at this
    exact this o ho
  rw [hsets, List.flatMap_append, List.flatMap_append, List.filter_append, List.filter_append,
    hsets' A (fun y hy => hu y (by simp [hy])), hsets' B (fun y hy => hu y (by simp [hy]))] at h1
  simp only [List.nil_append, List.append_nil, List.flatMap_cons, List.flatMap_nil, List.filter_append,
    withBefore_append, List.flatMap_append] at h1
  rw [hnil [] X scope fast (fun y hy => hu y (by simp [hy])), hnil _ Y scope fast (fun y hy => hu y (by simp [hy])),
    List.nil_append, List.append_nil, List.filter_cons_of_pos (by simpa using hw), List.filter_nil, withBefore, withBefore,
    List.flatMap_cons, List.flatMap_nil, List.append_nil] at h1
  dsimp only at h1
  have hself : ∀ act, (ruleWhere c.C act (examined c rs) x).filter (fun o => o.rule == x.id) =
      ruleWhere c.C act (examined c rs) x := fun act =>
    List.filter_eq_self.2 (fun o ho => by rw [ruleWhere_id o ho]; simp)
  rw [hself] at h1
  have e : asks c.C scope fast (X.filter (fun x => decide (Chosen c x))) = fun r => decide (InScope c.C scope r ∧
      (fast = true → ∀ y ∈ X, Chosen c y → ¬ Applies c.C r y)) := by
    funext r
    rw [Bool.eq_iff_iff]
    simp [asks, List.mem_filter]
  rw [← e]
  exact h1

/-! ## the theorems on concrete rules -/

theorem fastSample_memoryless (fast : Bool) : ∀ s ∈ (checkSample fast [failRule "A", failRule "B"]).rulesets,
    ∀ x ∈ s.rules, Memoryless x.check := by
  intro s hs x hx
  simp only [checkSample, List.mem_singleton] at hs
  subst hs
  simp only [List.mem_cons, List.not_mem_nil, or_false] at hx
  rcases hx with rfl | rfl <;> trivial

example := C92_first_partial (checkSample true [failRule "A", failRule "B"]) (fastSample_memoryless true)
  [("a", recLine "1" ++ recLine "2")] _ (input_of _)
  [⟨some (bs "1"), bs "A", .error, none⟩, ⟨some (bs "2"), bs "A", .error, none⟩] (by decide +kernel)
example := C92_records_partial (checkSample true [failRule "A", failRule "B"])
  (checkSample false [failRule "A", failRule "B"]) rfl (fastSample_memoryless true)
  [("a", recLine "1")] _ (input_of _)
  [⟨some (bs "1"), bs "A", .error, none⟩]
  [⟨some (bs "1"), bs "A", .error, none⟩, ⟨some (bs "1"), bs "B", .error, none⟩]
  (by decide +kernel) (by decide +kernel)
example := C92_reports (checkSample true [failRule "A", linkSample.rule (bs "L") none .error ⟨[], []⟩])
  [("a", linkLine "1" "9")] _ (input_of _) [⟨some (bs "1"), bs "A", .error, none⟩] (by decide +kernel)
example := C92_rule (checkSample true [linkSample.rule (bs "L") none .error ⟨[], []⟩, failRule "A"]) [] [] none true
  [] [failRule "A"] (linkSample.rule (bs "L") none .error ⟨[], []⟩) rfl
  (by
    intro y hy
    simp only [List.flatMap_nil, List.nil_append, List.append_nil, List.mem_singleton] at hy
    subst hy
    decide +kernel)
  ((keeps_iff _ _).1 (by decide +kernel)) [("a", linkLine "1" "9")] _ (input_of _)
  [⟨some (bs "1"), bs "A", .error, none⟩, ⟨some (bs "1"), bs "L", .error, some (bs "9")⟩] (by decide +kernel)

end Pica.Props
