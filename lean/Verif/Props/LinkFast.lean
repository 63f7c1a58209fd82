import Verif.Props.Fast

/-! # C40, C86: link checks in every rule set, also with fast termination -/

namespace Pica.Props
open Pica Spec

/-! ## the claim -/

namespace LinkSpec
variable (L : LinkSpec)

/-- the source values of a record if the rule is asked for it -/
def sourcesIf (act : Record → Bool) (r : Record) : List Bytes :=
  if act r then (L.source.values L.E L.o r).getD [] else []

/-- the source values of the records with the IDN `p` for which the rule is asked and that are not
target values, in order -/
def danglingsIf (act : Record → Bool) (recs : List Record) (p : Bytes) : List Bytes :=
  ((recs.filter (fun r => L.idn r == p)).flatMap (L.sourcesIf act)).filter
    (fun v => !(recs.flatMap L.targets).contains v)

/-- the message of the report for the IDN `p` -/
def messageIf (act : Record → Bool) (recs : List Record) (p : Bytes) : Bytes :=
  joinText (bs ", ") ((L.danglingsIf act recs p).map L.C.lossy)

theorem mem_danglingsIf (act : Record → Bool) (recs : List Record) (p v : Bytes) :
    v ∈ L.danglingsIf act recs p ↔ (∃ r ∈ recs, L.idn r = p ∧ act r = true ∧
      v ∈ (L.source.values L.E L.o r).getD []) ∧ ∀ r' ∈ recs, v ∉ L.targets r' := by
  unfold danglingsIf sourcesIf
  simp only [List.mem_filter, List.mem_flatMap, beq_iff_eq, Bool.not_eq_true', List.contains_eq_mem,
    decide_eq_false_iff_not, not_exists, not_and]
  refine and_congr_left (fun _ => ⟨?_, ?_⟩)
  · rintro ⟨r, ⟨hr, hp⟩, hv⟩
    by_cases ha : act r = true
    · rw [if_pos ha] at hv; exact ⟨r, hr, hp, ha, hv⟩
    · rw [if_neg ha] at hv; simp at hv
  · rintro ⟨r, hr, hp, ha, hv⟩
    exact ⟨r, ⟨hr, hp⟩, by rw [if_pos ha]; exact hv⟩

end LinkSpec

/-! ## the invariant -/

/-- the state after the records `recs` -/
structure LinkInvIf (L : LinkSpec) (act : Record → Bool) (recs : List Record) (s : LinkState) : Prop where
  seen : s.seen = recs.flatMap L.targets
  keys : (s.unseen.map (·.1)).Nodup
  unseen : ∀ (p : Bytes) (S : List Bytes), (∀ v ∈ s.seen, v ∈ S) →
    (listAt s.unseen p).filter (fun v => !S.contains v) =
      ((recs.filter (fun r => L.idn r == p)).flatMap (L.sourcesIf act)).filter (fun v => !S.contains v)

theorem linkIf_step {L : LinkSpec} {act : Record → Bool} {recs : List Record} {s : LinkState}
    (hi : LinkInvIf L act recs s) {r : Record}
    {id : Bytes} {tags : Option (List Bytes)} {level : CheckLevel} {p : CheckRule × List Report}
    (h : ruleStep L.C (act r) r (L.rule id tags level s) = some p) :
    p.2 = [] ∧ ∃ s', p.1 = L.rule id tags level s' ∧ LinkInvIf L act (recs ++ [r]) s' := by
  unfold ruleStep CheckRule.preprocess LinkSpec.rule Checks.preprocess at h
  dsimp only at h
  cases hp : linkPreprocess L.E L.o L.target L.matcher s r with
  | none => rw [hp] at h; simp at h
  | some s1 =>
    rw [hp] at h
    simp only [Option.map_some] at h
    have h1 := preprocess_link hp
    have hseen : s1.seen = (recs ++ [r]).flatMap L.targets := by
      rw [h1, hi.seen]; simp
    have hsub : ∀ v ∈ s.seen, v ∈ s1.seen := by
      rw [h1]; intro v hv; exact List.mem_append_left _ hv
    cases ha : act r with
    | false =>
      rw [ha] at h
      simp only [Bool.false_eq_true, if_false, Option.some.injEq] at h
      subst h
      refine ⟨rfl, s1, rfl, hseen, by rw [h1]; exact hi.keys, ?_⟩
      intro q S hS
      have := hi.unseen q S (fun v hv => hS v (hsub v hv))
      have hu : s1.unseen = s.unseen := by rw [h1]
      have hs0 : L.sourcesIf act r = [] := by unfold LinkSpec.sourcesIf; rw [ha]; simp
      rw [hu, this]
      congr 1
      rw [List.filter_append, List.flatMap_append]
      have : (([r] : List Record).filter (fun r => L.idn r == q)).flatMap (L.sourcesIf act) = [] := by
        rw [List.filter_cons]
        split <;> simp [hs0]
      rw [this, List.append_nil]
    | true =>
      rw [ha] at h
      simp only [if_true] at h
      unfold CheckRule.run Checks.check at h
      dsimp only at h
      obtain ⟨ppn, hppn⟩ : ∃ ppn, r.ppn L.C.E₀ ⟨false⟩ = some ppn := ⟨_, (C23_ppn L.C.E₀ ⟨false⟩ r).1⟩
      rw [hppn] at h
      cases hv : L.source.values L.E L.o r with
      | none => rw [hv] at h; simp at h
      | some vs =>
        rw [hv] at h
        simp only [Option.map_some, Option.some.injEq] at h
        subst h
        refine ⟨rfl, s1.note (ppn.getD []) vs, rfl, ?_, ?_, ?_⟩
        · rw [← hseen]; rfl
        · apply note_keys; rw [h1]; exact hi.keys
        · intro q S hS
          have hS1 : ∀ v ∈ s1.seen, v ∈ S := hS
          have := hi.unseen q S (fun v hv => hS1 v (hsub v hv))
          have hu : s1.unseen = s.unseen := by rw [h1]
          have hs0 : L.sourcesIf act r = vs := by
            unfold LinkSpec.sourcesIf; rw [ha, hv]; simp
          have hid : L.idn r = ppn.getD [] := by unfold LinkSpec.idn; rw [hppn]; rfl
          rw [note_listAt, List.filter_append, List.flatMap_append, List.filter_append, ← this, hu]
          by_cases hq : q = ppn.getD []
          · rw [if_pos hq, List.filter_append, filter_notin_mono hS1]
            congr 1
            rw [List.filter_cons, hid, hq]
            simp [hs0]
          · rw [if_neg hq, List.filter_cons, hid]
            have : (ppn.getD [] == q) = false := by
              simp only [beq_eq_false_iff_ne, ne_eq]; exact fun h => hq h.symm
            rw [this]
            simp

theorem linkIf_iterate {L : LinkSpec} {act : Record → Bool} {id : Bytes} {tags : Option (List Bytes)}
    {level : CheckLevel} :
    ∀ (recs pre : List Record) (s : LinkState) (p : CheckRule × List Report), LinkInvIf L act pre s →
    iterate (fun r => ruleStep L.C (act r) r) recs (L.rule id tags level s) = some p →
    p.2 = [] ∧ ∃ s', p.1 = L.rule id tags level s' ∧ LinkInvIf L act (pre ++ recs) s' := by
  intro recs
  induction recs with
  | nil =>
    intro pre s p hi h
    simp only [iterate, Option.some.injEq] at h
    subst h
    exact ⟨rfl, s, rfl, by rw [List.append_nil]; exact hi⟩
  | cons r recs ih =>
    intro pre s p hi h
    rw [iterate] at h
    cases hs : ruleStep L.C (act r) r (L.rule id tags level s) with
    | none => rw [hs] at h; simp at h
    | some q =>
      rw [hs] at h
      obtain ⟨q1, q2⟩ := q
      obtain ⟨h1, s1, h2, h3⟩ := linkIf_step hi hs
      dsimp only at h h1 h2
      rw [h2] at h
      rw [Option.map_eq_some_iff] at h
      obtain ⟨z, ht, rfl⟩ := h
      obtain ⟨k1, s2, k2, k3⟩ := ih (pre ++ [r]) s1 z h3 ht
      refine ⟨by simp [h1, k1], s2, k2, ?_⟩
      simpa using k3

/-- a link rule that is asked for some records reports every IDN whose message is not empty once -/
theorem linkIf_reports {L : LinkSpec} {act : Record → Bool} {recs : List Record} {id : Bytes}
    {tags : Option (List Bytes)} {level : CheckLevel} (hperm : ∀ l, (L.C.iterLink l).Perm l)
    (hrun : ∃ q, iterate (fun r => ruleStep L.C (act r) r) recs (L.rule id tags level ⟨[], []⟩) = some q) :
    ∃ K : List Bytes, K.Nodup ∧ (∀ p, p ∈ K ↔ L.messageIf act recs p ≠ []) ∧
      ruleWhere L.C act recs (L.rule id tags level ⟨[], []⟩) =
        K.map (fun p => linkReport id level p (L.messageIf act recs p)) := by
  obtain ⟨q, hq⟩ := hrun
  obtain ⟨h1, s, h2, h3⟩ := linkIf_iterate recs [] ⟨[], []⟩ q
    ⟨rfl, by simp, fun p S _ => by simp [listAt]⟩ hq
  rw [List.nil_append] at h3
  have hd : ∀ p, (listAt s.unseen p).filter (fun v => !s.seen.contains v) = L.danglingsIf act recs p := by
    intro p
    rw [h3.unseen p s.seen (fun v hv => hv), h3.seen]; rfl
  have hkeys : ((L.C.iterLink s.unseen).map (·.1)).Nodup := ((hperm s.unseen).map _).nodup_iff.2 h3.keys
  have hmsg : ∀ x ∈ L.C.iterLink s.unseen,
      joinText (bs ", ") ((x.2.filter (fun v => !s.seen.contains v)).map L.C.lossy) = L.messageIf act recs x.1 := by
    intro x hx
    rw [← listAt_mem h3.keys ((hperm _).mem_iff.1 hx), hd]; rfl
  refine ⟨((L.C.iterLink s.unseen).map (·.1)).filter (fun p => !(L.messageIf act recs p).isEmpty),
    hkeys.filter _, ?_, ?_⟩
  · intro p
    rw [List.mem_filter]
    constructor
    · rintro ⟨_, h⟩ he
      rw [he] at h
      simp at h
    · intro hne
      refine ⟨?_, ?_⟩
      · have hnil : listAt s.unseen p ≠ [] := by
          intro h
          apply hne
          unfold LinkSpec.messageIf
          rw [← hd, h]
          rfl
        exact List.mem_map.2 ⟨_, (hperm _).mem_iff.2 (mem_of_listAt hnil), rfl⟩
      · cases hm : L.messageIf act recs p with
        | nil => exact absurd hm hne
        | cons => rfl
  · unfold ruleWhere
    rw [hq]
    dsimp only
    rw [h1, h2, List.nil_append]
    show (s.finish L.C.lossy L.C.iterLink).map (fun x =>
      (⟨if x.1.isEmpty then none else some x.1, id, level, x.2⟩ : Report)) = _
    unfold LinkState.finish
    revert hmsg
    generalize L.C.iterLink s.unseen = t
    intro hmsg
    induction t with
    | nil => rfl
    | cons x t ih =>
      have e := hmsg x (by simp)
      rw [List.filterMap_cons, List.map_cons, List.filter_cons]
      dsimp only
      rw [e]
      split
      · rename_i h0
        split at h0
        · simp at h0
        · rename_i hb
          rw [if_neg hb]
          exact ih (fun y hy => hmsg y (by simp [hy]))
      · rename_i b hb
        split at hb
        · rename_i hc
          simp only [Option.some.injEq] at hb
          subst hb
          rw [if_pos hc, List.map_cons, List.map_cons, ih (fun y hy => hmsg y (by simp [hy]))]
          rfl
        · simp at hb

/-! ## the rules of a command -/

theorem annot_map (C : CheckEnv) (scope : Option RecordMatcher) (fast : Bool) (l p : List CheckRule) :
    annot C fast (asks C scope fast p) l = (withBefore p l).map (fun q => (asks C scope fast q.1, q.2)) := by
  have := annot_flatMap C scope fast (fun a => [a]) l p
  rw [List.map_eq_flatMap]
  simpa using this

theorem set_runs {C : CheckEnv} {recs : List Record} {s : RuleSet} {z : RuleSet × List Report}
    (h : iterate (fun r s => RuleSet.step C r s) recs s = some z) :
    ∀ a ∈ annot C s.fast (inScopeB C s.scope) s.rules,
      ∃ q, iterate (fun r => ruleStep C (a.1 r) r) recs a.2 = some q := by
  intro a ha
  have hi := asked_iterate h
  rcases iterate_together (askedStep C) recs (annot C s.fast (inScopeB C s.scope) s.rules) with
    ⟨_, h2⟩ | ⟨ps, out, h1, h2, h3⟩
  · rw [h2] at hi; simp at hi
  · rw [mapP_eq_some] at h1
    have : iterate (askedStep C) recs a ∈ ps.map some := h1 ▸ List.mem_map_of_mem ha
    obtain ⟨w, _, hw⟩ := List.mem_map.1 this
    rw [iterate_asked] at hw
    obtain ⟨v, hv, _⟩ := Option.map_eq_some_iff.1 hw.symm
    exact ⟨v, hv⟩

open Classical in
/-- no rule of a command that ends without error panics -/
theorem command_runs {c : CheckCmd} {files : List (String × Bytes)} {rs : List ByteRecord} (hi : Input files rs)
    {out : List Report} (h : c.run files = .ok out) : ∀ s ∈ c.rulesets,
    ∀ q ∈ withBefore [] (s.rules.filter (fun x => decide (Chosen c x))),
      ∃ z, iterate (fun r => ruleStep c.C (asks c.C s.scope s.fast q.1 r) r) (examined c rs) q.2 = some z := by
  intro s hs q hq
  obtain ⟨⟨ss, o⟩, h1, -⟩ := check_iterate hi h
  have ek : s.rules.filter c.keeps = s.rules.filter (fun x => decide (Chosen c x)) := by
    congr 1
    funext x
    rw [Bool.eq_iff_iff, keeps_iff]
    simp
  have hp : (⟨s.scope, s.fast, s.rules.filter c.keeps⟩ : RuleSet) ∈ c.prepared := by
    unfold CheckCmd.prepared
    refine List.mem_filter.2 ⟨List.mem_map.2 ⟨s, hs, rfl⟩, ?_⟩
    dsimp only
    rw [ek]
    cases hf : s.rules.filter (fun x => decide (Chosen c x)) with
    | nil => rw [hf] at hq; simp [withBefore] at hq
    | cons => rfl
  have e : CheckCmd.record c.C = together (fun r s => RuleSet.step c.C r s) := by
    funext r ss; exact record_together c.C r ss
  rw [e] at h1
  rcases iterate_together (fun r s => RuleSet.step c.C r s) (examined c rs) c.prepared with ⟨_, h2⟩ | ⟨ps, out', k1, k2, k3⟩
  · rw [h2] at h1; simp at h1
  · rw [mapP_eq_some] at k1
    have := k1 ▸ List.mem_map_of_mem (f := iterate (fun r s => RuleSet.step c.C r s) (examined c rs)) hp
    obtain ⟨w, _, hw⟩ := List.mem_map.1 this
    have := set_runs hw.symm (asks c.C s.scope s.fast q.1, q.2) (by
      dsimp only
      rw [← asks_nil c.C s.scope s.fast, annot_map, ek]
      exact List.mem_map.2 ⟨q, hq, rfl⟩)
    exact this

open Classical in
/-- the records for which a rule is asked: those in scope to which, with fast termination, none of
the wanted rules before it in the set applies -/
noncomputable def AskedOf (c : CheckCmd) (scope : Option RecordMatcher) (fast : Bool) (X : List CheckRule)
    (r : Record) : Bool :=
  decide (InScope c.C scope r ∧ (fast = true → ∀ y ∈ X, Chosen c y → ¬ Applies c.C r y))

open Classical in
theorem asks_eq (c : CheckCmd) (scope : Option RecordMatcher) (fast : Bool) (X : List CheckRule) :
    asks c.C scope fast (X.filter (fun x => decide (Chosen c x))) = AskedOf c scope fast X := by
  funext r
  rw [Bool.eq_iff_iff]
  simp [asks, AskedOf, List.mem_filter]

/-- **C40** in every rule set, also with fast termination: the reports of a wanted link rule whose id
no other rule has. There is one report for every IDN with a message that is not empty; the message
lists the values that are source values of records with this IDN for which the rule is asked and
not target values of any record. -/
theorem C40_every_set (c : CheckCmd) (L : LinkSpec) (id : Bytes) (tags : Option (List Bytes)) (level : CheckLevel)
    (henv : L.C = c.C) (A B : List RuleSet) (fast : Bool) (X Y : List CheckRule)
    (hsets : c.rulesets = A ++ [⟨L.scope, fast, X ++ [L.rule id tags level ⟨[], []⟩] ++ Y⟩] ++ B)
    (hu : ∀ y ∈ A.flatMap RuleSet.rules ++ X ++ Y ++ B.flatMap RuleSet.rules, y.id ≠ id)
    (hw : Chosen c (L.rule id tags level ⟨[], []⟩)) (hperm : ∀ l, (c.C.iterLink l).Perm l)
    (files : List (String × Bytes)) (rs : List ByteRecord) (hi : Input files rs)
    (out : List Report) (h : c.run files = .ok out) :
    (∀ rep, (rep ∈ out ∧ rep.rule = id) ↔ ∃ p, rep = linkReport id level p
        (L.messageIf (AskedOf c L.scope fast X) (examined c rs) p) ∧
        L.messageIf (AskedOf c L.scope fast X) (examined c rs) p ≠ []) ∧
      ((out.filter (fun o => o.rule == id)).map (·.ppn)).Nodup := by
  classical
  have h1 : (out.filter (fun o => o.rule == id)).Perm
      (ruleWhere c.C (AskedOf c L.scope fast X) (examined c rs) (L.rule id tags level ⟨[], []⟩)) :=
    C92_rule c A B L.scope fast X Y _ hsets hu hw files rs hi out h
  have hr := command_runs hi h ⟨L.scope, fast, X ++ [L.rule id tags level ⟨[], []⟩] ++ Y⟩ (by rw [hsets]; simp)
    (X.filter (fun x => decide (Chosen c x)), L.rule id tags level ⟨[], []⟩) (by
      dsimp only
      rw [List.filter_append, List.filter_append, List.filter_cons_of_pos (by simpa using hw), List.filter_nil,
        withBefore_append, withBefore_append, withBefore]
      simp)
  dsimp only at hr
  rw [asks_eq, ← henv] at hr
  rw [← henv] at h1 hperm
  obtain ⟨K, hK, hm, he⟩ := linkIf_reports hperm hr
  rw [he] at h1
  constructor
  · intro rep
    have : (rep ∈ out ∧ rep.rule = id) ↔ rep ∈ out.filter (fun o => o.rule == id) := by
      rw [List.mem_filter]; simp
    rw [this, h1.mem_iff, List.mem_map]
    constructor
    · rintro ⟨p, hp, rfl⟩; exact ⟨p, rfl, (hm p).1 hp⟩
    · rintro ⟨p, rfl, hne⟩; exact ⟨p, (hm p).2 hne, rfl⟩
  · rw [(h1.map _).nodup_iff, List.map_map]
    refine List.Pairwise.map _ ?_ hK
    intro a b hab he
    simp only [Function.comp_apply, linkReport] at he
    cases a <;> cases b <;> simp_all

/-- **C40** in every rule set, also with fast termination: a record IDN is reported if and only if a
record with this IDN for which the rule is asked has a source value that is no target value of any
record, unless the only such value is empty. -/
theorem C40_every_dangling (c : CheckCmd) (L : LinkSpec) (id : Bytes) (tags : Option (List Bytes))
    (level : CheckLevel) (henv : L.C = c.C) (A B : List RuleSet) (fast : Bool) (X Y : List CheckRule)
    (hsets : c.rulesets = A ++ [⟨L.scope, fast, X ++ [L.rule id tags level ⟨[], []⟩] ++ Y⟩] ++ B)
    (hu : ∀ y ∈ A.flatMap RuleSet.rules ++ X ++ Y ++ B.flatMap RuleSet.rules, y.id ≠ id)
    (hw : Chosen c (L.rule id tags level ⟨[], []⟩)) (hperm : ∀ l, (c.C.iterLink l).Perm l)
    (hlossy : IsLossy c.C.lossy)
    (files : List (String × Bytes)) (rs : List ByteRecord) (hi : Input files rs)
    (out : List Report) (h : c.run files = .ok out) (p : Bytes) :
    (∃ rep ∈ out, rep.rule = id ∧ rep.ppn = if p.isEmpty then none else some p) ↔
      L.danglingsIf (AskedOf c L.scope fast X) (examined c rs) p ≠ [[]] ∧
      ∃ v, (∃ r ∈ examined c rs, L.idn r = p ∧ InScope c.C L.scope r ∧
          (fast = true → ∀ y ∈ X, Chosen c y → ¬ Applies c.C r y) ∧ v ∈ (L.source.values L.E L.o r).getD []) ∧
        ∀ r' ∈ examined c rs, v ∉ L.targets r' := by
  have hj : L.messageIf (AskedOf c L.scope fast X) (examined c rs) p = [] ↔
      L.danglingsIf (AskedOf c L.scope fast X) (examined c rs) p = [] ∨
        L.danglingsIf (AskedOf c L.scope fast X) (examined c rs) p = [[]] := by
    unfold LinkSpec.messageIf
    rw [henv, joinText_eq_nil (by decide +kernel), List.map_eq_nil_iff]
    refine or_congr_right ⟨fun h0 => ?_, fun h0 => ?_⟩
    · rw [List.map_eq_singleton_iff] at h0
      obtain ⟨v, hv, he⟩ := h0
      rw [hv, hlossy.empty v he]
    · rw [h0, List.map_singleton, isLossy_nil hlossy]
  have hm := L.mem_danglingsIf (AskedOf c L.scope fast X) (examined c rs) p
  have hv : (∃ v, (∃ r ∈ examined c rs, L.idn r = p ∧ InScope c.C L.scope r ∧
      (fast = true → ∀ y ∈ X, Chosen c y → ¬ Applies c.C r y) ∧ v ∈ (L.source.values L.E L.o r).getD []) ∧
        ∀ r' ∈ examined c rs, v ∉ L.targets r') ↔
      L.danglingsIf (AskedOf c L.scope fast X) (examined c rs) p ≠ [] := by
    have e : ∀ l : List Bytes, l ≠ [] ↔ ∃ v, v ∈ l := fun l => by cases l <;> simp
    rw [e]
    refine exists_congr (fun v => ?_)
    rw [hm]
    unfold AskedOf
    simp only [decide_eq_true_eq, and_assoc]
  rw [hv]
  obtain ⟨h1, -⟩ := C40_every_set c L id tags level henv A B fast X Y hsets hu hw hperm files rs hi out h
  constructor
  · rintro ⟨rep, hrep, hid, hppn⟩
    obtain ⟨q, rfl, hne⟩ := (h1 rep).1 ⟨hrep, hid⟩
    have hq : q = p := by
      unfold linkReport at hppn
      cases q <;> cases p <;> simp_all
    subst hq
    exact ⟨fun h0 => hne (hj.2 (.inr h0)), fun h0 => hne (hj.2 (.inl h0))⟩
  · rintro ⟨hs, hne⟩
    obtain ⟨k1, k2⟩ := (h1 _).2 ⟨p, rfl, fun h0 => (hj.1 h0).elim hne hs⟩
    exact ⟨_, k1, k2, rfl⟩

/-! ## the order of the records -/

/-- the check of the rule is a link check that has not read a record -/
def FreshLink (x : CheckRule) : Prop :=
  ∃ E o source target m, x.check = .link E o source target m ⟨[], []⟩

/-- the reports say the same: PPN, rule and level are equal, and so is the message, unless it is
the one of a link rule, which may list the values in another order -/
def SameReport (c : CheckCmd) (o o' : Report) : Prop :=
  o.ppn = o'.ppn ∧ o.rule = o'.rule ∧ o.level = o'.level ∧
    (o.message = o'.message ∨
      (∃ s ∈ c.rulesets, ∃ x ∈ s.rules, x.id = o.rule ∧ FreshLink x) ∧
      ∃ l l' : List Bytes, l.Perm l' ∧ o.message = some (joinText (bs ", ") l) ∧
        o'.message = some (joinText (bs ", ") l'))

/-- the elements of the lists can be paired such that the relation holds -/
def Paired {α : Type} (R : α → α → Prop) (l l' : List α) : Prop :=
  ∃ ps : List (α × α), l.Perm (ps.map (·.1)) ∧ l'.Perm (ps.map (·.2)) ∧ ∀ p ∈ ps, R p.1 p.2

theorem paired_append {α : Type} {R : α → α → Prop} {l l' m m' : List α} (h : Paired R l l') (h' : Paired R m m') :
    Paired R (l ++ m) (l' ++ m') := by
  obtain ⟨ps, h1, h2, h3⟩ := h
  obtain ⟨qs, k1, k2, k3⟩ := h'
  refine ⟨ps ++ qs, by rw [List.map_append]; exact h1.append k1, by rw [List.map_append]; exact h2.append k2, ?_⟩
  intro p hp
  rcases List.mem_append.1 hp with hp | hp
  · exact h3 p hp
  · exact k3 p hp

theorem paired_flatMap {α β : Type} {R : α → α → Prop} {f g : β → List α} : ∀ {l : List β},
    (∀ b ∈ l, Paired R (f b) (g b)) → Paired R (l.flatMap f) (l.flatMap g) := by
  intro l
  induction l with
  | nil => intro _; exact ⟨[], by simp, by simp, by simp⟩
  | cons b l ih =>
    intro h
    rw [List.flatMap_cons, List.flatMap_cons]
    exact paired_append (h b (by simp)) (ih (fun a ha => h a (by simp [ha])))

theorem paired_perm {α : Type} {R : α → α → Prop} {l l' m m' : List α} (hl : l.Perm m) (hl' : l'.Perm m')
    (h : Paired R m m') : Paired R l l' := by
  obtain ⟨ps, h1, h2, h3⟩ := h
  exact ⟨ps, hl.trans h1, hl'.trans h2, h3⟩

theorem paired_of_perm {α : Type} {R : α → α → Prop} {l l' : List α} (h : l.Perm l') (hr : ∀ a ∈ l, R a a) :
    Paired R l l' := by
  refine ⟨l.map (fun a => (a, a)), by simp [Function.comp_def], by simpa [Function.comp_def] using h.symm, ?_⟩
  intro p hp
  obtain ⟨a, ha, rfl⟩ := List.mem_map.1 hp
  exact hr a ha

/-- what a rule without memory reports for one record -/
def reportOne (C : CheckEnv) (act : Record → Bool) (x : CheckRule) (r : Record) : List Report :=
  match ruleStep C (act r) r x with
  | some z => z.2
  | none => []

theorem memoryless_step {C : CheckEnv} {b : Bool} {r : Record} {x : CheckRule} (hm : Memoryless x.check)
    {z : CheckRule × List Report} (h : ruleStep C b r x = some z) : z.1 = x := by
  unfold ruleStep CheckRule.preprocess at h
  rw [memoryless_preprocess hm] at h
  simp only [Option.map_some] at h
  split at h
  · rw [Option.map_eq_some_iff] at h
    obtain ⟨w, hw, rfl⟩ := h
    exact (run_kind hw).1 hm
  · simp only [Option.some.injEq] at h
    subst h
    rfl

theorem memoryless_where {C : CheckEnv} {act : Record → Bool} {recs : List Record} {x : CheckRule}
    (hm : Memoryless x.check) (hrun : ∃ q, iterate (fun r => ruleStep C (act r) r) recs x = some q) :
    ruleWhere C act recs x = recs.flatMap (reportOne C act x) := by
  have key : ∀ (recs : List Record) q, iterate (fun r => ruleStep C (act r) r) recs x = some q →
      q = (x, recs.flatMap (reportOne C act x)) := by
    intro recs
    induction recs with
    | nil => intro q h; simp only [iterate, Option.some.injEq] at h; exact h.symm
    | cons r recs ih =>
      intro q h
      rw [iterate] at h
      cases hs : ruleStep C (act r) r x with
      | none => rw [hs] at h; simp at h
      | some z =>
        rw [hs] at h
        have e := memoryless_step hm hs
        obtain ⟨z1, z2⟩ := z
        dsimp only at e h
        subst e
        rw [Option.map_eq_some_iff] at h
        obtain ⟨w, hw, rfl⟩ := h
        rw [ih w hw, List.flatMap_cons]
        congr 2
        unfold reportOne
        rw [hs]
  obtain ⟨q, hq⟩ := hrun
  unfold ruleWhere
  rw [hq, key recs q hq]
  dsimp only
  have : x.finish C = [] := by
    unfold CheckRule.finish
    split
    · rename_i e; rw [e] at hm; exact hm.elim
    · rfl
  rw [this, List.append_nil]

theorem danglingsIf_perm (L : LinkSpec) (act : Record → Bool) {recs recs' : List Record} (h : recs.Perm recs')
    (p : Bytes) : (L.danglingsIf act recs p).Perm (L.danglingsIf act recs' p) := by
  unfold LinkSpec.danglingsIf
  have e : (fun v => !(recs.flatMap L.targets).contains v) = (fun v => !(recs'.flatMap L.targets).contains v) := by
    funext v
    congr 1
    rw [Bool.eq_iff_iff, List.contains_iff_mem, List.contains_iff_mem]
    exact (h.flatMap_right _).mem_iff
  rw [e]
  exact (((h.filter _).flatMap_right _).filter _)

theorem join_nil_perm {l l' : List Bytes} (h : l.Perm l') (h0 : joinText (bs ", ") l = []) :
    joinText (bs ", ") l' = [] := by
  rw [joinText_eq_nil (by decide +kernel)] at h0 ⊢
  rcases h0 with h0 | h0
  · left; rw [h0] at h; exact h.symm.eq_nil
  · right; rw [h0] at h; exact h.symm.eq_singleton

/-- **C86** `check` with any rules, also link rules and fast termination: the reports of both runs
can be paired such that they say the same. -/
theorem C86_check_any_partial (c : CheckCmd) (hl : c.limit = 0)
    (hf : ∀ s ∈ c.rulesets, ∀ x ∈ s.rules, Memoryless x.check ∨ FreshLink x)
    (hperm : ∀ l, (c.C.iterLink l).Perm l)
    {files files' : List (String × Bytes)} {rs rs' : List ByteRecord}
    (hi : Input files rs) (hi' : Input files' rs') (hrs : rs.Perm rs') {out out' : List Report}
    (h : c.run files = .ok out) (h' : c.run files' = .ok out') : Paired (SameReport c) out out' := by
  classical
  have hex : (examined c rs).Perm (examined c rs') := by
    unfold examined
    rw [limited_zero hl, limited_zero hl]
    exact (picked_perm c.sel hrs).map _
  refine paired_perm (C92_reports c files rs hi out h) (C92_reports c files' rs' hi' out' h') ?_
  refine paired_flatMap (fun s hs => paired_flatMap (fun q hq => ?_))
  have hx : q.2 ∈ s.rules := (List.mem_filter.1 (withBefore_mem hq)).1
  have hr := command_runs hi h s hs q hq
  have hr' := command_runs hi' h' s hs q hq
  rcases hf s hs q.2 hx with hm | ⟨E, o, source, target, m, hc⟩
  · rw [memoryless_where hm hr, memoryless_where hm hr']
    exact paired_of_perm (hex.flatMap_right _) (fun a _ => ⟨rfl, rfl, rfl, .inl rfl⟩)
  · obtain ⟨p, x⟩ := q
    obtain ⟨id, tags, level, check⟩ := x
    dsimp only at hc hr hr' hx
    subst hc
    have e : (⟨id, tags, level, .link E o source target m ⟨[], []⟩⟩ : CheckRule) =
      (⟨E, o, source, target, m, s.scope, c.C⟩ : LinkSpec).rule id tags level ⟨[], []⟩ := rfl
    generalize hL : (⟨E, o, source, target, m, s.scope, c.C⟩ : LinkSpec) = L at e
    have hC : L.C = c.C := by rw [← hL]
    dsimp only
    rw [e, ← hC] at hr hr'
    rw [← hC] at hperm
    obtain ⟨K, k1, k2, k3⟩ := linkIf_reports hperm hr
    obtain ⟨K', j1, j2, j3⟩ := linkIf_reports hperm hr'
    rw [hC] at k3 j3
    rw [hC] at k2 j2
    rw [e, k3, j3]
    have hd : ∀ act p, ((L.danglingsIf act (examined c rs) p).map L.C.lossy).Perm
        ((L.danglingsIf act (examined c rs') p).map L.C.lossy) :=
      fun act p => (danglingsIf_perm L act hex p).map _
    have hK : K'.Perm K := by
      rw [List.perm_ext_iff_of_nodup j1 k1]
      intro a
      rw [k2, j2]
      exact ⟨fun h h0 => h (join_nil_perm (hd _ a) h0), fun h h0 => h (join_nil_perm (hd _ a).symm h0)⟩
    refine ⟨K.map (fun k => (linkReport id level k (L.messageIf (asks c.C s.scope s.fast p) (examined c rs) k),
      linkReport id level k (L.messageIf (asks c.C s.scope s.fast p) (examined c rs') k))), by simp [Function.comp_def], ?_, ?_⟩
    · rw [List.map_map]
      exact hK.map _
    · intro z hz
      obtain ⟨k, -, rfl⟩ := List.mem_map.1 hz
      exact ⟨rfl, rfl, rfl, .inr ⟨⟨s, hs, _, hx, rfl, E, o, source, target, m, rfl⟩,
        _, _, hd _ k, rfl, rfl⟩⟩

/-! ## the theorems on concrete rules -/

theorem linkFast_unique : ∀ y ∈ ([] : List RuleSet).flatMap RuleSet.rules ++ [failRule "A"] ++ [] ++
    ([] : List RuleSet).flatMap RuleSet.rules, y.id ≠ bs "L" := by
  intro y hy
  simp only [List.flatMap_nil, List.nil_append, List.append_nil, List.mem_singleton] at hy
  subst hy
  decide +kernel

/-- the other rule applies first: nothing is noted for the record -/
example := C40_every_set (checkSample true [failRule "A", linkSample.rule (bs "L") none .error ⟨[], []⟩])
  linkSample (bs "L") none .error rfl [] [] true [failRule "A"] [] rfl linkFast_unique
  ((keeps_iff _ _).1 (by decide +kernel)) (fun _ => List.Perm.refl _) [("a", linkLine "1" "9")] _ (input_of _)
  [⟨some (bs "1"), bs "A", .error, none⟩] (by decide +kernel)
example := C40_every_dangling (checkSample true [failRule "A", linkSample.rule (bs "L") none .error ⟨[], []⟩])
  linkSample (bs "L") none .error rfl [] [] true [failRule "A"] [] rfl linkFast_unique
  ((keeps_iff _ _).1 (by decide +kernel)) (fun _ => List.Perm.refl _) checkEnv_lossy
  [("a", linkLine "1" "9")] _ (input_of _) [⟨some (bs "1"), bs "A", .error, none⟩] (by decide +kernel) (bs "1")
/-- without fast termination the reference is reported -/
example := C40_every_set (checkSample false [failRule "A", linkSample.rule (bs "L") none .error ⟨[], []⟩])
  linkSample (bs "L") none .error rfl [] [] false [failRule "A"] [] rfl linkFast_unique
  ((keeps_iff _ _).1 (by decide +kernel)) (fun _ => List.Perm.refl _) [("a", linkLine "1" "9")] _ (input_of _)
  [⟨some (bs "1"), bs "A", .error, none⟩, ⟨some (bs "1"), bs "L", .error, some (bs "9")⟩] (by decide +kernel)

/-- two records with the same IDN in both orders -/
example : Paired (SameReport linkCmd) [⟨some (bs "1"), bs "L", .error, some (bs "8, 9")⟩]
    [⟨some (bs "1"), bs "L", .error, some (bs "9, 8")⟩] := by
  obtain ⟨h1, h2, h3⟩ := swap_input (l := linkLine "1" "8") (m := linkLine "1" "9")
    (a := ⟨some (linkLine "1" "8"), [⟨bs "003@", none, [⟨0x30, bs "1"⟩]⟩, ⟨bs "012A", none, [⟨0x6C, bs "8"⟩]⟩]⟩)
    (b := ⟨some (linkLine "1" "9"), [⟨bs "003@", none, [⟨0x30, bs "1"⟩]⟩, ⟨bs "012A", none, [⟨0x6C, bs "9"⟩]⟩]⟩)
    (by decide +kernel) (by decide +kernel) (by decide +kernel) (by decide +kernel) (by decide +kernel) (by decide +kernel)
  refine C86_check_any_partial linkCmd rfl ?_ (fun _ => List.Perm.refl _) h1 h2 h3 (by decide +kernel)
    (by decide +kernel)
  intro s hs x hx
  simp only [linkCmd, checkSample, List.mem_singleton] at hs
  subst hs
  simp only [List.mem_singleton] at hx
  subst hx
  exact .inr ⟨_, _, _, _, _, rfl⟩

end Pica.Props
