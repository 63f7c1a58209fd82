import Verif.Props.Link
import Verif.Props.Predicates

/-! Reports of single rules of the command `check`. -/

namespace Pica.Props
open Pica Spec

/-- a rule is wanted: its id is matched by the filter of `--rule`, and one of the
comma-separated parts of `--tags`, without white space around it, is a tag of the
rule -/
def Chosen (c : CheckCmd) (x : CheckRule) : Prop :=
  (∀ re, c.filter = some re → re x.id = true) ∧
  ∀ text, c.tags = some text →
    ∃ parts, Parts text parts ∧ ∃ p ∈ parts, ∃ tags, x.tags = some tags ∧ c.C.trim p ∈ tags

theorem keeps_iff (c : CheckCmd) (x : CheckRule) : c.keeps x = true ↔ Chosen c x := by
  unfold CheckCmd.keeps Chosen
  rw [Bool.and_eq_true]
  apply and_congr
  · cases c.filter <;> simp
  · cases ht : c.tags with
    | none => simp
    | some text =>
      dsimp only
      cases hx : x.tags with
      | none => simp
      | some tags =>
        simp only [List.any_eq_true, List.contains_eq_mem, decide_eq_true_eq, List.mem_map, Option.some.injEq]
        constructor
        · rintro ⟨t, ht, p, hp, rfl⟩ text' rfl
          exact ⟨_, splitComma_parts text, p, hp, tags, rfl, ht⟩
        · intro h
          obtain ⟨parts, h1, p, hp, tags', rfl, h2⟩ := h text rfl
          rw [parts_unique h1] at hp
          exact ⟨_, h2, p, hp, rfl⟩

/-- the command has the rule `x` in a rule set with this scope, and no other rule has
the id of `x` -/
def HasRule (c : CheckCmd) (scope : Option RecordMatcher) (x : CheckRule) : Prop :=
  ∃ (A B : List RuleSet) (X Y : List CheckRule), c.rulesets = A ++ [⟨scope, false, X ++ [x] ++ Y⟩] ++ B ∧
    ∀ y ∈ A.flatMap RuleSet.rules ++ X ++ Y ++ B.flatMap RuleSet.rules, y.id ≠ x.id

/-- the records that the command looks at -/
noncomputable def examined (c : CheckCmd) (rs : List ByteRecord) : List Record :=
  (limited c.limit (picked c.sel rs)).map (·.record)

theorem checked_eq (c : CheckCmd) (rs : List ByteRecord) : c.checked rs = examined c rs := by
  unfold CheckCmd.checked examined
  rw [chosen_eq_picked]

/-- the record is in scope of the rule set -/
def InScope (C : CheckEnv) (scope : Option RecordMatcher) (r : Record) : Prop :=
  ∀ m, scope = some m → m.eval C.E₀ ⟨false⟩ r = some true

theorem inScope_iff (C : CheckEnv) (scope : Option RecordMatcher) (r : Record) :
    InScope C scope r ↔ scopeValue C scope r = some true := by
  unfold InScope scopeValue
  cases scope <;> simp

theorem filter_ruleOut {C : CheckEnv} {scope : Option RecordMatcher} {recs : List Record} {x : CheckRule} :
    (ruleOut C scope recs x).filter (fun o => o.rule == x.id) = ruleOut C scope recs x := by
  rw [List.filter_eq_self]
  intro o ho
  rw [ruleOut_id o ho]
  simp

theorem flatMap_prepared (c : CheckCmd) (f : RuleSet → CheckRule → List Report)
    (hf : ∀ s rules, f { s with rules := rules } = f s) :
    c.prepared.flatMap (fun s => s.rules.flatMap (f s)) =
      c.rulesets.flatMap (fun s => (s.rules.filter c.keeps).flatMap (f s)) := by
  unfold CheckCmd.prepared
  generalize c.rulesets = ss
  induction ss with
  | nil => rfl
  | cons s ss ih =>
    rw [List.map_cons, List.filter_cons]
    split
    · rw [List.flatMap_cons, List.flatMap_cons, ih, hf]
    · rename_i h
      have : s.rules.filter c.keeps = [] := by simpa using h
      rw [List.flatMap_cons, ih, this]
      rfl

/-- without fast termination, the reports are those of the wanted rules, each taken
alone -/
theorem check_chosen {c : CheckCmd} (hnf : c.NoFast) {files : List (String × Bytes)} {rs : List ByteRecord}
    (hi : Input files rs) {out : List Report} (h : c.run files = .ok out) :
    out.Perm (c.rulesets.flatMap (fun s => (s.rules.filter c.keeps).flatMap
      (ruleOut c.C s.scope (examined c rs)))) ∧
    ∀ s ∈ c.rulesets, ∀ x ∈ s.rules, c.keeps x = true →
      ∃ q, iterate (scopedStep c.C s.scope) (examined c rs) x = some q := by
  obtain ⟨h1, h2⟩ := check_ok hnf hi h
  rw [checked_eq] at h1 h2
  constructor
  · rw [flatMap_prepared c (fun s => ruleOut c.C s.scope (examined c rs)) (fun _ _ => rfl)] at h1
    exact h1
  · intro s hs x hx hk
    refine h2 { s with rules := s.rules.filter c.keeps } ?_ x (List.mem_filter.2 ⟨hx, hk⟩)
    unfold CheckCmd.prepared
    refine List.mem_filter.2 ⟨List.mem_map.2 ⟨s, hs, rfl⟩, ?_⟩
    have : s.rules.filter c.keeps ≠ [] := List.ne_nil_of_mem (List.mem_filter.2 ⟨hx, hk⟩)
    simpa using this

/-- the reports with the id of a rule are those of the rule -/
theorem rule_command {c : CheckCmd} {scope : Option RecordMatcher} {x : CheckRule} (hx : HasRule c scope x)
    (hnf : c.NoFast) {files : List (String × Bytes)} {rs : List ByteRecord} (hi : Input files rs)
    {out : List Report} (h : c.run files = .ok out) :
    (Chosen c x → (out.filter (fun o => o.rule == x.id)).Perm (ruleOut c.C scope (examined c rs) x) ∧
      ∃ q, iterate (scopedStep c.C scope) (examined c rs) x = some q) ∧
    (¬ Chosen c x → out.filter (fun o => o.rule == x.id) = []) := by
  obtain ⟨A, B, X, Y, hsets, hu⟩ := hx
  obtain ⟨h1, h2⟩ := check_chosen hnf hi h
  have hnil : ∀ (Z : List CheckRule) (s : Option RecordMatcher), (∀ y ∈ Z, y.id ≠ x.id) →
      ((Z.filter c.keeps).flatMap (ruleOut c.C s (examined c rs))).filter (fun o => o.rule == x.id) = [] :=
    fun Z s hZ => flatMap_id_nil _ (fun y hy => hZ y (List.mem_filter.1 hy).1)
  have hsets' : ∀ Z : List RuleSet, (∀ y ∈ Z.flatMap RuleSet.rules, y.id ≠ x.id) →
      (Z.flatMap (fun s => (s.rules.filter c.keeps).flatMap (ruleOut c.C s.scope (examined c rs)))).filter
        (fun o => o.rule == x.id) = [] := by
    intro Z hZ
    rw [List.filter_eq_nil_iff]
    intro o ho
    obtain ⟨s, hs, ho⟩ := List.mem_flatMap.1 ho
    have := hnil s.rules s.scope (fun y hy => hZ y (List.mem_flatMap.2 ⟨s, hs, hy⟩))
    rw [List.filter_eq_nil_iff] at this
    exact this o ho
  have h3 := h1.filter (fun o => o.rule == x.id)
  rw [hsets, List.flatMap_append, List.flatMap_append, List.filter_append, List.filter_append,
    hsets' A (fun y hy => hu y (by simp [hy])), hsets' B (fun y hy => hu y (by simp [hy]))] at h3
  simp only [List.nil_append, List.append_nil, List.flatMap_cons, List.flatMap_nil, List.flatMap_append,
    List.filter_append] at h3
  rw [hnil X scope (fun y hy => hu y (by simp [hy])), hnil Y scope (fun y hy => hu y (by simp [hy])),
    List.nil_append, List.append_nil] at h3
  constructor
  · intro hw
    have hk := (keeps_iff c x).2 hw
    refine ⟨?_, h2 ⟨scope, false, X ++ [x] ++ Y⟩ (by rw [hsets]; simp) x (by simp) hk⟩
    rw [List.filter_cons_of_pos hk, List.filter_nil, List.flatMap_cons, List.flatMap_nil, List.append_nil,
      filter_ruleOut] at h3
    exact h3
  · intro hw
    have hk : ¬ c.keeps x = true := fun hk => hw ((keeps_iff c x).1 hk)
    rw [List.filter_cons_of_neg hk, List.filter_nil, List.flatMap_nil, List.filter_nil] at h3
    exact h3.eq_nil

/-- the report of a rule for a record -/
def reportFor (C : CheckEnv) (x : CheckRule) (msg : Option Bytes) (r : Record) : Report :=
  ⟨(r.ppn C.E₀ ⟨false⟩).getD none, x.id, x.level, msg⟩

open Classical in
/-- the reports of a rule without state -/
theorem stateless_out {C : CheckEnv} {scope : Option RecordMatcher} {x : CheckRule}
    {fires : Record → Prop} {msg : Record → Option Bytes}
    (hp : ∀ r, x.check.preprocess r = some x.check)
    (hc : ∀ r c' b m, x.check.check C r = some (c', b, m) →
      c' = x.check ∧ (b = true ↔ fires r) ∧ (b = true → m = msg r)) :
    ∀ (recs : List Record) q, iterate (scopedStep C scope) recs x = some q →
      q = (x, (recs.filter (fun r => decide (InScope C scope r ∧ fires r))).map
        (fun r => reportFor C x (msg r) r)) := by
  intro recs
  induction recs with
  | nil => intro q h; simp only [iterate, Option.some.injEq] at h; rw [← h]; rfl
  | cons r recs ih =>
    intro q h
    have hstep : ∀ z, scopedStep C scope r x = some z → z = (x,
        if InScope C scope r ∧ fires r then [reportFor C x (msg r) r] else []) := by
      intro z hz
      unfold scopedStep at hz
      split at hz
      · simp at hz
      · rename_i b hb
        have hin : InScope C scope r ↔ b = true := by rw [inScope_iff, hb]; simp
        unfold ruleStep at hz
        have hpre : x.preprocess r = some x := by
          unfold CheckRule.preprocess; rw [hp]; rfl
        rw [hpre] at hz
        dsimp only at hz
        cases b with
        | false =>
          simp only [Bool.false_eq_true, if_false, Option.some.injEq] at hz
          rw [if_neg (fun h => absurd (hin.1 h.1) (by simp))]
          exact hz.symm
        | true =>
          simp only [if_true] at hz
          cases hr : x.run C r with
          | none => rw [hr] at hz; simp at hz
          | some w =>
            rw [hr] at hz
            simp only [Option.map_some, Option.some.injEq] at hz
            unfold CheckRule.run at hr
            split at hr
            · simp at hr
            · rename_i c' m hcheck
              simp only [Option.some.injEq] at hr
              subst hr
              obtain ⟨rfl, h2, _⟩ := hc r _ _ _ hcheck
              rw [if_neg (fun h => absurd (h2.2 h.2) (by simp))]
              exact hz.symm
            · rename_i c' m hcheck
              obtain ⟨rfl, h2, h3⟩ := hc r _ _ _ hcheck
              split at hr
              · simp at hr
              · rename_i ppn hppn
                simp only [Option.some.injEq] at hr
                subst hr
                rw [if_pos ⟨hin.2 rfl, h2.1 rfl⟩, ← hz, h3 rfl]
                unfold reportFor
                rw [hppn]
                rfl
    rw [iterate] at h
    cases hs : scopedStep C scope r x with
    | none => rw [hs] at h; simp at h
    | some z =>
      have hz := hstep z hs
      subst hz
      rw [hs] at h
      dsimp only at h
      cases ht : iterate (scopedStep C scope) recs x with
      | none => rw [ht] at h; simp at h
      | some w =>
        rw [ht] at h
        simp only [Option.map_some, Option.some.injEq] at h
        rw [ih w ht] at h
        rw [← h, List.filter_cons]
        by_cases hf : InScope C scope r ∧ fires r
        · rw [if_pos hf, if_pos (by simpa using hf)]; rfl
        · rw [if_neg hf, if_neg (by simpa using hf)]; rfl

/-- the reports of the command with the id of a rule without state -/
theorem stateless_command {c : CheckCmd} {scope : Option RecordMatcher} {x : CheckRule} (hx : HasRule c scope x)
    (hw : Chosen c x) (hnf : c.NoFast) {files : List (String × Bytes)} {rs : List ByteRecord}
    (hi : Input files rs) {out : List Report} (h : c.run files = .ok out)
    (fires : Record → Prop) (msg : Record → Option Bytes) (p : Record → Bool)
    (hpf : ∀ r, p r = true ↔ InScope c.C scope r ∧ fires r)
    (hp : ∀ r, x.check.preprocess r = some x.check)
    (hfin : x.finish c.C = [])
    (hc : ∀ r c' b m, x.check.check c.C r = some (c', b, m) →
      c' = x.check ∧ (b = true ↔ fires r) ∧ (b = true → m = msg r)) :
    (out.filter (fun o => o.rule == x.id)).Perm
      (((examined c rs).filter p).map
        (fun r => reportFor c.C x (msg r) r)) := by
  obtain ⟨h1, q, hq⟩ := (rule_command hx hnf hi h).1 hw
  classical
  have hq' := stateless_out hp hc _ q hq
  have e : (examined c rs).filter (fun r => decide (InScope c.C scope r ∧ fires r)) = (examined c rs).filter p :=
    List.filter_congr (fun r _ => by rw [Bool.eq_iff_iff, hpf]; simp)
  rw [e] at hq'
  unfold ruleOut at h1
  rw [hq, hq'] at h1
  dsimp only at h1
  rw [hfin, List.append_nil] at h1
  exact h1

end Pica.Props
