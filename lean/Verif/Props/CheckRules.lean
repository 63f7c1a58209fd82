import Verif.Lemmas.CheckRule
import Verif.Lemmas.Utf8
import Verif.Props.Filter
import Verif.Props.Isni

/-! # C55 to C58: the checks `unicode`, `datetime` and `filter`, the choice of the rules -/

namespace Pica.Props
open Pica Spec

/-- the message of a check that lists values: the values joined by `, `, none if
there is nothing to list -/
def Lists (msg : Option Bytes) (texts : List Bytes) : Prop :=
  (texts = [] ∧ msg = none) ∨ (texts ≠ [] ∧ msg = some ((texts.intersperse (bs ", ")).flatten))

theorem badValues_spec (text : Bytes → Bytes) (bad : List Bytes) :
    ((badValues text bad).1 = true ↔ bad ≠ []) ∧ Lists (badValues text bad).2 (bad.map text) := by
  unfold badValues Lists
  cases bad with
  | nil => simp
  | cons v bad => simp [joinText]

/-! ## C55: unicode -/

/-- `v` is the value of a subfield of `r` -/
def IsValueOf (r : Record) (v : Bytes) : Prop := ∃ f ∈ r, ∃ s ∈ f.subfields, s.value = v

theorem mem_allValues (r : Record) (v : Bytes) : v ∈ r.allValues ↔ IsValueOf r v := by
  simp [Record.allValues, IsValueOf]

theorem validate_iff (r : Record) : r.validate = true ↔ ∀ v, IsValueOf r v → IsUtf8 v := by
  unfold Record.validate Field.validate IsValueOf
  simp only [List.all_eq_true]
  have hs : ∀ s : Subfield, s.validate = true ↔ IsUtf8 s.value := by
    intro s
    unfold Subfield.validate
    split
    · rename_i h
      simp only [true_iff]
      exact (utf8Valid_iff _).1 (utf8Valid_ascii (by simpa using h))
    · exact utf8Valid_iff _
  constructor
  · rintro h v ⟨f, hf, s, hs', rfl⟩
    exact (hs s).1 (h f hf s hs')
  · intro h f hf s hs'
    exact (hs s).2 (h _ ⟨f, hf, s, hs', rfl⟩)

/-- the record is not acceptable for the check: some value is not UTF-8 or, with a
normalization form, not normalised -/
def UnicodeBad (form : Option (Bytes → Bool)) (r : Record) : Prop :=
  (∃ v, IsValueOf r v ∧ ¬ IsUtf8 v) ∨ ∃ nf, form = some nf ∧ ∃ v, IsValueOf r v ∧ nf v = false

/-- the values that are not normalised, in order -/
def notNormalised (form : Option (Bytes → Bool)) (r : Record) : List Bytes :=
  match form with
  | none => []
  | some nf => (r.flatMap (fun f => f.subfields.map (·.value))).filter (fun v => !nf v)

/-- **C55** the check never panics, fires iff some value is not UTF-8 or not
normalised, and lists the values that are not normalised if all values are UTF-8;
otherwise it lists nothing. -/
theorem C55_unicode (C : CheckEnv) (form : Option (Bytes → Bool)) (r : Record) :
    ∃ b msg, (Checks.unicode form).check C r = some (.unicode form, b, msg) ∧
      (b = true ↔ UnicodeBad form r) ∧
      ((∀ v, IsValueOf r v → IsUtf8 v) → Lists msg (notNormalised form r)) ∧
      ((∃ v, IsValueOf r v ∧ ¬ IsUtf8 v) → msg = none) := by
  by_cases hv : r.validate = true
  · have hu := (validate_iff r).1 hv
    have hno : ¬ ∃ v, IsValueOf r v ∧ ¬ IsUtf8 v := by
      rintro ⟨v, h1, h2⟩; exact h2 (hu v h1)
    cases form with
    | none =>
      refine ⟨false, none, by rw [Checks.check, if_pos hv], ?_, fun _ => .inl ⟨rfl, rfl⟩, fun _ => rfl⟩
      simp only [Bool.false_eq_true, false_iff]
      rintro (h | ⟨nf, h, _⟩)
      · exact hno h
      · simp at h
    | some nf =>
      have hm : mapP toStrUnwrap r.allValues = some r.allValues := by
        rw [mapP_of_total (g := id), List.map_id]
        intro v hv'
        unfold toStrUnwrap
        rw [if_pos ((utf8Valid_iff v).2 (hu v ((mem_allValues r v).1 hv')))]
        rfl
      obtain ⟨h1, h2⟩ := badValues_spec id (r.allValues.filter (fun v => !nf v))
      refine ⟨(badValues id (r.allValues.filter (fun v => !nf v))).1,
        (badValues id (r.allValues.filter (fun v => !nf v))).2,
        by rw [Checks.check, if_pos hv, hm]; rfl, ?_, fun _ => ?_,
        fun h => absurd h hno⟩
      · rw [h1, ne_eq, List.filter_eq_nil_iff]
        constructor
        · intro h
          simp only [Classical.not_forall] at h
          obtain ⟨v, hv', h⟩ := h
          exact .inr ⟨nf, rfl, v, (mem_allValues r v).1 hv', by simpa using h⟩
        · rintro (h | ⟨nf', h, v, h3, h4⟩) hall
          · exact hno h
          · obtain rfl := Option.some.inj h
            exact hall v ((mem_allValues r v).2 h3) (by simpa using h4)
      · rw [List.map_id] at h2
        exact h2
  · have hex : ∃ v, IsValueOf r v ∧ ¬ IsUtf8 v := by
      refine Classical.byContradiction (fun hn => hv ((validate_iff r).2 (fun v h => ?_)))
      exact Classical.byContradiction (fun h' => hn ⟨v, h, h'⟩)
    refine ⟨true, none, by rw [Checks.check.eq_def]; exact if_neg hv, by simp only [true_iff]; exact .inl hex,
      fun h => ?_, fun _ => rfl⟩
    obtain ⟨v, h1, h2⟩ := hex
    exact absurd (h v h1) h2

open Classical in
/-- **C55** (command) exactly the records in scope that are not acceptable are
reported, once each. -/
theorem C55_command (c : CheckCmd) (scope : Option RecordMatcher) (id : Bytes) (tags : Option (List Bytes))
    (level : CheckLevel) (form : Option (Bytes → Bool)) (hx : HasRule c scope ⟨id, tags, level, .unicode form⟩)
    (hw : Chosen c ⟨id, tags, level, .unicode form⟩) (hnf : c.NoFast) (files : List (String × Bytes))
    (rs : List ByteRecord) (hi : Input files rs) (out : List Report) (h : c.run files = .ok out) :
    ∃ msg : Record → Option Bytes,
      (∀ r, (∀ v, IsValueOf r v → IsUtf8 v) → Lists (msg r) (notNormalised form r)) ∧
      (∀ r, (∃ v, IsValueOf r v ∧ ¬ IsUtf8 v) → msg r = none) ∧
      (out.filter (fun o => o.rule == id)).Perm
        (((examined c rs).filter (fun r => decide (InScope c.C scope r ∧ UnicodeBad form r))).map
          (fun r => ⟨(r.ppn c.C.E₀ ⟨false⟩).getD none, id, level, msg r⟩)) := by
  have hsome := C55_unicode c.C form
  refine ⟨fun r => (hsome r).choose_spec.choose, fun r => (hsome r).choose_spec.choose_spec.2.2.1,
    fun r => (hsome r).choose_spec.choose_spec.2.2.2, ?_⟩
  refine stateless_command hx hw hnf hi h (UnicodeBad form) _ _ (fun r => by simp) (fun _ => rfl) rfl ?_
  intro r c' b m hc
  obtain ⟨h1, h2, _⟩ := (hsome r).choose_spec.choose_spec
  dsimp only at hc
  have he := hc.symm.trans h1
  simp only [Option.some.injEq, Prod.mk.injEq] at he
  refine ⟨he.1, ?_, fun _ => he.2.2⟩
  rw [he.2.1]
  exact h2

/-! ## C56: datetime -/

/-- behind the offset there is a nonempty text that has the format -/
def Dated (parses : Bytes → Bool) (offset : Nat) (v : Bytes) : Prop :=
  ∃ p t, v = p ++ t ∧ p.length = offset ∧ t ≠ [] ∧ parses t = true

theorem datetimeBad_spec (parses : Bytes → Bool) (offset : Nat) (v : Bytes) :
    ∃ b, datetimeBad parses offset v = some b ∧ (b = true ↔ ¬ Dated parses offset v) := by
  unfold datetimeBad Dated
  by_cases h : offset ≥ v.length
  · refine ⟨true, if_pos h, ?_⟩
    simp only [true_iff]
    rintro ⟨p, t, rfl, h1, h2, _⟩
    rw [List.length_append] at h
    have := List.length_pos_iff.2 h2
    omega
  · refine ⟨!parses (v.drop offset), ?_, ?_⟩
    · rw [if_neg h, sliceFrom, if_pos (by omega)]; rfl
    · rw [Bool.not_eq_true']
      constructor
      · rintro h1 ⟨p, t, rfl, h2, h3, h4⟩
        rw [← h2, List.drop_left, h4] at h1
        simp at h1
      · intro h1
        cases hp : parses (v.drop offset) with
        | false => rfl
        | true =>
          refine absurd ⟨v.take offset, v.drop offset, (List.take_append_drop _ _).symm, ?_, ?_, hp⟩ h1
          · rw [List.length_take]; omega
          · intro h2
            have : (v.drop offset).length = 0 := by rw [h2]; rfl
            rw [List.length_drop] at this
            omega

open Classical in
/-- **C56** whatever the values and the offset, the check does not panic; it fires iff
some selected value does not have the format behind the offset, and lists these
values. -/
theorem C56_datetime (C : CheckEnv) (E : Env) (o : Opts) (path : Path) (parses : Bytes → Bool) (offset : Nat)
    (r : Record) (vs : List Bytes) (hv : path.values E o r = some vs) :
    ∃ b msg, (Checks.datetime E o path parses offset).check C r =
        some (.datetime E o path parses offset, b, msg) ∧
      (b = true ↔ ∃ v ∈ vs, ¬ Dated parses offset v) ∧
      Lists msg ((vs.filter (fun v => decide (¬ Dated parses offset v))).map C.lossy) := by
  have hf : filterP (datetimeBad parses offset) vs =
      some (vs.filter (fun v => decide (¬ Dated parses offset v))) := by
    rw [filterP_of_total (fun v _ => ⟨_, (datetimeBad_spec parses offset v).choose_spec.1⟩)]
    congr 1
    apply List.filter_congr
    intro v _
    obtain ⟨b, h1, h2⟩ := datetimeBad_spec parses offset v
    rw [h1, Bool.eq_iff_iff]
    simp [h2]
  obtain ⟨h1, h2⟩ := badValues_spec C.lossy (vs.filter (fun v => decide (¬ Dated parses offset v)))
  refine ⟨(badValues C.lossy (vs.filter (fun v => decide (¬ Dated parses offset v)))).1,
    (badValues C.lossy (vs.filter (fun v => decide (¬ Dated parses offset v)))).2,
    by rw [Checks.check, hv]; dsimp only; rw [hf]; rfl, ?_, h2⟩
  rw [h1, ne_eq, List.filter_eq_nil_iff]
  simp only [decide_eq_true_eq, Classical.not_forall, Classical.not_not]
  constructor
  · rintro ⟨v, hv', h⟩; exact ⟨v, hv', h⟩
  · rintro ⟨v, hv', h⟩; exact ⟨v, hv', h⟩

open Classical in
/-- **C56** (command) exactly the records in scope with such a value are reported,
once each. -/
theorem C56_command (c : CheckCmd) (scope : Option RecordMatcher) (id : Bytes) (tags : Option (List Bytes))
    (level : CheckLevel) (E : Env) (o : Opts) (path : Path) (parses : Bytes → Bool) (offset : Nat)
    (hx : HasRule c scope ⟨id, tags, level, .datetime E o path parses offset⟩)
    (hw : Chosen c ⟨id, tags, level, .datetime E o path parses offset⟩) (hnf : c.NoFast)
    (files : List (String × Bytes)) (rs : List ByteRecord) (hi : Input files rs) (out : List Report)
    (h : c.run files = .ok out) :
    ∃ msg : Record → Option Bytes,
      (∀ r vs, path.values E o r = some vs →
        Lists (msg r) ((vs.filter (fun v => decide (¬ Dated parses offset v))).map c.C.lossy)) ∧
      (out.filter (fun o => o.rule == id)).Perm
        (((examined c rs).filter (fun r => decide (InScope c.C scope r ∧
            ∃ vs, path.values E o r = some vs ∧ ∃ v ∈ vs, ¬ Dated parses offset v))).map
          (fun r => ⟨(r.ppn c.C.E₀ ⟨false⟩).getD none, id, level, msg r⟩)) := by
  refine ⟨fun r => match (Checks.datetime E o path parses offset).check c.C r with
    | some z => z.2.2
    | none => none, ?_, ?_⟩
  · intro r vs hv
    obtain ⟨b, msg, h1, _, h3⟩ := C56_datetime c.C E o path parses offset r vs hv
    dsimp only
    rw [h1]
    exact h3
  · refine stateless_command hx hw hnf hi h (fun r => ∃ vs, path.values E o r = some vs ∧
      ∃ v ∈ vs, ¬ Dated parses offset v) _ _ (fun r => by simp) (fun _ => rfl) rfl ?_
    intro r c' b m hc
    dsimp only at hc
    cases hv : path.values E o r with
    | none => rw [Checks.check, hv] at hc; simp at hc
    | some vs =>
      obtain ⟨b', msg, h1, h2, _⟩ := C56_datetime c.C E o path parses offset r vs hv
      have he := hc.symm.trans h1
      simp only [Option.some.injEq, Prod.mk.injEq] at he
      refine ⟨he.1, ?_, fun _ => by rw [hc]⟩
      rw [he.2.1, h2]
      simp

/-! ## C57: filter -/

/-- **C57** the check fires iff the record matches or, inverted, does not match. -/
theorem C57_filter (C : CheckEnv) (E : Env) (o : Opts) (m : RecordMatcher) (invert : Bool) (r : Record) (b : Bool)
    (hb : m.eval E o r = some b) :
    ∃ b', (Checks.filter E o m invert).check C r = some (.filter E o m invert, b', none) ∧
      (b' = true ↔ (b = true ↔ invert = false)) := by
  refine ⟨if invert then !b else b, by rw [Checks.check, hb]; rfl, ?_⟩
  cases invert <;> cases b <;> simp

open Classical in
/-- **C57** (command) exactly the records in scope that match, or inverted do not
match, are reported, once each and without message. -/
theorem C57_command (c : CheckCmd) (scope : Option RecordMatcher) (id : Bytes) (tags : Option (List Bytes))
    (level : CheckLevel) (E : Env) (o : Opts) (m : RecordMatcher) (invert : Bool)
    (hx : HasRule c scope ⟨id, tags, level, .filter E o m invert⟩)
    (hw : Chosen c ⟨id, tags, level, .filter E o m invert⟩) (hnf : c.NoFast)
    (files : List (String × Bytes)) (rs : List ByteRecord) (hi : Input files rs) (out : List Report)
    (h : c.run files = .ok out) :
    (out.filter (fun o => o.rule == id)).Perm
      (((examined c rs).filter (fun r => decide (InScope c.C scope r ∧ m.eval E o r = some (!invert)))).map
        (fun r => ⟨(r.ppn c.C.E₀ ⟨false⟩).getD none, id, level, none⟩)) := by
  refine stateless_command hx hw hnf hi h (fun r => m.eval E o r = some (!invert)) (fun _ => none) _
    (fun r => by simp) (fun _ => rfl) rfl ?_
  intro r c' b x hc
  dsimp only at hc
  cases he : m.eval E o r with
  | none => rw [Checks.check, he] at hc; simp at hc
  | some b0 =>
    obtain ⟨b', h1, h2⟩ := C57_filter c.C E o m invert r b0 he
    have he' := hc.symm.trans h1
    simp only [Option.some.injEq, Prod.mk.injEq] at he'
    refine ⟨he'.1, ?_, fun _ => he'.2.2⟩
    rw [he'.2.1, h2]
    cases b0 <;> cases invert <;> simp

open Classical in
/-- **C57** (filter command) on the same input, with the same lists and options, the
reported records are those that `filter` writes. -/
theorem C57_same (c : CheckCmd) (f : FilterCmd) (id : Bytes) (tags : Option (List Bytes))
    (level : CheckLevel) (hx : HasRule c none ⟨id, tags, level, .filter f.E f.o f.matcher f.invert⟩)
    (hw : Chosen c ⟨id, tags, level, .filter f.E f.o f.matcher f.invert⟩) (hnf : c.NoFast)
    (hset : c.sel.set = f.set) (hE : c.sel.E₀ = f.E₀) (hm : c.sel.matcher = none)
    (hl : c.limit = 0) (hl' : f.limit = 0)
    (files : List (String × Bytes)) (rs : List ByteRecord) (hi : Input files rs) (out : List Report)
    (h : c.run files = .ok out) (s : FilterOut) (n : Nat) (hf : f.run files = .ok (s, n)) :
    ∃ recs : List Record, s.out = recs.flatMap (fun r => (reduced f.discard f.keep r).write) ∧
      n = recs.length ∧
      (out.filter (fun o => o.rule == id)).Perm
        (recs.map (fun r => ⟨(r.ppn c.C.E₀ ⟨false⟩).getD none, id, level, none⟩)) := by
  obtain ⟨h1, _, h2⟩ := C28_output f files rs hi s n hf
  have h3 := C57_command c none id tags level f.E f.o f.matcher f.invert hx hw hnf files rs hi out h
  unfold limited at h1 h2
  rw [if_pos hl'] at h1 h2
  refine ⟨(rs.filter (fun r => decide (Passes f r.record))).map (·.record), ?_, ?_, ?_⟩
  · rw [h1, List.flatMap_map]
  · rw [h2, List.length_map]
  · refine h3.trans (List.Perm.of_eq ?_)
    congr 1
    unfold examined limited picked
    rw [if_pos hl, List.filter_map, List.filter_filter]
    congr 1
    apply List.filter_congr
    intro r _
    rw [Bool.eq_iff_iff]
    simp only [Function.comp, Bool.and_eq_true, decide_eq_true_eq]
    unfold Passes Picked InScope
    rw [hset, hE, hm]
    simp only [reduceCtorEq, false_implies, implies_true, true_and, and_true]
    exact and_comm

/-! ## C58: the choice of the rules -/

theorem filter_keeps_all {c : CheckCmd} (hf : c.filter = none) (ht : c.tags = none) (l : List CheckRule) :
    l.filter c.keeps = l :=
  List.filter_eq_self.2 (fun _ _ => by unfold CheckCmd.keeps; rw [hf, ht]; rfl)

open Classical in
/-- the command with the wanted rules only -/
noncomputable def onlyChosen (c : CheckCmd) : CheckCmd :=
  { c with
    filter := none
    tags := none
    rulesets := c.rulesets.map (fun s => { s with rules := s.rules.filter (fun x => decide (Chosen c x)) }) }

/-- **C58** the command runs as if only the wanted rules were there; this holds for
all rule sets, also for those with fast termination. -/
theorem C58_run (c : CheckCmd) (files : List (String × Bytes)) : c.run files = (onlyChosen c).run files := by
  have hp : c.prepared = (onlyChosen c).prepared := by
    unfold CheckCmd.prepared
    congr 1
    show _ = List.map _ (List.map _ _)
    rw [List.map_map]
    apply List.map_congr_left
    intro s _
    simp only [Function.comp]
    rw [filter_keeps_all (c := onlyChosen c) rfl rfl]
    congr 1
    exact List.filter_congr (fun x _ => by rw [Bool.eq_iff_iff, keeps_iff]; simp)
  unfold CheckCmd.run
  rw [hp]
  rfl

open Classical in
/-- **C58** without fast termination, the reports are those reports of the run with
all rules that belong to wanted rules.  `hsame` holds if the ids are distinct. -/
theorem C58_reports (c : CheckCmd) (hnf : c.NoFast) (files : List (String × Bytes)) (rs : List ByteRecord)
    (hi : Input files rs) (out all : List Report) (h : c.run files = .ok out)
    (hall : ({ c with filter := none, tags := none } : CheckCmd).run files = .ok all)
    (hsame : ∀ s ∈ c.rulesets, ∀ x ∈ s.rules, ∀ t ∈ c.rulesets, ∀ y ∈ t.rules, x.id = y.id → Chosen c x → Chosen c y) :
    out.Perm (all.filter (fun o => decide (∃ s ∈ c.rulesets, ∃ x ∈ s.rules, x.id = o.rule ∧ Chosen c x))) := by
  have h1 := (check_chosen hnf hi h).1
  have h2 := (check_chosen (c := { c with filter := none, tags := none }) hnf hi hall).1
  simp only [filter_keeps_all (c := { c with filter := none, tags := none }) rfl rfl] at h2
  refine h1.trans ((List.Perm.of_eq ?_).trans (h2.filter _).symm)
  have hex : examined { c with filter := none, tags := none } rs = examined c rs := rfl
  rw [hex, List.filter_flatMap]
  apply flatMap_congr_mem
  intro s hs
  rw [List.filter_flatMap]
  have key : ∀ l : List CheckRule, (∀ x ∈ l, x ∈ s.rules) →
      (l.filter c.keeps).flatMap (ruleOut c.C s.scope (examined c rs)) =
      l.flatMap (fun x => (ruleOut c.C s.scope (examined c rs) x).filter
        (fun o => decide (∃ s ∈ c.rulesets, ∃ x ∈ s.rules, x.id = o.rule ∧ Chosen c x))) := by
    intro l
    induction l with
    | nil => intro _; rfl
    | cons x l ih =>
      intro hl
      rw [List.flatMap_cons, List.filter_cons]
      by_cases hk : c.keeps x = true
      · rw [if_pos hk, List.flatMap_cons, ih (fun y hy => hl y (by simp [hy]))]
        congr 1
        symm
        rw [List.filter_eq_self]
        intro o ho
        rw [ruleOut_id o ho]
        exact decide_eq_true ⟨s, hs, x, hl x (by simp), rfl, (keeps_iff c x).1 hk⟩
      · rw [if_neg hk, ih (fun y hy => hl y (by simp [hy]))]
        have : (ruleOut c.C s.scope (examined c rs) x).filter
            (fun o => decide (∃ s ∈ c.rulesets, ∃ x ∈ s.rules, x.id = o.rule ∧ Chosen c x)) = [] := by
          rw [List.filter_eq_nil_iff]
          intro o ho
          rw [ruleOut_id o ho]
          simp only [decide_eq_true_eq]
          rintro ⟨t, ht, y, hy, hid, hw⟩
          exact hk ((keeps_iff c x).2 (hsame t ht y hy s hs x (hl x (by simp)) hid hw))
        rw [this, List.nil_append]
  exact key s.rules (fun _ h => h)

/-! ## cases -/

/-- the filter rule `A` with tags, a unicode rule with a normalization form that
excludes the byte 7E, and a datetime rule for values like `x2` -/
def taggedRule : CheckRule := { failRule "A" with tags := some [bs "x", bs "y"] }
def unicodeRule : CheckRule := ⟨bs "U", none, .info, .unicode (some (fun v => !v.contains 0x7E))⟩
def dateRule : CheckRule :=
  ⟨bs "D", some [bs "z"], .warning, .datetime toyEnv ⟨false⟩ Path.ppnPath (fun v => v.all (· == 0x32)) 1⟩

/-- a command with three rules -/
def rulesSample : CheckCmd := checkSample false [taggedRule, unicodeRule, dateRule]

example : HasRule rulesSample none unicodeRule :=
  ⟨[], [], [taggedRule], [dateRule], rfl, by
    intro y hy
    simp only [List.flatMap_nil, List.nil_append, List.append_nil, List.mem_append, List.mem_singleton] at hy
    rcases hy with rfl | rfl <;> decide +kernel⟩
example : Chosen rulesSample unicodeRule := (keeps_iff _ _).1 (by decide +kernel)
example : rulesSample.NoFast := by intro s hs; simp [rulesSample, checkSample] at hs; subst hs; rfl
example : rulesSample.run [("a", recLine "12" ++ recLine "1~2" ++ recLine "1")] = .ok
    [⟨some (bs "12"), bs "A", .error, none⟩,
     ⟨some (bs "1~2"), bs "A", .error, none⟩, ⟨some (bs "1~2"), bs "U", .info, some (bs "1~2")⟩,
     ⟨some (bs "1~2"), bs "D", .warning, some (bs "1~2")⟩,
     ⟨some (bs "1"), bs "A", .error, none⟩, ⟨some (bs "1"), bs "D", .warning, some (bs "1")⟩] := by
  decide +kernel

/-- a value that is not UTF-8 -/
example : UnicodeBad none [⟨bs "003@", none, [⟨0x30, [0xFF]⟩]⟩] :=
  .inl ⟨[0xFF], ⟨_, List.mem_singleton.2 rfl, _, List.mem_singleton.2 rfl, rfl⟩,
    fun h => absurd ((utf8Valid_iff _).2 h) (by decide +kernel)⟩
example : Dated (fun v => v.all (· == 0x32)) 1 (bs "12") := ⟨bs "1", bs "2", by decide +kernel⟩

/-- `--tags "q, y"` keeps the rule with the tags `x` and `y`; rules without tags are
dropped -/
example : Chosen { rulesSample with tags := some (bs "q, y") } taggedRule := (keeps_iff _ _).1 (by decide +kernel)
example : ¬ Chosen { rulesSample with tags := some (bs "q, y") } unicodeRule :=
  fun h => absurd ((keeps_iff _ _).2 h) (by decide +kernel)
example : ({ rulesSample with tags := some (bs "q, y") } : CheckCmd).run [("a", recLine "1~2")] =
    .ok [⟨some (bs "1~2"), bs "A", .error, none⟩] := by decide +kernel

end Pica.Props
