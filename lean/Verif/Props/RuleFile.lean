import Verif.Lemmas.RuleFile
import Verif.Props.CheckOutput
import Verif.Props.Csv
import Verif.Props.CheckOrder
import Verif.Props.MatcherParse
import Verif.Props.Format

/-! C79: rule files. -/

namespace Pica.Props
open Pica Spec

section
variable (R : RuleEnv) (toml : Bytes → Option TTable) (tr : NForm → Bytes → Bytes) (tables : Bytes → Option Table)
  (order : List (Bytes × RawRule) → List (Bytes × RawRule)) (nf : Option NForm)

/-- a rule set has been loaded from the text of a file: the text is a table that
describes the rule set, and the lists of its rules have been read -/
def FromFile (text : Option Bytes) (rs : RuleSet) : Prop :=
  ∃ content t raw, text = some content ∧ utf8Valid content = true ∧ toml (translit tr nf content) = some t ∧
    IsRuleSet R (.accepted R.rx) t raw ∧ rs.scope = raw.scope ∧ rs.fast = raw.fast ∧
    All2 (Loaded tables) (order raw.rules) rs.rules

/-- **C79** (loading) The rule set that is loaded from a file is the one that its table
describes: scope, termination and the rules, each with its check, its options, its level
and its tags; what is left out has the documented default. -/
theorem C79_read_partial (text : Option Bytes) (s s' : Levels) (rs : RuleSet)
    (h : RuleSet.new R toml tr tables order nf text s = some (rs, s')) :
    FromFile R toml tr tables order nf text rs := by
  unfold RuleSet.new at h
  simp only [De.bind_eq, De.ofOption_eq] at h
  obtain ⟨content, s1, ⟨rfl, rfl⟩, h⟩ := h
  split at h
  · rename_i hu
    simp only [De.bind_eq, De.ofOption_eq] at h
    obtain ⟨t, _, ⟨h1, rfl⟩, raw, s2, h2, h3, -⟩ := h
    obtain ⟨g1, g2, g3⟩ := (C68_load tables raw.scope raw.fast (order raw.rules)).1 rs h3
    exact ⟨content, t, raw, rfl, hu, h1, deRuleSet_reads R h2, g1, g2, g3⟩
  · simp at h

/-- **C79** (all files) Either every rule file is loaded, or none is used. -/
theorem C79_files_partial (texts : List (Option Bytes)) (s s' : Levels) (sets : List RuleSet)
    (h : loadRuleSets R toml tr tables order nf texts s = some (sets, s')) :
    All2 (FromFile R toml tr tables order nf) texts sets := by
  induction texts generalizing s sets with
  | nil =>
    simp only [loadRuleSets, De.pure_eq] at h
    rw [← h.1]; exact .nil
  | cons text texts ih =>
    simp only [loadRuleSets, De.bind_eq, De.pure_eq] at h
    obtain ⟨rs, s1, h1, l, s2, h2, rfl, rfl⟩ := h
    exact .cons (C79_read_partial R toml tr tables order nf text _ _ rs h1) (ih _ _ h2)

/-- **C79** (names) The rules of a loaded rule set are those of the table `rule`, under
their names, none is lost and none is added. -/
theorem C79_names (ho : ∀ l, (order l).Perm l) (text : Option Bytes) (rs : RuleSet)
    (h : FromFile R toml tr tables order nf text rs) :
    ∃ content t, text = some content ∧ toml (translit tr nf content) = some t ∧
      ((∃ u, (bs "rule", TVal.table u) ∈ t ∧ (rs.rules.map (·.id)).Perm (u.map (·.1))) ∨
        (Absent (bs "rule") t ∧ rs.rules = [])) := by
  obtain ⟨content, t, raw, h1, -, h2, h3, -, -, h6⟩ := h
  refine ⟨content, t, h1, h2, ?_⟩
  have hid : ∀ {a : List (Bytes × RawRule)} {b : List CheckRule}, All2 (Loaded tables) a b → b.map (·.id) = a.map (·.1) := by
    intro a b hab
    induction hab with
    | nil => rfl
    | cons h _ ih =>
      rw [List.map_cons, List.map_cons, ih]
      cases h <;> rfl
  rcases h3.rules with ⟨v, hv, u, rfl, hu⟩ | ⟨ha, he⟩
  · refine .inl ⟨u, hv, ?_⟩
    have hk : ∀ {a : TTable} {b : List (Bytes × RawRule)}, IsRules R (.accepted R.rx) a b → b.map (·.1) = a.map (·.1) := by
      intro a b hab
      unfold IsRules at hab
      induction hab with
      | nil => rfl
      | cons h _ ih => rw [List.map_cons, List.map_cons, ih, h.1]
    rw [hid h6, ← hk hu]
    exact (ho _).map _
  · refine .inr ⟨ha, ?_⟩
    rw [he] at h6
    have : order [] = [] := (ho []).eq_nil
    rw [this] at h6
    generalize rs.rules = l at h6 ⊢
    cases h6
    rfl

/-- **C79** (acceptance) Every file whose table describes a rule set is loaded, if its
expressions are accepted whatever has been parsed before and its lists can be read. -/
theorem C79_accept_partial (ho : ∀ l, (order l).Perm l) (content : Bytes) (t : TTable) (raw : RawRuleSet)
    (hu : utf8Valid content = true) (ht : toml (translit tr nf content) = some t) (hp : Proper (.table t))
    (hr : IsRuleSet R (.always R.rx) t raw) (hl : ∀ x ∈ raw.rules, Readable tables x.2) (s : Levels) :
    ∃ rs s', RuleSet.new R toml tr tables order nf (some content) s = some (rs, s') ∧
      rs.scope = raw.scope ∧ rs.fast = raw.fast ∧ All2 (Loaded tables) (order raw.rules) rs.rules := by
  obtain ⟨s', h1⟩ := deRuleSet_takes R hp hr s
  obtain ⟨g1, g2⟩ := C68_load tables raw.scope raw.fast (order raw.rules)
  obtain ⟨rs, h2⟩ := Option.isSome_iff_exists.1 (g2.2 (fun x hx => hl x ((ho _).mem_iff.1 hx)))
  refine ⟨rs, s', ?_, g1 rs h2⟩
  unfold RuleSet.new
  simp only [De.bind_eq, De.ofOption_eq]
  refine ⟨content, s, ⟨rfl, rfl⟩, ?_⟩
  rw [if_pos hu]
  simp only [De.bind_eq, De.ofOption_eq]
  exact ⟨t, s, ⟨ht, rfl⟩, raw, s', h1, h2, rfl⟩

attribute [local irreducible] SubMatcher.new FieldMatcher.new Path.new Format.new Query.new in
/-- **C79** (acceptance) An expression without parenthesis that is accepted once is always
accepted, with the same result. -/
theorem C79_plain (rx : Bytes → Bool) (t : Bytes) (h : 0x28 ∉ t) :
    (∀ p, (Exprs.accepted rx).path t p → (Exprs.always rx).path t p) ∧
    (∀ q, (Exprs.accepted rx).query t q → (Exprs.always rx).query t q) ∧
    (∀ m, (Exprs.accepted rx).matcher t m → (Exprs.always rx).matcher t m) := by
  have H : FmtSteps (fun _ _ => True) NoParen :=
    fmtSteps_noParen (fun _ _ _ => trivial) (fun _ _ _ => trivial) (fun _ _ _ => trivial) (fun _ _ _ => trivial)
  refine ⟨?_, ?_, ?_⟩
  · rintro p ⟨s, s', hs⟩ s₂
    refine ⟨(Path.new rx s₂ t).2, Prod.ext ?_ rfl⟩
    rw [← (H.newPath rx h (trivial : (fun _ _ => True) s s₂)).1, hs]
  · rintro p ⟨s, s', hs⟩ s₂
    refine ⟨(Query.new rx s₂ t).2, Prod.ext ?_ rfl⟩
    rw [← (H.newQuery rx h (trivial : (fun _ _ => True) s s₂)).1, hs]
  · rintro p ⟨s, s', hs⟩ s₂
    refine ⟨(FieldMatcher.new rx s₂ t).2, Prod.ext ?_ rfl⟩
    rw [← (H.toSteps.new rx h (trivial : (fun _ _ => True) s s₂)).1, hs]

theorem given_imp {α : Type} {k : Bytes} {P Q : TVal → α → Prop} {t : TTable} {a : α} (h : Given k P t a)
    (hp : Plain (.table t)) (f : ∀ v, Plain v → P v a → Q v a) : Given k Q t a := by
  obtain ⟨v, h1, h2⟩ := h
  cases hp with
  | table hp => exact ⟨v, h1, f v (hp _ h1) h2⟩

theorem may_imp {α : Type} {k : Bytes} {P Q : TVal → α → Prop} {t : TTable} {a : Option α} (h : May k P t a)
    (hp : Plain (.table t)) (f : ∀ v x, Plain v → P v x → Q v x) : May k Q t a := by
  rcases h with ⟨x, h1, h2⟩ | h
  · exact .inl ⟨x, given_imp h1 hp (fun v => f v x), h2⟩
  · exact .inr h

theorem isRuleSet_plain {t : TTable} {raw : RawRuleSet} (hp : Plain (.table t)) (h : IsRuleSet R (.accepted R.rx) t raw) :
    IsRuleSet R (.always R.rx) t raw := by
  have path : ∀ v p, Plain v → IsPath (.accepted R.rx) v p → IsPath (.always R.rx) v p := by
    rintro _ p hv ⟨text, rfl, h2⟩
    cases hv with
    | str hv => exact ⟨text, rfl, (C79_plain R.rx text hv).1 p h2⟩
  have query : ∀ v p, Plain v → IsQuery (.accepted R.rx) v p → IsQuery (.always R.rx) v p := by
    rintro _ p hv ⟨text, rfl, h2⟩
    cases hv with
    | str hv => exact ⟨text, rfl, (C79_plain R.rx text hv).2.1 p h2⟩
  have matcher : ∀ v p, Plain v → IsMatcher (.accepted R.rx) v p → IsMatcher (.always R.rx) v p := by
    rintro _ p hv ⟨text, rfl, h2⟩
    cases hv with
    | str hv => exact ⟨text, rfl, (C79_plain R.rx text hv).2.2 p h2⟩
  have desc : ∀ name t c, Plain (.table t) → Describes R (.accepted R.rx) name t c → Describes R (.always R.rx) name t c := by
    intro name t c hp h
    cases h with
    | allow h1 h2 h3 => exact .allow (given_imp h1 hp (fun v => path v _)) h2 h3
    | datetime h1 h2 h3 h4 => exact .datetime (given_imp h1 hp (fun v => path v _)) h2 h3 h4
    | duplicates h1 h2 h3 h4 => exact .duplicates (given_imp h1 hp (fun v => query v _)) h2 h3 h4
    | filter h1 h2 h3 => exact .filter (given_imp h1 hp (fun v => matcher v _)) h2 h3
    | isni h1 h2 h3 => exact .isni (given_imp h1 hp (fun v => path v _)) h2 h3
    | iso639 h1 h2 => exact .iso639 (given_imp h1 hp (fun v => path v _)) h2
    | jel h1 h2 => exact .jel (given_imp h1 hp (fun v => path v _)) h2
    | link h1 h2 h3 =>
      refine .link (given_imp h1 hp ?_) (given_imp h2 hp ?_) h3
      · rintro v hv ⟨u, rfl, hu⟩
        exact ⟨u, rfl, given_imp hu hv (fun v => path v _)⟩
      · rintro v hv ⟨u, rfl, hu⟩
        exact ⟨u, rfl, given_imp hu.1 hv (fun v => path v _), may_imp hu.2 hv matcher⟩
    | unicode h1 => exact .unicode h1
  have rule : ∀ v r, Plain v → IsTable (IsRule R (.accepted R.rx)) v r → IsTable (IsRule R (.always R.rx)) v r := by
    rintro v r hv ⟨u, rfl, hu⟩
    obtain ⟨name, h1, h2⟩ := hu.check
    exact ⟨u, rfl, hu.description, hu.link, hu.tags, hu.level, name, h1, desc _ _ _ hv h2⟩
  have rules : ∀ t rs, Plain (.table t) → IsRules R (.accepted R.rx) t rs → IsRules R (.always R.rx) t rs := by
    intro t rs hp h
    cases hp with
    | table hp =>
      unfold IsRules at h ⊢
      induction h with
      | nil => exact .nil
      | cons h _ ih =>
        exact .cons ⟨h.1, rule _ _ (hp _ (by simp)) h.2⟩ (ih (fun e he => hp e (by simp [he])))
  refine ⟨may_imp h.scope hp matcher, h.termination, ?_⟩
  rcases h.rules with h | h
  · refine .inl (given_imp h hp ?_)
    rintro v hv ⟨u, rfl, hu⟩
    exact ⟨u, rfl, rules _ _ hv hu⟩
  · exact .inr h

/-- **C79** (acceptance) A table without parentheses in its strings that is accepted once
is always accepted, with the same rules, whatever has been parsed before. -/
theorem C79_anytime (t : TTable) (hp : Proper (.table t)) (hq : Plain (.table t)) (s s' : Levels) (raw : RawRuleSet)
    (h : deRuleSet R t s = some (raw, s')) (s₂ : Levels) : ∃ s₂', deRuleSet R t s₂ = some (raw, s₂') :=
  deRuleSet_takes R hp (isRuleSet_plain R hq (deRuleSet_reads R h)) s₂

/-! ### what is not used and not reported -/

/-- **C79** is false: a key of a rule that has no meaning for any check is ignored,
whatever its value is. -/
theorem C79_rule_false (a b : TTable) (k : Bytes) (v : TVal) (hk : k ∉ ruleKeys) :
    deRule R (a ++ (k, v) :: b) = deRule R (a ++ b) :=
  deRule_keys R (fun _ hk' => get_insert (fun e => hk (e ▸ hk')))

/-- **C79** is false: a key of a rule set other than `scope`, `termination` and `rule` is
ignored, with everything in it. -/
theorem C79_set_false (a b : TTable) (k : Bytes) (v : TVal) (hk : k ∉ ruleSetKeys) :
    deRuleSet R (a ++ (k, v) :: b) = deRuleSet R (a ++ b) := by
  have e : ∀ k' ∈ ruleSetKeys, TTable.get (a ++ (k, v) :: b) k' = TTable.get (a ++ b) k' :=
    fun _ hk' => get_insert (fun e => hk (e ▸ hk'))
  have k1 : bs "scope" ∈ ruleSetKeys := by decide +kernel
  have k2 : bs "termination" ∈ ruleSetKeys := by decide +kernel
  have k3 : bs "rule" ∈ ruleSetKeys := by decide +kernel
  unfold deRuleSet De.optional De.default
  rw [e _ k1, e _ k2, e _ k3]

/-- a rule file in which the table of the rules has another name, or is missing -/
def NoRuleTable (text : Option Bytes) : Prop :=
  ∀ content t, text = some content → toml (translit tr nf content) = some t → Absent (bs "rule") t

/-- **C79** is false: rules under another name than `rule` are no rules.  `check` then
ends well and reports nothing, whatever the records are. -/
theorem C79_silent_false (ho : ∀ l, (order l).Perm l) (texts : List (Option Bytes))
    (hn : ∀ x ∈ texts, NoRuleTable toml tr nf x) (c : CheckCmd) (s : Levels) (files : List (String × Bytes)) (out : List Report)
    (h : c.execute R toml tr tables order nf texts s files = some (.ok out) ∨
      ∃ e, c.execute R toml tr tables order nf texts s files = some (.err e out)) : out = [] := by
  unfold CheckCmd.execute at h
  split at h
  · simp at h
  · rename_i sets s' hl
    have hf := C79_files_partial R toml tr tables order nf texts s s' sets hl
    have he : ∀ rs ∈ sets, rs.rules = [] := by
      intro rs hrs
      obtain ⟨x, hx, h1⟩ := hf.mem_right rs hrs
      obtain ⟨content, t, h2, h3, h4⟩ := C79_names R toml tr tables order nf ho x rs h1
      rcases h4 with ⟨u, h5, -⟩ | ⟨-, h5⟩
      · exact absurd h5 (hn x hx content t h2 h3 _)
      · exact h5
    have hp : ({ c with rulesets := sets } : CheckCmd).prepared = [] := by
      unfold CheckCmd.prepared
      rw [List.filter_eq_nil_iff]
      intro rs hrs
      obtain ⟨rs', h1, rfl⟩ := List.mem_map.1 hrs
      simp [he rs' h1]
    have hk := filesLoop_keeps (skip := c.skip) (body := selBody c.sel.test ({ c with rulesets := sets } : CheckCmd).body)
      (P := fun s => s.rulesets = [] ∧ s.out = []) (fun s r s' hs hb => by
        obtain ⟨ss, o, n⟩ := s
        obtain ⟨rfl, rfl⟩ := hs
        unfold selBody at hb
        split at hb
        · simp at hb
        · simp at hb
          rw [← hb]; exact ⟨rfl, rfl⟩
        · simp only [CheckCmd.body, CheckCmd.record, limitStep] at hb
          split at hb <;> simp at hb <;> rw [← hb] <;> exact ⟨rfl, rfl⟩) files ⟨[], [], 0⟩
    unfold CheckCmd.run at h
    rw [hp] at h
    dsimp only at h
    split at h
    · rename_i st hst
      obtain ⟨g1, g2⟩ := hk st ⟨rfl, rfl⟩ (.inl hst)
      rw [g1, g2] at h
      simpa using h.symm
    · rename_i e st hst
      obtain ⟨-, g2⟩ := hk st ⟨rfl, rfl⟩ (.inr ⟨e, hst⟩)
      rw [g2] at h
      simpa using h.symm
    · simp at h

end

/-! ### examples -/

/-- an environment for the examples -/
def ruleM : RuleEnv := ⟨fun _ => true, fun _ => toyEnv, fun _ => toyFmt, fun _ _ => true, fun _ _ => true⟩

/-- `check = "filter"`, `filter = "003@?"` and further keys -/
def ruleSample (more : TTable) : TTable :=
  [(bs "check", .str (bs "filter")), (bs "filter", .str (bs "003@?"))] ++ more

/-- a rule file with two rules -/
def fileSample : TTable :=
  [(bs "termination", .str (bs "fast")), (bs "scope", .str (bs "002@?")),
   (bs "rule", .table
    [(bs "A", .table (ruleSample [(bs "invert-match", .bool true), (bs "level", .str (bs "warning")),
      (bs "tags", .arr [.str (bs "x")])])),
     (bs "B", .table [(bs "check", .str (bs "isni")), (bs "path", .str (bs "006Z.0"))])])]

/-- the sample is read: name, level and tags of each rule -/
example : (deRuleSet ruleM fileSample ⟨0, 0, 0⟩).map
      (fun x => (x.1.fast, x.1.scope.isSome, x.1.rules.map (fun r => [r.1, r.2.level.text] ++ r.2.tags.getD []))) =
    some (true, true, [[bs "A", bs "warning", bs "x"], [bs "B", bs "error"]]) := by decide +kernel

/-- and it is loaded by `RuleSet::new` -/
example : ∃ rs s', RuleSet.new ruleM (fun _ => some fileSample) (fun _ => id) (fun _ => none) id none (some []) ⟨0, 0, 0⟩ =
    some (rs, s') ∧ FromFile ruleM (fun _ => some fileSample) (fun _ => id) (fun _ => none) id none (some []) rs ∧
    rs.rules.map (·.id) = [bs "A", bs "B"] := by
  have h : (RuleSet.new ruleM (fun _ => some fileSample) (fun _ => id) (fun _ => none) id none (some []) ⟨0, 0, 0⟩).map
      (fun x => x.1.rules.map (·.id)) = some [bs "A", bs "B"] := by decide +kernel
  obtain ⟨⟨rs, s'⟩, h1, h2⟩ := Option.map_eq_some_iff.1 h
  exact ⟨rs, s', h1, C79_read_partial _ _ _ _ _ _ _ _ _ _ h1, h2⟩

/-- the sample is a table without duplicate keys and without parentheses, so it is
accepted whatever has been parsed before -/
example (s : Levels) : ∃ raw s', deRuleSet ruleM fileSample s = some (raw, s') ∧
    IsRuleSet ruleM (.always ruleM.rx) fileSample raw := by
  have hp : Proper (.table fileSample) := by
    unfold fileSample ruleSample
    repeat (first
      | exact .str | exact .bool
      | (refine .table (by decide +kernel) ?_
         simp only [List.cons_append, List.nil_append, List.forall_mem_cons, List.not_mem_nil, false_implies, implies_true, and_true])
      | (refine .arr ?_
         simp only [List.forall_mem_cons, List.not_mem_nil, false_implies, implies_true, and_true])
      | constructor)
  have hq : Plain (.table fileSample) := by
    unfold fileSample ruleSample
    repeat (first
      | exact .str (by decide +kernel) | exact .bool
      | (refine .table ?_
         simp only [List.cons_append, List.nil_append, List.forall_mem_cons, List.not_mem_nil, false_implies, implies_true, and_true])
      | (refine .arr ?_
         simp only [List.forall_mem_cons, List.not_mem_nil, false_implies, implies_true, and_true])
      | constructor)
  have h : (deRuleSet ruleM fileSample ⟨0, 0, 0⟩).isSome = true := by decide +kernel
  obtain ⟨⟨raw, s0⟩, h⟩ := Option.isSome_iff_exists.1 h
  obtain ⟨s', h'⟩ := C79_anytime ruleM fileSample hp hq _ _ raw h s
  exact ⟨raw, s', h', isRuleSet_plain ruleM hq (deRuleSet_reads ruleM h)⟩

/-- **C79** is false: with `invert` for `invert-match` the rule is loaded, and reports
the records that it should accept. -/
theorem C79_false :
    (deRule ruleM (ruleSample [(bs "invert-match", .bool true)]) ⟨0, 0, 0⟩).map (fun x =>
      match x.1.check with | .other (.filter _ _ _ b) => some b | _ => none) = some (some true) ∧
    (deRule ruleM (ruleSample [(bs "invert", .bool true)]) ⟨0, 0, 0⟩).map (fun x =>
      match x.1.check with | .other (.filter _ _ _ b) => some b | _ => none) = some (some false) ∧
    bs "invert" ∉ ruleKeys := by decide +kernel

/-- `[rules.x]` for `[rule.x]`: no rule is loaded, and there is no error -/
example : (deRuleSet ruleM [(bs "rules", .table [(bs "A", .table (ruleSample []))])] ⟨0, 0, 0⟩).map (fun x => x.1.rules.length) = some 0 ∧
    bs "rules" ∉ ruleSetKeys := by decide +kernel

/-- the names of the rules that are reported with a rule file that has the table `k` -/
def namesReported (k : String) : Option (List Bytes) :=
  match CheckCmd.execute ruleM
      (fun _ => some [(bs k, .table [(bs "A", .table (ruleSample []))])]) (fun _ => id)
      (fun _ => none) id none [some []] (checkSample false []) ⟨0, 0, 0⟩ [("a", recLine "1")] with
  | some (.ok out) => some (out.map (·.rule))
  | _ => none

/-- and `check` with this file ends well without reports, although with `[rule.A]` it
reports the record -/
example : namesReported "rules" = some [] ∧ namesReported "rule" = some [bs "A"] := by decide +kernel

end Pica.Props
