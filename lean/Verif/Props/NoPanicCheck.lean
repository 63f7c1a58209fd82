import Verif.Props.NoPanic
import Verif.Props.RuleFile

/-! # C94: `check` -/

namespace Pica.Props
open Pica Spec

/-- path, query and matcher of a check are defined for every record -/
def SafeCheck : Checks → Prop
  | .allow E o p _ => ∀ r, ∃ vs, p.values E o r = some vs
  | .datetime E o p _ _ => ∀ r, ∃ vs, p.values E o r = some vs
  | .duplicates E ci q _ _ => ∀ r, ∃ rows, q.run E ⟨ci, bs "|", false, false⟩ r = some rows
  | .filter E o m _ => ∀ r, ∃ b, m.eval E o r = some b
  | .isni E o p _ => ∀ r, ∃ vs, p.values E o r = some vs
  | .iso639 E o p => ∀ r, ∃ vs, p.values E o r = some vs
  | .jel E o p => ∀ r, ∃ vs, p.values E o r = some vs
  | .link E o src tgt m _ => (∀ r, ∃ vs, src.values E o r = some vs) ∧ (∀ r, ∃ vs, tgt.values E o r = some vs) ∧
      ∀ m', m = some m' → ∀ r, ∃ b, m'.eval E o r = some b
  | .unicode _ => True

theorem safe_preprocess {c : Checks} (h : SafeCheck c) (r : Record) : ∃ c', c.preprocess r = some c' ∧ SafeCheck c' := by
  cases c with
  | link E o src tgt m s =>
    obtain ⟨h1, h2, h3⟩ := h
    have : ∃ s', linkPreprocess E o tgt m s r = some s' := by
      obtain ⟨vs, hv⟩ := h2 r
      unfold linkPreprocess
      rw [hv]
      dsimp only
      split
      · exact ⟨_, rfl⟩
      · cases m with
        | none => exact ⟨_, rfl⟩
        | some m' =>
          obtain ⟨b, hb⟩ := h3 m' rfl r
          dsimp only
          rw [hb]
          cases b <;> exact ⟨_, rfl⟩
    obtain ⟨s', hs⟩ := this
    exact ⟨.link E o src tgt m s', by rw [Checks.preprocess, hs]; rfl, h1, h2, h3⟩
  | _ => exact ⟨_, rfl, h⟩

theorem safe_check (C : CheckEnv) {c : Checks} (h : SafeCheck c) (r : Record) :
    ∃ c' b msg, c.check C r = some (c', b, msg) ∧ SafeCheck c' := by
  cases c with
  | allow E o p values =>
    obtain ⟨vs, hv⟩ := h r
    exact ⟨_, _, _, by rw [Checks.check, hv]; rfl, h⟩
  | iso639 E o p =>
    obtain ⟨vs, hv⟩ := h r
    exact ⟨_, _, _, by rw [Checks.check, hv]; rfl, h⟩
  | jel E o p =>
    obtain ⟨vs, hv⟩ := h r
    exact ⟨_, _, _, by rw [Checks.check, hv]; rfl, h⟩
  | isni E o p pre =>
    obtain ⟨vs, hv⟩ := h r
    exact ⟨_, _, _, by rw [Checks.check, hv]; rfl, h⟩
  | datetime E o p parses offset =>
    obtain ⟨vs, hv⟩ := h r
    have hf := filterP_of_total (f := datetimeBad parses offset) (l := vs)
      (fun v _ => ⟨_, (datetimeBad_spec parses offset v).choose_spec.1⟩)
    exact ⟨_, _, _, by rw [Checks.check, hv]; dsimp only; rw [hf]; rfl, h⟩
  | duplicates E ci q th sep =>
    obtain ⟨rows, hq⟩ := h r
    exact ⟨_, _, _, by rw [Checks.check, hq]; rfl, h⟩
  | filter E o m inv =>
    obtain ⟨b, hb⟩ := h r
    exact ⟨_, _, _, by rw [Checks.check, hb]; rfl, h⟩
  | unicode form =>
    obtain ⟨b, msg, h1, -⟩ := C55_unicode C form r
    exact ⟨_, b, msg, h1, h⟩
  | link E o src tgt m s =>
    obtain ⟨vs, hv⟩ := h.1 r
    rw [Checks.check, hv, (C23_ppn C.E₀ ⟨false⟩ r).1]
    exact ⟨_, _, _, rfl, h⟩

/-- all rules of a rule set, and its scope -/
def SafeSet (C : CheckEnv) (s : RuleSet) : Prop :=
  (∀ m, s.scope = some m → ∀ r, ∃ b, m.eval C.E₀ ⟨false⟩ r = some b) ∧ ∀ c ∈ s.rules, SafeCheck c.check

theorem safe_rules_preprocess (r : Record) : ∀ (cs : List CheckRule), (∀ c ∈ cs, SafeCheck c.check) →
    ∃ cs', mapP (CheckRule.preprocess r) cs = some cs' ∧ ∀ c ∈ cs', SafeCheck c.check
  | [], _ => ⟨[], rfl, by simp⟩
  | c :: cs, h => by
    obtain ⟨x, hx, hs⟩ := safe_preprocess (h c (by simp)) r
    obtain ⟨cs', h1, h2⟩ := safe_rules_preprocess r cs (fun c hc => h c (by simp [hc]))
    refine ⟨{ c with check := x } :: cs', ?_, ?_⟩
    · have : CheckRule.preprocess r c = some { c with check := x } := by unfold CheckRule.preprocess; rw [hx]; rfl
      rw [mapP, this]; dsimp only; rw [h1]; rfl
    · intro c' hc'
      rcases List.mem_cons.1 hc' with rfl | hc'
      · exact hs
      · exact h2 c' hc'

theorem safe_rules_check (C : CheckEnv) (fast : Bool) (r : Record) : ∀ (cs : List CheckRule), (∀ c ∈ cs, SafeCheck c.check) →
    ∃ cs' out, RuleSet.checkRules C fast r cs = some (cs', out) ∧ ∀ c ∈ cs', SafeCheck c.check
  | [], _ => ⟨[], [], rfl, by simp⟩
  | c :: cs, h => by
    have hrun : ∃ c' out b, c.run C r = some (c', out, b) ∧ SafeCheck c'.check := by
      obtain ⟨x, b, msg, hx, hs⟩ := safe_check C (h c (by simp)) r
      unfold CheckRule.run
      rw [hx]
      cases b with
      | false => exact ⟨_, _, _, rfl, hs⟩
      | true =>
        dsimp only
        rw [(C23_ppn C.E₀ ⟨false⟩ r).1]
        exact ⟨_, _, _, rfl, hs⟩
    obtain ⟨c', out, b, h1, h2⟩ := hrun
    obtain ⟨cs', out', h3, h4⟩ := safe_rules_check C fast r cs (fun c hc => h c (by simp [hc]))
    rw [RuleSet.checkRules, h1]
    dsimp only
    split
    · refine ⟨_, _, rfl, fun x hx => ?_⟩
      rcases List.mem_cons.1 hx with rfl | hx
      · exact h2
      · exact h x (by simp [hx])
    · rw [h3]
      refine ⟨_, _, rfl, fun x hx => ?_⟩
      rcases List.mem_cons.1 hx with rfl | hx
      · exact h2
      · exact h4 x hx

theorem safe_step (C : CheckEnv) (r : Record) {s : RuleSet} (h : SafeSet C s) :
    ∃ s' out, s.step C r = some (s', out) ∧ SafeSet C s' := by
  obtain ⟨cs, h1, h2⟩ := safe_rules_preprocess r s.rules h.2
  have hp : s.preprocess r = some { s with rules := cs } := by unfold RuleSet.preprocess; rw [h1]; rfl
  obtain ⟨cs', out, h3, h4⟩ := safe_rules_check C s.fast r cs h2
  unfold RuleSet.step
  rw [hp]
  dsimp only
  unfold RuleSet.check
  dsimp only
  cases hsc : s.scope with
  | none =>
    dsimp only
    rw [h3]
    exact ⟨_, _, rfl, by simp, h4⟩
  | some m =>
    obtain ⟨b, hb⟩ := h.1 m hsc r
    dsimp only
    rw [hb]
    cases b with
    | false => exact ⟨_, _, rfl, by intro m' hm'; exact h.1 m' (by rw [hsc]; exact hm'), h2⟩
    | true =>
      dsimp only
      rw [h3]
      exact ⟨_, _, rfl, by intro m' hm'; exact h.1 m' (by rw [hsc]; exact hm'), h4⟩

theorem safe_record (C : CheckEnv) (r : Record) : ∀ (ss : List RuleSet), (∀ s ∈ ss, SafeSet C s) →
    ∃ ss' out, CheckCmd.record C r ss = some (ss', out) ∧ ∀ s ∈ ss', SafeSet C s
  | [], _ => ⟨[], [], rfl, by simp⟩
  | s :: ss, h => by
    obtain ⟨s', out, h1, h2⟩ := safe_step C r (h s (by simp))
    obtain ⟨ss', out', h3, h4⟩ := safe_record C r ss (fun s hs => h s (by simp [hs]))
    rw [CheckCmd.record, h1]
    dsimp only
    rw [h3]
    refine ⟨_, _, rfl, fun x hx => ?_⟩
    rcases List.mem_cons.1 hx with rfl | hx
    · exact h2
    · exact h4 x hx

/-- regular expressions that the parser accepts can be compiled by the checks, with every
threshold, and by the scopes of rule sets -/
structure RulesCompile (R : RuleEnv) (C : CheckEnv) : Prop where
  env : ∀ th ci, RegexOk R.rx (R.env th) ⟨ci⟩
  fmt : ∀ th ci, RegexOk R.rx (R.fmtEnv th).toEnv ⟨ci⟩
  scope : RegexOk R.rx C.E₀ ⟨false⟩

theorem accepted_path {R : RuleEnv} {t : TTable} {k : Bytes} {p : Path} {E : Env} {o : Opts} (hr : RegexOk R.rx E o)
    (h : Given k (IsPath (.accepted R.rx)) t p) (r : Record) : ∃ vs, p.values E o r = some vs := by
  obtain ⟨_, -, _, -, s, s', hp⟩ := h
  obtain ⟨_, _, -, hv⟩ := C23_text R.rx s s' _ p hp E o hr
  exact ⟨_, hv r⟩

theorem accepted_matcher {R : RuleEnv} {v : TVal} {m : RecordMatcher} {E : Env} {o : Opts} (hr : RegexOk R.rx E o)
    (h : IsMatcher (.accepted R.rx) v m) (r : Record) : ∃ b, m.eval E o r = some b := by
  obtain ⟨_, -, s, s', hm⟩ := h
  exact C22_record_partial R.rx s s' _ m hm E o hr r

theorem safe_described {R : RuleEnv} {C : CheckEnv} (hr : RulesCompile R C) {name : Bytes} {t : TTable} {raw : RawCheck}
    (h : Spec.Describes R (.accepted R.rx) name t raw) :
    match raw with
    | .allow E o p _ _ => ∀ r, ∃ vs, p.values E o r = some vs
    | .other c => SafeCheck c := by
  cases h with
  | allow h1 _ _ => exact accepted_path (hr.env _ _) h1
  | datetime h1 _ _ _ => exact accepted_path (hr.env _ _) h1
  | @duplicates t q n th sep ci h1 _ _ _ =>
    obtain ⟨_, -, _, -, s, s', hq⟩ := h1
    intro r
    obtain ⟨_, -, hv⟩ := C25_text R.rx s s' _ q hq (R.fmtEnv th) ⟨ci, bs "|", false, false⟩ (hr.fmt _ _)
    exact ⟨_, hv r⟩
  | filter h1 _ _ =>
    obtain ⟨_, -, h1⟩ := h1
    exact accepted_matcher (hr.env _ _) h1
  | isni h1 _ _ => exact accepted_path (hr.env _ _) h1
  | iso639 h1 _ => exact accepted_path (hr.env _ _) h1
  | jel h1 _ => exact accepted_path (hr.env _ _) h1
  | link h1 h2 _ =>
    obtain ⟨_, -, _, -, h1⟩ := h1
    obtain ⟨_, -, _, -, h2, h3⟩ := h2
    refine ⟨accepted_path (hr.env _ _) h1, accepted_path (hr.env _ _) h2, fun m' hm' => ?_⟩
    rcases h3 with ⟨x, ⟨_, -, hx⟩, he⟩ | ⟨_, he⟩
    · rw [he, Option.some.injEq] at hm'
      subst hm'
      exact accepted_matcher (hr.env _ _) hx
    · rw [he] at hm'; simp at hm'
  | unicode _ => trivial

/-- **C94** `check`: rules, scopes and rule sets from files that have been accepted never
make the command panic, whatever the records are, also with fast termination and link
rules. -/
theorem C94_check (W : World) (R : RuleEnv) (toml : Bytes → Option TTable)
    (order : List (Bytes × RawRule) → List (Bytes × RawRule)) (horder : ∀ l, ∀ x ∈ order l, x ∈ l)
    (regexSet : List Bytes → Option (Bytes → Bool)) (C : CheckEnv) (hr : RulesCompile R C) (cfg : Config) (s : Levels)
    (a : CheckArgs) (hc : Compiles W a.opts) (c : CheckCmd) (h : a.prepare W R toml order regexSet C cfg s = some c)
    (files : List (String × Bytes)) : Survives c.skip files (c.run files) := by
  have hp : ∃ sel s' sets, a.opts.select W cfg s = (some sel, s') ∧
      (∃ s'', loadRuleSets R toml W.tr W.list order cfg.normalization a.rules s' = some (sets, s'')) ∧
      c.sel = sel ∧ c.C = C ∧ c.rulesets = sets := by
    unfold CheckArgs.prepare at h
    split at h
    · simp at h
    · rename_i sel s1 h1
      split at h
      · simp at h
      · rename_i sets s2 h2
        split at h
        · simp only [Option.some.injEq] at h
          subst h
          exact ⟨sel, s1, sets, h1, ⟨s2, h2⟩, rfl, rfl, rfl⟩
        · rw [Option.map_eq_some_iff] at h
          obtain ⟨re, -, rfl⟩ := h
          exact ⟨sel, s1, sets, h1, ⟨s2, h2⟩, rfl, rfl, rfl⟩
  obtain ⟨sel, s1, sets, h1, ⟨s2, h2⟩, e1, e2, e3⟩ := hp
  have hfiles := C79_files_partial R toml W.tr W.list order cfg.normalization a.rules s1 s2 sets h2
  have hsets : ∀ st ∈ c.prepared, SafeSet c.C st := by
    intro st hst
    unfold CheckCmd.prepared at hst
    obtain ⟨st0, h0, rfl⟩ := List.mem_map.1 (List.mem_filter.1 hst).1
    rw [e3] at h0
    obtain ⟨text, -, content, t, raw, -, -, -, hset, g1, g2, g3⟩ := hfiles.mem_right st0 h0
    refine ⟨fun m hm => ?_, fun rule hrule => ?_⟩
    · rw [e2]
      rcases hset.scope with ⟨x, ⟨v, -, hx⟩, he⟩ | ⟨_, he⟩
      · have : m = x := by rw [g1, he, Option.some.injEq] at hm; exact hm.symm
        subst this
        exact accepted_matcher hr.scope hx
      · rw [g1, he] at hm; simp at hm
    · have hmem := (List.mem_filter.1 hrule).1
      obtain ⟨e, he, hl⟩ := g3.mem_right rule hmem
      have he' := horder _ e he
      have hrules : ∃ name t', Spec.Describes R (.accepted R.rx) name t' e.2.check := by
        rcases hset.rules with ⟨v, -, t', -, hall⟩ | ⟨_, hnil⟩
        · obtain ⟨x, -, -, t'', -, hrule⟩ := hall.mem_right e he'
          obtain ⟨name, -, hd⟩ := hrule.check
          exact ⟨name, t'', hd⟩
        · rw [hnil] at he'; simp at he'
      obtain ⟨name, t', hd⟩ := hrules
      have hs := safe_described hr hd
      cases hl with
      | allow ht hcol hv => exact hs
      | other => exact hs
  obtain ⟨rs, hi⟩ := input_exists files
  have hl : Survives c.skip files (filesLoop c.skip id (selBody c.sel.test c.body) files ⟨c.prepared, [], 0⟩) := by
    refine filesLoop_survives (P := fun st => ∀ x ∈ CheckState.rulesets st, SafeSet c.C x) hi (fun _ h => h)
      (fun st r _ hst => ?_) _ hsets
    refine selBody_ok hst (by rw [e1]; exact select_total hc h1 r) (fun _ => ?_)
    obtain ⟨ss, out, h5, h6⟩ := safe_record c.C r.record st.rulesets hst
    unfold CheckCmd.body
    rw [h5]
    exact limitStep_ok h6
  refine survives_map hl (fun st hs => ?_) (fun e st hs => ?_)
  · exact ⟨_, by unfold CheckCmd.run; rw [hs]⟩
  · exact ⟨_, by unfold CheckCmd.run; rw [hs]⟩

/-! ## what does not hold, and examples -/

/-- regular expressions that compile, but not with `case_insensitive(true)` -/
def bigWorld : World := { toyWorld with base := { toyFmt with regex := bigEnv.regex } }

/-- **C94** false if a regular expression does not compile with `--ignore-case`, see
C22. -/
theorem C94_regex_false :
    (CountArgs.prepare bigWorld ⟨false, none⟩ Levels.zero ⟨false, false, false, false, false, false,
      toyOpts 80 true none (some "003@.0 =~ 'x'")⟩).map (fun c => c.run [("a", recLine "x")]) = some .panic ∧
    (CountArgs.prepare bigWorld ⟨false, none⟩ Levels.zero ⟨true, false, false, false, false, false,
      toyOpts 80 false none (some "003@.0 =~ 'x'")⟩).map (fun c => c.run [("a", recLine "x")]) = some (.ok (bs "1" ++ [LF])) := by
  decide +kernel

/-- **C94** false for `concat --unique` by IDN and `convert --to xml`. -/
theorem C94_concat_false : ∃ c : ConcatCmd, ∃ files, AllValid files ∧ c.run files = .panic :=
  ⟨⟨false, true, .idn, false, toyEnv, ⟨false⟩, id, id⟩, [("a", bs "002@ " ++ [US, 0x30, 0x61, RS, LF])],
    allValid_of (by decide +kernel), by decide +kernel⟩

/-- see `C94_concat_false` -/
theorem C94_convert_false : ∃ c : ConvertCmd, c.to = .xml ∧ ∃ files, AllValid files ∧ c.run files = .panic :=
  ⟨⟨false, .xml, id, fun _ => [], [], []⟩, rfl, [("a", bs "003@ " ++ [US, 0x30, 0xFF, RS, LF])],
    allValid_of (by decide +kernel), by decide +kernel⟩

theorem toy_compiles (l : FilterOpts) : Compiles toyWorld l :=
  ⟨⟨fun _ _ => rfl, fun _ _ => rfl⟩, ⟨fun _ _ => rfl, fun _ _ => rfl⟩⟩

/-- options with an expression and a path for the lists -/
def panicOpts : FilterOpts := toyOpts 70 true (some "003@.0") (some "003@.0 =~ 'x' || 003@.0 =* 'abcd'")

/-- a line, an invalid line, a line with a value that is not UTF-8 -/
def panicFiles : List (String × Bytes) :=
  [("a", recLine "abcd" ++ (bs "xyz" ++ [LF] ++ (bs "003@ " ++ [US, 0x30, 0xFF, RS, LF])))]

example : ∃ c, CountArgs.prepare toyWorld ⟨true, none⟩ Levels.zero ⟨true, false, false, false, false, false, panicOpts⟩ =
    some c ∧ c.run panicFiles = .ok (bs "1" ++ [LF]) ∧ c.run panicFiles ≠ .panic := by
  obtain ⟨c, h⟩ := Option.isSome_iff_exists.1 (by decide +kernel : (CountArgs.prepare toyWorld ⟨true, none⟩ Levels.zero
    ⟨true, false, false, false, false, false, panicOpts⟩).isSome = true)
  have h2 : (CountArgs.prepare toyWorld ⟨true, none⟩ Levels.zero ⟨true, false, false, false, false, false, panicOpts⟩).map
    (fun c => c.run panicFiles) = some (.ok (bs "1" ++ [LF])) := by decide +kernel
  rw [h] at h2
  exact ⟨c, h, by simpa using h2, C94_no_panic _ _ _ (C94_count toyWorld _ _ _ (toy_compiles _) c h _)⟩

example : ∃ c, DescribeArgs.prepare toyWorld id ⟨false, none⟩ Levels.zero ⟨none, none, panicOpts⟩ = some c ∧
    c.run panicFiles ≠ .panic := by
  obtain ⟨c, h⟩ := Option.isSome_iff_exists.1 (by decide +kernel : (DescribeArgs.prepare toyWorld id ⟨false, none⟩ Levels.zero
    ⟨none, none, panicOpts⟩).isSome = true)
  exact ⟨c, h, C94_no_panic _ _ _ (C94_describe toyWorld _ _ _ _ (toy_compiles _) c h _)⟩

example : ∃ c, ExplodeArgs.prepare toyWorld ⟨false, none⟩ Levels.zero ⟨none, none, .copy, panicOpts⟩ = some c ∧
    c.run panicFiles ≠ .panic := by
  obtain ⟨c, h⟩ := Option.isSome_iff_exists.1 (by decide +kernel : (ExplodeArgs.prepare toyWorld ⟨false, none⟩ Levels.zero
    ⟨none, none, .copy, panicOpts⟩).isSome = true)
  exact ⟨c, h, C94_no_panic _ _ _ (C94_explode toyWorld _ _ _ (toy_compiles _) c h _)⟩

example : ∃ c, HashArgs.prepare toyWorld id ⟨false, none⟩ Levels.zero ⟨panicOpts⟩ = some c ∧
    c.run panicFiles ≠ .panic := by
  obtain ⟨c, h⟩ := Option.isSome_iff_exists.1 (by decide +kernel : (HashArgs.prepare toyWorld id ⟨false, none⟩ Levels.zero
    ⟨panicOpts⟩).isSome = true)
  exact ⟨c, h, C94_no_panic _ _ _ (C94_hash toyWorld _ _ _ _ (toy_compiles _) c h _)⟩

example : ∃ c, SplitArgs.prepare toyWorld ⟨false, none⟩ Levels.zero ⟨false, none, 2, panicOpts⟩ = some c ∧
    c.run panicFiles ≠ .panic := by
  obtain ⟨c, h⟩ := Option.isSome_iff_exists.1 (by decide +kernel : (SplitArgs.prepare toyWorld ⟨false, none⟩ Levels.zero
    ⟨false, none, 2, panicOpts⟩).isSome = true)
  exact ⟨c, h, C94_no_panic _ _ _ (C94_split toyWorld _ _ _ (toy_compiles _) c h _)⟩

example : ∃ c, SliceArgs.prepare toyWorld ⟨true, none⟩ Levels.zero ⟨0, 0, 1, panicOpts⟩ = some c ∧
    c.run panicFiles ≠ .panic := by
  obtain ⟨c, h⟩ := Option.isSome_iff_exists.1 (by decide +kernel : (SliceArgs.prepare toyWorld ⟨true, none⟩ Levels.zero
    ⟨0, 0, 1, panicOpts⟩).isSome = true)
  exact ⟨c, h, C94_no_panic _ _ _ (C94_slice toyWorld _ _ _ (toy_compiles _) c h _)⟩

example : ∃ c, PartitionArgs.prepare toyWorld ⟨false, none⟩ Levels.zero ⟨false, none, bs "003@{0 | 0 =~ 'x'}", panicOpts⟩ = some c ∧
    c.run panicFiles ≠ .panic := by
  obtain ⟨c, h⟩ := Option.isSome_iff_exists.1 (by decide +kernel : (PartitionArgs.prepare toyWorld ⟨false, none⟩ Levels.zero
    ⟨false, none, bs "003@{0 | 0 =~ 'x'}", panicOpts⟩).isSome = true)
  exact ⟨c, h, C94_no_panic _ _ _ (C94_partition toyWorld _ _ _ (toy_compiles _) c h _)⟩

example : ∃ c, SampleArgs.prepare toyWorld (fun _ => 0) ⟨false, none⟩ Levels.zero ⟨2, panicOpts⟩ = some c ∧
    c.run panicFiles ≠ .panic := by
  obtain ⟨c, h⟩ := Option.isSome_iff_exists.1 (by decide +kernel : (SampleArgs.prepare toyWorld (fun _ => 0) ⟨false, none⟩
    Levels.zero ⟨2, panicOpts⟩).isSome = true)
  exact ⟨c, h, C94_no_panic _ _ _ (C94_sample toyWorld _ _ _ _ (toy_compiles _) c h _)⟩

example : ∃ c, FrequencyArgs.prepare toyWorld id ⟨false, none⟩ Levels.zero
    ⟨false, false, bs "|", false, false, 0, 0, none, bs "003@.0", panicOpts⟩ = some c ∧ c.run panicFiles ≠ .panic := by
  obtain ⟨c, h⟩ := Option.isSome_iff_exists.1 (by decide +kernel : (FrequencyArgs.prepare toyWorld id ⟨false, none⟩ Levels.zero
    ⟨false, false, bs "|", false, false, 0, 0, none, bs "003@.0", panicOpts⟩).isSome = true)
  exact ⟨c, h, C94_no_panic _ _ _ (C94_frequency toyWorld _ _ _ _ (toy_compiles _) c h _)⟩

example : ∃ c, SelectArgs.prepare toyWorld (fun _ => 0) ⟨false, none⟩ Levels.zero
    ⟨false, false, bs "|", false, true, none, bs "003@.0", panicOpts⟩ = some c ∧ c.run panicFiles ≠ .panic := by
  obtain ⟨c, h⟩ := Option.isSome_iff_exists.1 (by decide +kernel : (SelectArgs.prepare toyWorld (fun _ => 0) ⟨false, none⟩
    Levels.zero ⟨false, false, bs "|", false, true, none, bs "003@.0", panicOpts⟩).isSome = true)
  exact ⟨c, h, C94_no_panic _ _ _ (C94_select toyWorld _ _ _ _ (toy_compiles _) c h _)⟩

example : ∃ c, (toyFilter false).command toyWorld ⟨false, none⟩ Levels.zero ⟨false, 70, [], [], none, none⟩ = some c ∧
    c.run panicFiles ≠ .panic := by
  obtain ⟨c, h⟩ := Option.isSome_iff_exists.1 (by decide +kernel : ((toyFilter false).command toyWorld ⟨false, none⟩
    Levels.zero ⟨false, 70, [], [], none, none⟩).isSome = true)
  exact ⟨c, h, C94_no_panic _ _ _ (C94_filter toyWorld _ _ _ _ (toy_compiles _) c h _)⟩

example : ∃ c, PrintArgs.prepare toyWorld ⟨false, none⟩ Levels.zero ⟨none, panicOpts⟩ = some c ∧
    c.run [("a", recLine "abcd")] ≠ .panic := by
  obtain ⟨c, h⟩ := Option.isSome_iff_exists.1 (by decide +kernel : (PrintArgs.prepare toyWorld ⟨false, none⟩ Levels.zero
    ⟨none, panicOpts⟩).isSome = true)
  refine ⟨c, h, C94_no_panic _ _ _ (C94_print_partial toyWorld _ _ _ ⟨by decide, by decide, by decide⟩ (toy_compiles _) c h _
    [recOf "abcd"] (input_is (by decide +kernel)) (fun r hr _ => ?_))⟩
  rw [List.mem_singleton.1 hr]
  unfold AllUtf8
  decide +kernel

example : (⟨false, .xml, id, fun _ => [], [], []⟩ : ConvertCmd).run [("a", recLine "abcd")] ≠ .panic ∧
    (⟨false, true, .idn, false, toyEnv, ⟨false⟩, id, id⟩ : ConcatCmd).run [("a", recLine "abcd")] ≠ .panic := by
  refine ⟨C94_no_panic _ _ _ (C94_convert_partial ⟨false, .xml, id, fun _ => [], [], []⟩ _
    [recOf "abcd"] (input_is (by decide +kernel)) (fun _ r hr => ?_)), C94_no_panic _ _ _
      (C94_concat_partial ⟨false, true, .idn, false, toyEnv, ⟨false⟩, id, id⟩ _
    [recOf "abcd"] (input_is (by decide +kernel)) (fun _ _ r hr => ?_))⟩
  · rw [List.mem_singleton.1 hr]
    unfold Utf8Record
    decide +kernel
  · rw [List.mem_singleton.1 hr]
    decide +kernel

example : RulesCompile ruleM checkEnv ∧ ∃ c, CheckArgs.prepare toyWorld ruleM (fun _ => some fileSample) id (fun _ => none)
    checkEnv ⟨false, none⟩ Levels.zero ⟨[some []], [], none, panicOpts⟩ = some c ∧ c.run panicFiles ≠ .panic := by
  have hr : RulesCompile ruleM checkEnv :=
    ⟨fun _ _ => ⟨fun _ _ => rfl, fun _ _ => rfl⟩, fun _ _ => ⟨fun _ _ => rfl, fun _ _ => rfl⟩, ⟨fun _ _ => rfl, fun _ _ => rfl⟩⟩
  obtain ⟨c, h⟩ := Option.isSome_iff_exists.1 (by decide +kernel : (CheckArgs.prepare toyWorld ruleM (fun _ => some fileSample)
    id (fun _ => none) checkEnv ⟨false, none⟩ Levels.zero ⟨[some []], [], none, panicOpts⟩).isSome = true)
  exact ⟨hr, c, h, C94_no_panic _ _ _ (C94_check toyWorld ruleM _ id (fun _ _ h => h) _ checkEnv hr _ _ _ (toy_compiles _) c h _)⟩

end Pica.Props
