import Verif.Lemmas.Survives
import Verif.Props.Options
import Verif.Props.Errors
import Verif.Props.ConvertExact
import Verif.Props.CheckRules

/-! # C94: no input makes a command panic -/

namespace Pica.Props
open Pica Spec

/-- **C94** surviving means: no panic. -/
theorem C94_no_panic {S : Type} (skip : Bool) (files : List (String × Bytes)) (x : LoopResult S)
    (h : Survives skip files x) : x ≠ .panic := by
  rintro rfl
  cases skip with
  | true =>
    obtain ⟨s, hs⟩ := h.clean (.inl rfl)
    exact absurd hs (by simp)
  | false =>
    rcases C66_first files with hv | ⟨cut, n, name, hf⟩
    · obtain ⟨s, hs⟩ := h.clean (.inr hv)
      exact absurd hs (by simp)
    · rcases h.broken rfl cut n name hf with ⟨s, hs⟩ | ⟨s, hs⟩ <;> exact absurd hs (by simp)

/-! ## the tests of a command -/

theorem buildSet_path {W : World} {l : FilterOpts} {s s1 : Levels} {source : Option Path} {set : FilterSet}
    (hs : parseSource W.rx s l.source = (some source, s1))
    (hb : buildSet W source l.column l.allow l.deny = some set) :
    ∃ s s' text, Path.new W.rx s text = (some set.path, s') := by
  unfold buildSet at hb
  split at hb
  · rename_i a d ha hd
    obtain ⟨hl, -⟩ := C62_lists source l.column a d
    obtain ⟨-, -, hp1, hp2⟩ := hl set hb
    unfold parseSource at hs
    split at hs
    · simp only [Prod.mk.injEq, Option.some.injEq] at hs
      exact ⟨s, _, bs "003@.0", Prod.ext (hp2 hs.1.symm W.rx s) rfl⟩
    · split at hs
      · rename_i text _ _ p s' hp
        simp only [Prod.mk.injEq, Option.some.injEq] at hs
        rw [hp1 p hs.1.symm]
        exact ⟨s, s', _, hp⟩
      · simp at hs
  · simp at hb

theorem buildSet_total {W : World} {l : FilterOpts} {s s1 : Levels} {source : Option Path} {set : FilterSet}
    (hs : parseSource W.rx s l.source = (some source, s1))
    (hb : buildSet W source l.column l.allow l.deny = some set) (hr : RegexOk W.rx W.base.toEnv ⟨false⟩) (r : Record) :
    (set.path.values (W.env W.eighty) ⟨false⟩ r).isSome = true := by
  obtain ⟨s2, s3, text, hp⟩ := buildSet_path hs hb
  obtain ⟨sel, v, -, hv⟩ := C23_text W.rx s2 s3 _ _ hp (W.env W.eighty) ⟨false⟩ ⟨hr.one, hr.set⟩
  rw [hv r]; rfl

theorem selection_noPanic {W : World} {cfg : Config} {o : MatcherOptions W.Num} {s s' : Levels} {l : FilterOpts}
    (h0 : RegexOk W.rx W.base.toEnv ⟨false⟩) (h1 : RegexOk W.rx W.base.toEnv ⟨o.caseIgnore⟩) {sel : Selection}
    (h : l.selection W cfg o s = (some sel, s')) (r : ByteRecord) : NoPanic sel r.record := by
  unfold FilterOpts.selection at h
  split at h
  · simp at h
  · rename_i source s1 hs
    split at h
    · simp at h
    · rename_i set hb
      split at h
      · simp at h
      · rename_i m s2 hm
        simp only [Prod.mk.injEq, Option.some.injEq] at h
        obtain ⟨rfl, rfl⟩ := h
        refine ⟨buildSet_total hs hb h0 r.record, fun m' hm' => ?_⟩
        have hm'' : m = some m' := hm'
        subst hm''
        unfold FilterTexts.matcher at hm
        split at hm
        · split at hm
          · rename_i m1 s3 hbm
            simp only [Prod.mk.injEq, Option.some.injEq] at hm
            obtain ⟨rfl, rfl⟩ := hm
            obtain ⟨_, _, _, _, -, -, -, -, h5⟩ := C15_builder W.rx s1 s3 _ _ _ _ m1 hbm
            obtain ⟨b, hb'⟩ := (h5 (W.env o.strsimThreshold) o.opts r.record ⟨h1.one, h1.set⟩).1
            exact Option.isSome_iff_exists.2 ⟨b, hb'⟩
          · simp at hm
        · simp at hm

/-- **C94** the tests with which a command selects records never panic: lists and
expressions come from texts that have been accepted. -/
theorem C94_tests (W : World) (cfg : Config) (o : MatcherOptions W.Num) (s s' : Levels) (l : FilterOpts)
    (h0 : RegexOk W.rx W.base.toEnv ⟨false⟩) (h1 : RegexOk W.rx W.base.toEnv ⟨o.caseIgnore⟩) (sel : Selection)
    (h : l.selection W cfg o s = (some sel, s')) (r : ByteRecord) : ∃ b, sel.test r = some b :=
  test_total (selection_noPanic h0 h1 h r)

theorem select_total {W : World} {cfg : Config} {s s' : Levels} {l : FilterOpts} (hc : Compiles W l) {sel : Selection}
    (h : l.select W cfg s = (some sel, s')) (r : ByteRecord) : ∃ b, sel.test r = some b :=
  C94_tests W cfg (l.options W) s s' l hc.1 hc.2 sel h r

/-! ## the commands -/

/-- a body that changes the state if the record is selected -/
theorem survives_sel {S : Type} {skip : Bool} {onSkip : S → S} {test : ByteRecord → Option Bool}
    {act : S → ByteRecord → Step S} (ht : ∀ r, ∃ b, test r = some b) (ha : ∀ s r, act s r ≠ .panic)
    (files : List (String × Bytes)) (s : S) : Survives skip files (filesLoop skip onSkip (selBody test act) files s) := by
  obtain ⟨rs, hi⟩ := input_exists files
  refine filesLoop_survives (P := fun _ => True) hi (fun _ _ => trivial) (fun s r _ _ => ?_) s trivial
  refine selBody_ok trivial (ht r) (fun _ => ?_)
  have := ha s r
  cases hx : act s r with
  | next s' => trivial
  | stop s' => trivial
  | panic => exact absurd hx this

theorem limitStep_ne {S : Type} (limit count : Nat) (s : S) : limitStep limit count s ≠ .panic := by
  unfold limitStep
  split <;> simp

theorem resultBody_ne {S X : Type} {limit : Nat} {cnt : S → Nat} {f : ByteRecord → Option X} {g : S → X → S}
    (h : ∀ r, ∃ x, f r = some x) (s : S) (r : ByteRecord) : resultBody limit cnt f g s r ≠ .panic := by
  obtain ⟨x, hx⟩ := h r
  unfold resultBody
  rw [hx]
  exact limitStep_ne _ _ _

/-- **C94** `count` -/
theorem C94_count (W : World) (cfg : Config) (s : Levels) (a : CountArgs) (hc : Compiles W a.opts) (c : CountCmd)
    (h : a.prepare W cfg s = some c) (files : List (String × Bytes)) : Survives c.skip files (c.run files) := by
  obtain ⟨sel, s', h1, hcmd⟩ := select_of_map h
  have hl : Survives c.skip files (c.loop files) := by
    rw [← hcmd]
    exact survives_sel (act := fun s r => .next (CountCmd.step s r)) (select_total hc h1) (fun _ _ => by simp) files _
  refine survives_map hl (fun st hs => ?_) (fun e st hs => ?_)
  · exact ⟨_, by unfold CountCmd.run; rw [hs]⟩
  · exact ⟨_, by unfold CountCmd.run; rw [hs]⟩

/-- **C94** `describe` -/
theorem C94_describe (W : World) (iter : TagTable → TagTable) (cfg : Config) (s : Levels) (a : DescribeArgs)
    (hc : Compiles W a.opts) (c : DescribeCmd) (h : a.prepare W iter cfg s = some c) (files : List (String × Bytes)) :
    Survives c.skip files (c.run files) := by
  unfold DescribeArgs.prepare at h
  split at h
  · obtain ⟨sel, s', h1, hcmd⟩ := select_of_map h
    have hl : Survives c.skip files (c.loop files) := by
      rw [← hcmd]
      exact survives_sel (select_total hc h1) (fun _ _ => limitStep_ne _ _ _) files _
    refine survives_map hl (fun st hs => ?_) (fun e st hs => ?_)
    · exact ⟨_, by unfold DescribeCmd.run; rw [hs]⟩
    · exact ⟨_, by unfold DescribeCmd.run; rw [hs]⟩
  · simp at h

/-- **C94** `explode`: the records it builds are read again without error -/
theorem C94_explode (W : World) (cfg : Config) (s : Levels) (a : ExplodeArgs)
    (hc : Compiles W a.opts) (c : ExplodeCmd) (h : a.prepare W cfg s = some c) (files : List (String × Bytes)) :
    Survives c.skip files (c.run files) := by
  unfold ExplodeArgs.prepare at h
  split at h
  · rename_i discard keep _ _
    obtain ⟨sel, s', h1, hcmd⟩ := select_of_map h
    obtain ⟨rs, hi⟩ := input_exists files
    refine filesLoop_survives (P := fun _ => True) hi (fun _ _ => trivial) (fun st r hr _ => ?_) _ trivial
    have ht : ∀ r, ∃ b, c.sel.test r = some b := by
      intro r; rw [← hcmd]; exact select_total hc h1 r
    have hrun := body_run c [r] st (by intro x hx; rw [List.mem_singleton.1 hx]; exact input_fromBytes hi r hr)
    rw [runSteps_sel_total (fun r _ => ht r)] at hrun
    have key : ∀ (l : List ByteRecord) (st : Bytes × Nat), runSteps
        (fun s r => limitStep c.limit (s.2 + 1) (s.1 ++ (c.reduce r).write, s.2 + 1)) l st ≠ none := by
      intro l
      induction l with
      | nil => intro st; simp [runSteps]
      | cons x l ih =>
        intro st
        rw [runSteps]
        unfold limitStep
        split
        · exact ih _
        · simp
        · rename_i hx
          split at hx <;> simp at hx
    cases hx : c.body st r with
    | next s' => trivial
    | stop s' => trivial
    | panic =>
      rw [runSteps, hx] at hrun
      exact absurd hrun.symm (key _ _)
  · simp at h

/-- **C94** `hash` -/
theorem C94_hash (W : World) (sha : Bytes → Bytes) (cfg : Config) (s : Levels) (a : HashArgs) (hc : Compiles W a.opts)
    (c : HashCmd) (h : a.prepare W sha cfg s = some c) (files : List (String × Bytes)) :
    Survives c.skip files (c.run files) := by
  obtain ⟨sel, s', h1, rfl⟩ := select_of_map h
  refine survives_sel (select_total hc h1) (resultBody_ne fun r => ?_) files _
  unfold HashCmd.row
  rw [(C23_ppn _ ⟨false⟩ r.record).1]
  exact ⟨_, rfl⟩

/-- **C94** `split` -/
theorem C94_split (W : World) (cfg : Config) (s : Levels) (a : SplitArgs) (hc : Compiles W a.opts)
    (c : SplitCmd) (h : a.prepare W cfg s = some c) (files : List (String × Bytes)) :
    Survives c.skip files (c.run files) := by
  obtain ⟨sel, s', h1, rfl⟩ := select_of_map h
  exact survives_sel (select_total hc h1) (fun _ _ => limitStep_ne _ _ _) files _

/-- **C94** `slice`, also if it shifts the end of its range for skipped lines -/
theorem C94_slice (W : World) (cfg : Config) (s : Levels) (a : SliceArgs) (hc : Compiles W a.opts)
    (c : SliceCmd) (h : a.prepare W cfg s = some c) (files : List (String × Bytes)) :
    Survives c.skip files (c.run files) := by
  obtain ⟨sel, s', h1, rfl⟩ := select_of_map h
  refine survives_sel (select_total hc h1) (fun st r => ?_) files _
  unfold SliceCmd.act
  dsimp only
  split
  · split <;> simp
  · split <;> simp

/-- **C94** `partition`: the path comes from a text that has been accepted -/
theorem C94_partition (W : World) (cfg : Config) (s : Levels) (a : PartitionArgs) (hc : Compiles W a.opts)
    (c : PartitionCmd) (h : a.prepare W cfg s = some c) (files : List (String × Bytes)) :
    Survives c.skip files (c.run files) := by
  unfold PartitionArgs.prepare at h
  split at h
  · simp at h
  · rename_i path s1 hp
    obtain ⟨sel, s', h1, rfl⟩ := select_of_map h
    refine survives_sel (select_total hc h1) (fun st r => ?_) files _
    have hE : sel.E = W.env (W.percent a.opts.strsimThreshold) ∧ sel.o = ⟨a.opts.ignoreCase⟩ := by
      unfold FilterOpts.select FilterOpts.selection at h1
      split at h1
      · simp at h1
      · split at h1
        · simp at h1
        · split at h1
          · simp at h1
          · simp only [Prod.mk.injEq, Option.some.injEq] at h1
            rw [← h1.1]
            exact ⟨rfl, rfl⟩
    obtain ⟨_, _, -, hv⟩ := C23_text W.rx _ _ _ path hp (W.env (W.percent a.opts.strsimThreshold))
      ⟨a.opts.ignoreCase⟩ ⟨hc.2.one, hc.2.set⟩
    unfold PartitionCmd.body
    dsimp only
    rw [hE.1, hE.2, hv r.record]
    dsimp only
    generalize sortDedup _ = vs
    induction vs generalizing st with
    | nil => simp [PartitionCmd.puts]
    | cons v vs ih =>
      rw [PartitionCmd.puts]
      dsimp only
      split
      · simp
      · exact ih _

/-- **C94** `sample`: the records it keeps are read again without error -/
theorem C94_sample (W : World) (draw : Nat → Nat) (cfg : Config) (s : Levels) (a : SampleArgs) (hc : Compiles W a.opts)
    (c : SampleCmd) (h : a.prepare W draw cfg s = some c) (files : List (String × Bytes)) :
    Survives c.skip files (c.run files) := by
  obtain ⟨sel, s', h1, hcmd⟩ := select_of_map h
  obtain ⟨rs, hi⟩ := input_exists files
  have ht : ∀ r, ∃ b, c.sel.test r = some b := by
    intro r; rw [← hcmd]; exact select_total hc h1 r
  have hb : ∀ st, ∀ r ∈ rs, (∃ l : List ByteRecord, SampleState.reservoir st = l.map ByteRecord.write ∧ ∀ r ∈ l, LineRecord r) →
      StepOk (fun st => ∃ l : List ByteRecord, SampleState.reservoir st = l.map ByteRecord.write ∧ ∀ r ∈ l, LineRecord r)
        (selBody c.sel.test (fun s r => limitStep c.limit (c.step s r).count (c.step s r)) st r) := by
    rintro st r hr ⟨l, hl, hrec⟩
    refine selBody_ok ⟨l, hl, hrec⟩ (ht r) (fun _ => limitStep_ok ?_)
    have hline := input_lineRecord hi r hr
    unfold SampleCmd.step
    dsimp only
    split
    · refine ⟨l ++ [r], by rw [hl]; simp, fun x hx => ?_⟩
      rcases List.mem_append.1 hx with hx | hx
      · exact hrec x hx
      · rw [List.mem_singleton.1 hx]; exact hline
    · split
      · refine ⟨l.set (c.draw st.count) r, by rw [hl, List.map_set], fun x hx => ?_⟩
        rcases List.mem_or_eq_of_mem_set hx with hx | rfl
        · exact hrec x hx
        · exact hline
      · exact ⟨l, hl, hrec⟩
  have h0 : ∃ l : List ByteRecord, (⟨[], 0⟩ : SampleState).reservoir = l.map ByteRecord.write ∧ ∀ r ∈ l, LineRecord r :=
    ⟨[], rfl, by simp⟩
  have he := filesLoop_endOk (skip := c.skip) (onSkip := id) hi (fun _ h => h) hb _ h0
  refine survives_map (filesLoop_survives (skip := c.skip) (onSkip := id) hi (fun _ h => h) hb _ h0)
    (fun st hs => ?_) (fun e st hs => ?_)
  · rw [hs] at he
    obtain ⟨l, hl, hrec⟩ := he
    unfold SampleCmd.run SampleCmd.loop
    rw [hs]
    dsimp only
    rw [hl, output_lines hrec]
    exact ⟨_, rfl⟩
  · unfold SampleCmd.run SampleCmd.loop
    rw [hs]
    exact ⟨_, rfl⟩

theorem query_total {W : World} {l : FilterOpts} (hc : Compiles W l) {t : W.Num} {o : QueryOpts}
    (ho : o.caseIgnore = l.ignoreCase) {s s' : Levels} {text : Bytes} {q : Query} (hq : Query.new W.rx s text = (some q, s'))
    (r : ByteRecord) : ∃ rows, q.run (W.fmtEnv t) o r.record = some rows := by
  have e : o.opts = ⟨l.ignoreCase⟩ := by rw [← ho]; rfl
  obtain ⟨ms, -, hrows⟩ := C25_text W.rx _ _ _ q hq (W.fmtEnv t) o (by rw [e]; exact ⟨hc.2.one, hc.2.set⟩)
  exact ⟨_, hrows r.record⟩

/-- **C94** `frequency`: the query comes from a text that has been accepted -/
theorem C94_frequency (W : World) (iter : List (Row × Nat) → List (Row × Nat)) (cfg : Config) (s : Levels)
    (a : FrequencyArgs) (hc : Compiles W a.opts) (c : FreqCmd) (h : a.prepare W iter cfg s = some c)
    (files : List (String × Bytes)) : Survives c.skip files (c.run files) := by
  unfold FrequencyArgs.prepare at h
  split at h
  · simp at h
  · rename_i sel s1 h1
    rw [Option.map_eq_some_iff] at h
    obtain ⟨q, hq, hcmd⟩ := h
    have hl : Survives c.skip files (c.loop files) := by
      rw [← hcmd]
      refine survives_sel (C94_tests W cfg _ _ _ _ hc.1 hc.2 sel h1) (resultBody_ne fun r => ?_) files _
      exact query_total hc rfl (Prod.ext hq rfl) r
    refine survives_map hl (fun st hs => ?_) (fun e st hs => ?_)
    · exact ⟨_, by unfold FreqCmd.run; rw [hs]⟩
    · exact ⟨_, by unfold FreqCmd.run; rw [hs]⟩

/-- **C94** `select` -/
theorem C94_select (W : World) (hash : List Bytes → Nat) (cfg : Config) (s : Levels)
    (a : SelectArgs) (hc : Compiles W a.opts) (c : SelectCmd) (h : a.prepare W hash cfg s = some c)
    (files : List (String × Bytes)) : Survives c.skip files (c.run files) := by
  unfold SelectArgs.prepare at h
  split at h
  · simp at h
  · rename_i sel s1 h1
    rw [Option.map_eq_some_iff] at h
    obtain ⟨q, hq, rfl⟩ := h
    refine survives_sel (C94_tests W cfg _ _ _ _ hc.1 hc.2 sel h1) (resultBody_ne fun r => ?_) files _
    exact query_total hc rfl (Prod.ext hq rfl) r

theorem pair_of_fst {α β : Type} {p : α × β} {a : α} (h : p.1 = a) : p = (a, p.2) := by
  cases p; cases h; rfl

theorem filter_test_total {c : FilterCmd} {r : ByteRecord} (h1 : (c.set.path.values c.E₀ ⟨false⟩ r.record).isSome = true)
    (h2 : ∃ b, c.matcher.eval c.E c.o r.record = some b) : ∃ b, c.test r = some b := by
  obtain ⟨vs, hv⟩ := Option.isSome_iff_exists.1 h1
  obtain ⟨b, hb⟩ := h2
  unfold FilterCmd.test
  have := C29_check c.E₀ c.set r.record vs hv
  by_cases ha : Admitted c.set.allow c.set.deny vs
  · rw [this.1.2 ha, hb]; exact ⟨_, rfl⟩
  · rw [this.2.2 ha]; exact ⟨_, rfl⟩

/-- **C94** `filter` -/
theorem C94_filter (W : World) (cfg : Config) (s : Levels) (a : FilterArgs) (l : FilterLists)
    (hc : Compiles W (sameOptions a l)) (c : FilterCmd) (h : a.command W cfg s l = some c)
    (files : List (String × Bytes)) : Survives c.skip files (c.run files) := by
  unfold FilterArgs.command at h
  split at h
  · simp at h
  · rename_i source s1 hs
    split at h
    · simp at h
    · rename_i set hb
      have hset := fun r => buildSet_total (l := sameOptions a l) hs hb hc.1 r
      unfold FilterArgs.prepare at h
      split at h
      · simp at h
      · split at h
        · simp at h
        · split at h
          · simp at h
          · rename_i m hm
            simp only [Option.some.injEq] at h
            unfold buildMatcher at hm
            obtain ⟨_, _, _, _, -, -, -, -, h5⟩ := C15_builder W.rx s1 _ _ _ _ _ m (pair_of_fst hm)
            refine survives_sel (fun r => ?_) (fun _ _ => limitStep_ne _ _ _) files _
            subst h
            exact filter_test_total (hset r.record) (h5 (W.env (l.options W).strsimThreshold) (l.options W).opts r.record
              ⟨hc.2.one, hc.2.set⟩).1

/-! ## the commands that can panic -/

/-- **C94** `print` survives if the values of the requested records are UTF-8. -/
theorem C94_print_partial (W : World) (cfg : Config) (s : Levels) (a : PrintArgs) (ha : a.opts.Accepted)
    (hc : Compiles W a.opts) (c : PrintCmd)
    (h : a.prepare W cfg s = some c) (files : List (String × Bytes)) (rs : List ByteRecord) (hi : Input files rs)
    (hu : ∀ r ∈ rs, Requested W cfg a.opts r.record → AllUtf8 r.record) : Survives c.skip files (c.run files) := by
  obtain ⟨sel, s', h1, rfl⟩ := select_of_map h
  have hn := fun r => selection_noPanic hc.1 hc.2 h1 r
  refine filesLoop_survives (P := fun _ => True) hi (fun _ _ => trivial) (fun st r hr _ => ?_) _ trivial
  refine selBody_ok trivial (print_total (hn r)) (fun htest =>
    resultBody_ok ⟨recordBlock (translit W.tr a.nf) r.record, ?_⟩ fun _ => trivial)
  refine (print_record _ _ _).2 ⟨hu r hr ((C81_selection W cfg s s' a.opts ha hc sel h1 r.record).1 ?_), rfl⟩
  exact (print_test sel r).1 htest

/-- **C94** false for `print`: a value that is not UTF-8. -/
theorem C94_print_false : ∃ c : PrintCmd, PrintArgs.prepare toyWorld ⟨false, none⟩ Levels.zero ⟨none, toyOpts 80 false none none⟩ =
      some c ∧ AllValid [("a", bs "003@ " ++ [US, 0x30, 0xFF, RS, LF])] ∧
    c.run [("a", bs "003@ " ++ [US, 0x30, 0xFF, RS, LF])] = .panic := by
  obtain ⟨c, hc⟩ := Option.isSome_iff_exists.1 (by decide +kernel : (PrintArgs.prepare toyWorld ⟨false, none⟩ Levels.zero
    ⟨none, toyOpts 80 false none none⟩).isSome = true)
  refine ⟨c, hc, allValid_of (by decide +kernel), ?_⟩
  have : (PrintArgs.prepare toyWorld ⟨false, none⟩ Levels.zero ⟨none, toyOpts 80 false none none⟩).map
      (fun c => c.run [("a", bs "003@ " ++ [US, 0x30, 0xFF, RS, LF])]) = some .panic := by decide +kernel
  rw [hc] at this
  simpa using this

/-- **C94** `concat` survives, with `--unique` by IDN if every record has one. -/
theorem C94_concat_partial (c : ConcatCmd) (files : List (String × Bytes)) (rs : List ByteRecord) (hi : Input files rs)
    (hu : c.unique = true → c.strategy = .idn → ∀ r ∈ rs, (idnOf r.record).isSome = true) :
    Survives c.skip files (c.run files) := by
  refine filesLoop_survives (P := fun _ => True) hi (fun _ _ => trivial) (fun st r hr _ => ?_) _ trivial
  unfold ConcatCmd.body
  split
  · rename_i hun
    have hk : ∃ k, c.key r = some k := by
      cases hs : c.strategy with
      | idn =>
        obtain ⟨v, hv⟩ := Option.isSome_iff_exists.1 (hu hun hs r hr)
        rw [key_idn c hs, hv]; exact ⟨_, rfl⟩
      | hash => unfold ConcatCmd.key; rw [hs]; exact ⟨_, rfl⟩
    obtain ⟨k, hk⟩ := hk
    rw [hk]
    dsimp only
    split <;> trivial
  · trivial

/-- **C94** `convert` survives, with `--to xml` if the values are UTF-8. -/
theorem C94_convert_partial (c : ConvertCmd) (files : List (String × Bytes)) (rs : List ByteRecord) (hi : Input files rs)
    (hu : c.to = .xml → ∀ r ∈ rs, Utf8Record r.record) : Survives c.skip files (c.run files) := by
  have hl : Survives c.skip files (filesLoop c.skip id c.step files ⟨c.head, 0⟩) := by
    refine filesLoop_survives (P := fun _ => True) hi (fun _ _ => trivial) (fun st r hr _ => ?_) _ trivial
    have hw : ∃ s', c.write st r = some s' := by
      unfold ConvertCmd.write
      cases hto : c.to with
      | xml =>
        have hx := (C38_xml_exact r.record r.record).1
        cases hn : Convert.xmlRecord r.record with
        | none => exact absurd (hu hto r hr) (hx.1 hn)
        | some t => exact ⟨_, rfl⟩
      | json => dsimp only; split <;> exact ⟨_, rfl⟩
      | _ => exact ⟨_, rfl⟩
    obtain ⟨s', hw⟩ := hw
    unfold ConvertCmd.step
    rw [hw]
    trivial
  refine survives_map hl (fun st hs => ?_) (fun e st hs => ?_)
  · exact ⟨_, by unfold ConvertCmd.run; rw [hs]⟩
  · exact ⟨_, by unfold ConvertCmd.run; rw [hs]⟩

end Pica.Props
