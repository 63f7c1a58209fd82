import Verif.Props.Options
import Verif.Props.Pipeline
import Verif.Props.ExplodeTwice

/-! # C82: `filter EXPR | command` and `command --where EXPR` -/

namespace Pica.Props
open Pica Spec

/-- `filter` with these options, without `--invert-match`, `--keep`, `--discard` and `--limit`, has written `out` -/
def Delivers (W : World) (cfg : Config) (a : FilterArgs) (l : FilterLists) (files : List (String × Bytes))
    (out : Bytes) : Prop :=
  (sameOptions a l).Accepted ∧ Compiles W (sameOptions a l) ∧
  a.invert = false ∧ a.limit = 0 ∧ a.keep = none ∧ a.discard = none ∧
  ∃ s f x n, a.command W cfg s l = some f ∧ f.run files = .ok (x, n) ∧ x.out = out

/-- the options of a command ask for the same as those of `filter`; `--limit` and `--skip-invalid`
may differ -/
def SameFilter (o : FilterOpts) (a : FilterArgs) (l : FilterLists) : Prop :=
  { o with limit := a.limit, skipInvalid := a.skip } = sameOptions a l

/-- the options without those that select records -/
def plainOptions (o : FilterOpts) : FilterOpts :=
  { o with allow := [], deny := [], column := none, source := none, texts := ⟨none, [], [], []⟩ }

theorem requested_same {W : World} {cfg : Config} {o : FilterOpts} {a : FilterArgs} {l : FilterLists}
    (h : SameFilter o a l) (rs : List ByteRecord) : requested W cfg o rs = requested W cfg (sameOptions a l) rs := by
  rw [← h]; rfl

theorem line_write {r : ByteRecord} (h : LineRecord r) : r.record.write = r.write := by
  obtain ⟨t, _, h1, h2⟩ := h
  obtain ⟨h3, h4⟩ := ByteRecord.fromBytes_eq_some.1 h1
  obtain ⟨hne, _, h5⟩ := Record.fromBytes_eq_some.1 h3
  rw [h2, Record.write_of_ne hne, h5]

theorem lines_input (name : String) {rs : List ByteRecord} (h : ∀ r ∈ rs, LineRecord r) :
    Input [(name, rs.flatMap ByteRecord.write)] rs ∧ AllValid [(name, rs.flatMap ByteRecord.write)] := by
  have hc : ∀ c ∈ [rs], ∀ r ∈ c, LineRecord r := by
    intro c hc r hr
    simp only [List.mem_singleton] at hc
    subst hc; exact h r hr
  have h1 := input_of_records (fun _ => name) [rs] 0 hc
  have h2 := allValid_of_records (fun _ => name) [rs] 0 hc
  simp only [List.zipIdx_cons, List.zipIdx_nil, List.map_cons, List.map_nil, List.flatten_cons, List.flatten_nil,
    List.append_nil] at h1 h2
  exact ⟨h1, h2⟩

theorem requested_mem {W : World} {cfg : Config} {o : FilterOpts} {rs : List ByteRecord} {r : ByteRecord}
    (h : r ∈ requested W cfg o rs) : r ∈ rs := (List.mem_filter.1 h).1

/-- **C82** the second command of the pipeline reads exactly the requested records, byte for byte, and
no invalid line. -/
theorem C82_input (W : World) (cfg : Config) (a : FilterArgs) (l : FilterLists) (files : List (String × Bytes))
    (out : Bytes) (h : Delivers W cfg a l files out) (rs : List ByteRecord) (hi : Input files rs) (name : String) :
    Input [(name, out)] (requested W cfg (sameOptions a l) rs) ∧ AllValid [(name, out)] ∧
    out = (requested W cfg (sameOptions a l) rs).flatMap ByteRecord.write := by
  obtain ⟨ha, hc, hinv, hlim, hkeep, hdisc, s, f, x, n, hf, hrun, rfl⟩ := h
  obtain ⟨-, discard, keep, hd, hk, hout⟩ := C81_filter W cfg s a l ha hc f hf
  have h1 := (hout files rs x n hi hrun).1 hinv
  have hd' : discard = [] := by unfold OptionPreds at hd; rw [hdisc] at hd; exact hd
  have hk' : keep = [] := by unfold OptionPreds at hk; rw [hkeep] at hk; exact hk
  have hl : ∀ r ∈ requested W cfg (sameOptions a l) rs, LineRecord r :=
    fun r hr => input_lineRecord hi r (requested_mem hr)
  have e : x.out = (requested W cfg (sameOptions a l) rs).flatMap ByteRecord.write := by
    rw [h1, hlim, hd', hk', limited, if_pos rfl]
    refine flatMap_congr_mem (fun r hr => ?_)
    rw [reduced_nil, line_write (hl r hr)]
  rw [e]
  exact ⟨(lines_input name hl).1, (lines_input name hl).2, rfl⟩

/-- without options, every record is requested -/
theorem requested_plain (W : World) (cfg : Config) (o : FilterOpts) (hr : RegexOk W.rx W.base.toEnv ⟨false⟩) (r : Record) :
    Requested W cfg (plainOptions o) r := by
  obtain ⟨fs, hfs⟩ : ∃ fs, FilterSet.build none none [] [] = some fs :=
    Option.isSome_iff_exists.1 (((C62_lists none none [] []).2).2 (by simp))
  have hp := ((C62_lists none none [] []).1 fs hfs).2.2.2 rfl W.rx Levels.zero
  obtain ⟨sel, v, ht, _⟩ := C23_text W.rx Levels.zero _ _ fs.path (Prod.ext hp rfl) (scored W W.eighty) ⟨false⟩
    (regexOk_scored hr _)
  refine ⟨⟨_, ⟨sel, v, _, ht, rfl⟩, ?_, .inl rfl⟩, ?_⟩
  · rintro v _ ⟨name, hn, _⟩
    simp [plainOptions] at hn
  · intro w hw
    simp [plainOptions] at hw

theorem plain_accepted {o : FilterOpts} (h : o.Accepted) : (plainOptions o).Accepted :=
  ⟨h.1, by simp [plainOptions, FilterTexts.Accepted]⟩

theorem same_accepted {o : FilterOpts} {a : FilterArgs} {l : FilterLists} (h : SameFilter o a l)
    (ha : (sameOptions a l).Accepted) : o.Accepted := by
  rw [← h] at ha; exact ha

theorem same_compiles {W : World} {o : FilterOpts} {a : FilterArgs} {l : FilterLists} (h : SameFilter o a l)
    (ha : Compiles W (sameOptions a l)) : Compiles W o := by
  rw [← h] at ha; exact ha

theorem plain_test {W : World} {cfg : Config} {s s' : Levels} {o : FilterOpts} (ha : o.Accepted) (hc : Compiles W o)
    {sel : Selection} (h : (plainOptions o).select W cfg s = (some sel, s')) (r : ByteRecord) :
    sel.test r = some true := by
  rw [picked_iff, C81_selection W cfg s s' (plainOptions o) (plain_accepted ha) hc sel h]
  exact requested_plain W cfg o hc.1 _

/-- the loops of a command that gets the records from `filter`, and of one that selects them itself -/
theorem loop_tests {S : Type} {skip skip' : Bool} {body body' : S → ByteRecord → Step S}
    {test test' : ByteRecord → Option Bool} {files : List (String × Bytes)} {rs : List ByteRecord} {name : String}
    {out : Bytes} (hi : Input files rs) (hi' : Input [(name, out)] (chosen test rs)) (hv : AllValid [(name, out)])
    (ht : ∀ r, test' r = some true) (hb : ∀ s r, body' s r = body s r) {s t : S}
    (h : filesLoop skip id (selBody test body) files s = .ok t) :
    filesLoop skip' id (selBody test' body') [(name, out)] s = .ok t := by
  have hb' : body' = body := funext fun s => funext fun r => hb s r
  subst hb'
  rw [filesLoop_clean hi' (.inr hv), runSteps_sel_total (fun r _ => ⟨true, ht r⟩)]
  have e : chosen test' (chosen test rs) = chosen test rs := by
    conv_lhs => unfold chosen
    exact List.filter_eq_self.2 (fun r _ => by rw [ht]; rfl)
  rw [e, runSteps_sel (filesLoop_ok hi h)]

theorem loop_same {S : Type} {skip skip' : Bool} {body body' : S → ByteRecord → Step S} {sel sel' : Selection}
    {files : List (String × Bytes)} {rs : List ByteRecord} {name : String} {out : Bytes} (hi : Input files rs)
    (hi' : Input [(name, out)] (picked sel rs)) (hv : AllValid [(name, out)]) (ht : ∀ r, sel'.test r = some true)
    (hb : ∀ s r, body' s r = body s r) {s t : S} (h : filesLoop skip id (selBody sel.test body) files s = .ok t) :
    filesLoop skip' id (selBody sel'.test body') [(name, out)] s = .ok t :=
  loop_tests hi (by rw [chosen_eq_picked]; exact hi') hv ht hb h

theorem select_set_env {W : World} {cfg : Config} {s s' : Levels} {o : FilterOpts} {sel : Selection}
    (h : o.select W cfg s = (some sel, s')) : sel.E₀ = scored W W.eighty ∧
    sel.E = scored W (W.percent o.strsimThreshold) ∧ sel.o = ⟨o.ignoreCase⟩ := by
  unfold FilterOpts.select FilterOpts.selection at h
  split at h
  · simp at h
  · split at h
    · simp at h
    · split at h
      · simp at h
      · simp only [Prod.mk.injEq, Option.some.injEq] at h
        rw [← h.1]
        exact ⟨rfl, rfl, rfl⟩

/-- everything that is needed for one command -/
theorem piped_selection {W : World} {cfg : Config} {a : FilterArgs} {l : FilterLists} {files : List (String × Bytes)}
    {out : Bytes} (h : Delivers W cfg a l files out) {o : FilterOpts} (hs : SameFilter o a l) {s s' t t' : Levels}
    {sel sel' : Selection} (h1 : o.select W cfg s = (some sel, s'))
    (h2 : (plainOptions o).select W cfg t = (some sel', t')) (name : String) :
    ∃ rs, Input files rs ∧ Input [(name, out)] (picked sel rs) ∧ AllValid [(name, out)] ∧ ∀ r, sel'.test r = some true := by
  obtain ⟨rs, hi⟩ := input_exists files
  have ha := same_accepted hs h.1
  have hc := same_compiles hs h.2.1
  obtain ⟨h3, h4, -⟩ := C82_input W cfg a l files out h rs hi name
  refine ⟨rs, hi, ?_, h4, fun r => plain_test ha hc h2 r⟩
  rw [picked_requested ha hc h1, requested_same hs]
  exact h3

/-- **C82** (`hash`) what `hash --where ..` writes, `filter .. | hash` writes too. -/
theorem C82_hash (W : World) (sha : Bytes → Bytes) (cfg : Config) (a : FilterArgs) (l : FilterLists)
    (files : List (String × Bytes)) (out : Bytes) (h : Delivers W cfg a l files out) (b : HashArgs)
    (hs : SameFilter b.opts a l) (s t : Levels) (c d : HashCmd) (hc : b.prepare W sha cfg s = some c)
    (hd : ({ b with opts := plainOptions b.opts } : HashArgs).prepare W sha cfg t = some d) (name : String)
    (st : HashState) (hrun : c.run files = .ok st) : d.run [(name, out)] = .ok st := by
  obtain ⟨sel, s', h1, rfl⟩ := select_of_map hc
  obtain ⟨sel', t', h2, rfl⟩ := select_of_map hd
  obtain ⟨rs, hi, hi', hv, ht⟩ := piped_selection h hs h1 h2 name
  refine loop_same hi hi' hv ht ?_ hrun
  intro _ _
  have e : sel'.E₀ = sel.E₀ := (select_set_env h2).1.trans (select_set_env h1).1.symm
  unfold HashCmd.row
  dsimp only
  rw [e]
  rfl

/-- **C82** (`count`) -/
theorem C82_count (W : World) (cfg : Config) (a : FilterArgs) (l : FilterLists)
    (files : List (String × Bytes)) (out : Bytes) (h : Delivers W cfg a l files out) (b : CountArgs)
    (hs : SameFilter b.opts a l) (s t : Levels) (c d : CountCmd) (hc : b.prepare W cfg s = some c)
    (hd : ({ b with opts := plainOptions b.opts } : CountArgs).prepare W cfg t = some d) (name : String)
    (text : Bytes) (hrun : c.run files = .ok text) : d.run [(name, out)] = .ok text := by
  obtain ⟨sel, s', h1, rfl⟩ := select_of_map hc
  obtain ⟨sel', t', h2, rfl⟩ := select_of_map hd
  obtain ⟨rs, hi, hi', hv, ht⟩ := piped_selection h hs h1 h2 name
  unfold CountCmd.run at hrun ⊢
  split at hrun
  · rename_i st hl
    split
    · rename_i st' hl'
      have e := (loop_same hi hi' hv ht (fun _ _ => rfl) hl).symm.trans hl'
      simp only [LoopResult.ok.injEq] at e
      subst e; exact hrun
    · rename_i hl'
      have e := (loop_same hi hi' hv ht (fun _ _ => rfl) hl).symm.trans hl'
      simp at e
    · rename_i hl'
      have e := (loop_same hi hi' hv ht (fun _ _ => rfl) hl).symm.trans hl'
      simp at e
  · simp at hrun
  · simp at hrun

/-- **C82** (`print`) -/
theorem C82_print (W : World) (cfg : Config) (a : FilterArgs) (l : FilterLists)
    (files : List (String × Bytes)) (out : Bytes) (h : Delivers W cfg a l files out) (b : PrintArgs)
    (hs : SameFilter b.opts a l) (s t : Levels) (c d : PrintCmd) (hc : b.prepare W cfg s = some c)
    (hd : ({ b with opts := plainOptions b.opts } : PrintArgs).prepare W cfg t = some d) (name : String)
    (st : PrintState) (hrun : c.run files = .ok st) : d.run [(name, out)] = .ok st := by
  obtain ⟨sel, s', h1, rfl⟩ := select_of_map hc
  obtain ⟨sel', t', h2, rfl⟩ := select_of_map hd
  obtain ⟨rs, hi, hi', hv, ht⟩ := piped_selection h hs h1 h2 name
  refine loop_tests hi (by rw [print_chosen]; exact hi') hv
    (fun r => (print_test sel' r).2 ((picked_iff sel' r).1 (ht r))) ?_ hrun
  exact fun _ _ => rfl

/-- **C82** (`split`) -/
theorem C82_split (W : World) (cfg : Config) (a : FilterArgs) (l : FilterLists)
    (files : List (String × Bytes)) (out : Bytes) (h : Delivers W cfg a l files out) (b : SplitArgs)
    (hs : SameFilter b.opts a l) (s t : Levels) (c d : SplitCmd) (hc : b.prepare W cfg s = some c)
    (hd : ({ b with opts := plainOptions b.opts } : SplitArgs).prepare W cfg t = some d) (name : String)
    (st : SplitState) (hrun : c.run files = .ok st) : d.run [(name, out)] = .ok st := by
  obtain ⟨sel, s', h1, rfl⟩ := select_of_map hc
  obtain ⟨sel', t', h2, rfl⟩ := select_of_map hd
  obtain ⟨rs, hi, hi', hv, ht⟩ := piped_selection h hs h1 h2 name
  refine loop_same hi hi' hv ht ?_ hrun
  exact fun _ _ => rfl

/-- **C82** (`sample`) with the same random numbers -/
theorem C82_sample (W : World) (draw : Nat → Nat) (cfg : Config) (a : FilterArgs) (l : FilterLists)
    (files : List (String × Bytes)) (out : Bytes) (h : Delivers W cfg a l files out) (b : SampleArgs)
    (hs : SameFilter b.opts a l) (s t : Levels) (c d : SampleCmd) (hc : b.prepare W draw cfg s = some c)
    (hd : ({ b with opts := plainOptions b.opts } : SampleArgs).prepare W draw cfg t = some d) (name : String)
    (text : Bytes) (hrun : c.run files = .ok text) : d.run [(name, out)] = .ok text := by
  obtain ⟨sel, s', h1, rfl⟩ := select_of_map hc
  obtain ⟨sel', t', h2, rfl⟩ := select_of_map hd
  obtain ⟨rs, hi, hi', hv, ht⟩ := piped_selection h hs h1 h2 name
  unfold SampleCmd.run at hrun ⊢
  split at hrun
  · rename_i st hl
    split
    · rename_i st' hl'
      have e := (loop_same hi hi' hv ht (fun _ _ => rfl) hl).symm.trans hl'
      simp only [LoopResult.ok.injEq] at e
      subst e; exact hrun
    · rename_i hl'
      have e := (loop_same hi hi' hv ht (fun _ _ => rfl) hl).symm.trans hl'
      simp at e
    · rename_i hl'
      have e := (loop_same hi hi' hv ht (fun _ _ => rfl) hl).symm.trans hl'
      simp at e
  · simp at hrun
  · simp at hrun

/-- **C82** (`describe`) -/
theorem C82_describe (W : World) (iter : TagTable → TagTable) (cfg : Config) (a : FilterArgs) (l : FilterLists)
    (files : List (String × Bytes)) (out : Bytes) (h : Delivers W cfg a l files out) (b : DescribeArgs)
    (hs : SameFilter b.opts a l) (s t : Levels) (c d : DescribeCmd) (hc : b.prepare W iter cfg s = some c)
    (hd : ({ b with opts := plainOptions b.opts } : DescribeArgs).prepare W iter cfg t = some d) (name : String)
    (x : Description) (hrun : c.run files = .ok x) : d.run [(name, out)] = .ok x := by
  unfold DescribeArgs.prepare at hc hd
  cases hd1 : FilterArgs.predicates W.trim b.discard with
  | none => simp [hd1] at hc
  | some discard =>
    cases hk1 : FilterArgs.predicates W.trim b.keep with
    | none => simp [hd1, hk1] at hc
    | some keep =>
      simp only [hd1, hk1] at hc hd
      obtain ⟨sel, s', h1, rfl⟩ := select_of_map hc
      obtain ⟨sel', t', h2, rfl⟩ := select_of_map hd
      obtain ⟨rs, hi, hi', hv, ht⟩ := piped_selection h hs h1 h2 name
      unfold DescribeCmd.run at hrun ⊢
      split at hrun
      · rename_i st hl
        split
        · rename_i st' hl'
          have e := (loop_same hi hi' hv ht (fun _ _ => rfl) hl).symm.trans hl'
          simp only [LoopResult.ok.injEq] at e
          subst e; exact hrun
        · rename_i hl'
          have e := (loop_same hi hi' hv ht (fun _ _ => rfl) hl).symm.trans hl'
          simp at e
        · rename_i hl'
          have e := (loop_same hi hi' hv ht (fun _ _ => rfl) hl).symm.trans hl'
          simp at e
      · simp at hrun
      · simp at hrun

theorem emit_congr {c d : FreqCmd} (h1 : c.num = d.num) (h2 : c.threshold = d.threshold) (h3 : c.text = d.text) :
    ∀ (i : Nat) (l : List (Row × Nat)), c.emit i l = d.emit i l
  | _, [] => rfl
  | i, (values, freq) :: l => by rw [FreqCmd.emit, FreqCmd.emit, h1, h2, h3, emit_congr h1 h2 h3]

theorem query_anytime (rx : Bytes → Bool) {t : Bytes} (h : 0x28 ∉ t) (s s' : Levels) :
    (Query.new rx s t).1 = (Query.new rx s' t).1 := by
  have H : FmtSteps (fun _ _ => True) NoParen :=
    fmtSteps_noParen (fun _ _ _ => trivial) (fun _ _ _ => trivial) (fun _ _ _ => trivial)
      (fun _ _ _ => trivial)
  exact (H.newQuery rx h trivial).1

/-- **C82** (`select`) The query is parsed after the expressions; that it is parsed to the same is a
hypothesis, since earlier parentheses can make later ones fail (C20). -/
theorem C82_select_partial (W : World) (hash : List Bytes → Nat) (cfg : Config) (a : FilterArgs) (l : FilterLists)
    (files : List (String × Bytes)) (out : Bytes) (h : Delivers W cfg a l files out) (b : SelectArgs)
    (hs : SameFilter b.opts a l) (s t : Levels) (c d : SelectCmd) (hc : b.prepare W hash cfg s = some c)
    (hd : ({ b with opts := plainOptions b.opts } : SelectArgs).prepare W hash cfg t = some d)
    (hq : d.query = c.query ∨ 0x28 ∉ translit W.tr cfg.normalization b.query) (name : String)
    (st : SelectState) (hrun : c.run files = .ok st) : d.run [(name, out)] = .ok st := by
  unfold SelectArgs.prepare at hc hd
  split at hc
  · simp at hc
  · rename_i sel s' h1
    split at hd
    · simp at hd
    · rename_i sel' t' h2
      rw [Option.map_eq_some_iff] at hc hd
      obtain ⟨q, hq1, rfl⟩ := hc
      obtain ⟨q', hq2, rfl⟩ := hd
      have e : q' = q := by
        rcases hq with hq | hq
        · exact hq
        · have := query_anytime W.rx hq s' t'
          dsimp only at hq2
          rw [hq1, hq2] at this
          exact (Option.some.inj this).symm
      subst e
      obtain ⟨rs, hi, hi', hv, ht⟩ := piped_selection (sel := sel) (sel' := sel') h hs h1 h2 name
      refine loop_same hi hi' hv ht ?_ hrun
      exact fun _ _ => rfl

/-- **C82** (`frequency`) -/
theorem C82_frequency_partial (W : World) (iter : List (Row × Nat) → List (Row × Nat)) (cfg : Config)
    (a : FilterArgs) (l : FilterLists)
    (files : List (String × Bytes)) (out : Bytes) (h : Delivers W cfg a l files out) (b : FrequencyArgs)
    (hs : SameFilter b.opts a l) (s t : Levels) (c d : FreqCmd) (hc : b.prepare W iter cfg s = some c)
    (hd : ({ b with opts := plainOptions b.opts } : FrequencyArgs).prepare W iter cfg t = some d)
    (hq : d.query = c.query ∨ 0x28 ∉ translit W.tr cfg.normalization b.query) (name : String)
    (x : List (Row × Nat)) (hrun : c.run files = .ok x) : d.run [(name, out)] = .ok x := by
  unfold FrequencyArgs.prepare at hc hd
  split at hc
  · simp at hc
  · rename_i sel s' h1
    split at hd
    · simp at hd
    · rename_i sel' t' h2
      rw [Option.map_eq_some_iff] at hc hd
      obtain ⟨q, hq1, rfl⟩ := hc
      obtain ⟨q', hq2, rfl⟩ := hd
      have e : q' = q := by
        rcases hq with hq | hq
        · exact hq
        · have := query_anytime W.rx hq s' t'
          dsimp only at hq2
          rw [hq1, hq2] at this
          exact (Option.some.inj this).symm
      subst e
      obtain ⟨rs, hi, hi', hv, ht⟩ := piped_selection (sel := sel) (sel' := sel') h hs h1 h2 name
      unfold FreqCmd.run at hrun ⊢
      split at hrun
      · rename_i st hl
        split
        · rename_i st' hl'
          have e := (loop_same hi hi' hv ht (fun _ _ => rfl) hl).symm.trans hl'
          simp only [LoopResult.ok.injEq] at e
          subst e
          rw [← hrun]
          refine congrArg LoopResult.ok ?_
          apply emit_congr <;> rfl
        · rename_i hl'
          have e := (loop_same hi hi' hv ht (fun _ _ => rfl) hl).symm.trans hl'
          simp at e
        · rename_i hl'
          have e := (loop_same hi hi' hv ht (fun _ _ => rfl) hl).symm.trans hl'
          simp at e
      · simp at hrun
      · simp at hrun

theorem puts_congr {c d : PartitionCmd} (h : c.limit = d.limit) (r : ByteRecord) :
    ∀ (vs : List Bytes) (s : PartitionState), c.puts r vs s = d.puts r vs s
  | [], _ => rfl
  | v :: vs, s => by rw [PartitionCmd.puts, PartitionCmd.puts, h, puts_congr h r vs]

/-- **C82** (`partition`) -/
theorem C82_partition (W : World) (cfg : Config) (a : FilterArgs) (l : FilterLists)
    (files : List (String × Bytes)) (out : Bytes) (h : Delivers W cfg a l files out) (b : PartitionArgs)
    (hs : SameFilter b.opts a l) (s : Levels) (c d : PartitionCmd) (hc : b.prepare W cfg s = some c)
    (hd : ({ b with opts := plainOptions b.opts } : PartitionArgs).prepare W cfg s = some d) (name : String)
    (st : PartitionState) (hrun : c.run files = .ok st) :
    d.run [(name, out)] = .ok st ∧ d.files st = c.files st := by
  unfold PartitionArgs.prepare at hc hd
  dsimp only at hd
  split at hc
  · simp at hc
  · rename_i path s1 hp
    rw [hp] at hd
    obtain ⟨sel, s', h1, rfl⟩ := select_of_map hc
    obtain ⟨sel', t', h2, rfl⟩ := select_of_map hd
    obtain ⟨rs, hi, hi', hv, ht⟩ := piped_selection h hs h1 h2 name
    obtain ⟨-, e1, e2⟩ := select_set_env h1
    obtain ⟨-, e3, e4⟩ := select_set_env h2
    refine ⟨?_, rfl⟩
    unfold PartitionCmd.run at hrun ⊢
    have eb : ∀ (skip : Bool) (t : Bytes) (n : Nat) (lossy : Bytes → Bytes),
        (⟨skip, t, n, path, lossy, sel'⟩ : PartitionCmd).body = (⟨skip, t, n, path, lossy, sel⟩ : PartitionCmd).body := by
      intro skip t n lossy
      funext x r
      unfold PartitionCmd.body
      dsimp only
      rw [e3, e4, e1, e2]
      dsimp only [plainOptions]
      cases path.values (scored W (W.percent b.opts.strsimThreshold)) ⟨b.opts.ignoreCase⟩ r.record with
      | none => rfl
      | some values => dsimp only; apply puts_congr; rfl
    dsimp only at hrun ⊢
    rw [eb]
    refine loop_same hi hi' hv ht ?_ hrun
    exact fun _ _ => rfl

/-- **C82** (`check`) if the rules were loaded to the same -/
theorem C82_check_partial (W : World) (R : RuleEnv) (toml : Bytes → Option TTable)
    (order : List (Bytes × RawRule) → List (Bytes × RawRule)) (regexSet : List Bytes → Option (Bytes → Bool))
    (C : CheckEnv) (cfg : Config) (a : FilterArgs) (l : FilterLists)
    (files : List (String × Bytes)) (out : Bytes) (h : Delivers W cfg a l files out) (b : CheckArgs)
    (hs : SameFilter b.opts a l) (s t : Levels) (c d : CheckCmd)
    (hc : b.prepare W R toml order regexSet C cfg s = some c)
    (hd : ({ b with opts := plainOptions b.opts } : CheckArgs).prepare W R toml order regexSet C cfg t = some d)
    (hsets : d.rulesets = c.rulesets) (name : String)
    (x : List Report) (hrun : c.run files = .ok x) : d.run [(name, out)] = .ok x := by
  unfold CheckArgs.prepare at hc hd
  split at hc
  · simp at hc
  · rename_i sel s' h1
    split at hd
    · simp at hd
    · rename_i sel' t' h2
      obtain ⟨rs, hi, hi', hv, ht⟩ := piped_selection (sel := sel) (sel' := sel') h hs h1 h2 name
      split at hc
      · simp at hc
      · rename_i sets s2 hl1
        split at hd
        · simp at hd
        · rename_i sets' s3 hl2
          have key : ∀ f : Option (Bytes → Bool),
              (⟨b.opts.skip cfg, b.opts.limit, sel, C, f, b.tags, sets⟩ : CheckCmd).run files = .ok x →
              (⟨(plainOptions b.opts).skip cfg, (plainOptions b.opts).limit, sel', C, f, b.tags, sets⟩ : CheckCmd).run
                [(name, out)] = .ok x := by
            intro f hr
            unfold CheckCmd.run at hr ⊢
            split at hr
            · rename_i st hl
              have hl' := loop_same (skip' := (plainOptions b.opts).skip cfg) hi hi' hv ht (fun _ _ => rfl) hl
              exact (congrArg (fun z => match z with
                | LoopResult.ok (s : CheckState) => LoopResult.ok (s.out ++ s.rulesets.flatMap (RuleSet.finish C))
                | .err e s => .err e s.out
                | .panic => .panic) hl').trans hr
            · simp at hr
            · simp at hr
          split at hc
          · rename_i he
            rw [if_pos he] at hd
            simp only [Option.some.injEq] at hc hd
            subst hc hd
            dsimp only at hsets
            subst hsets
            exact key _ hrun
          · rename_i he
            rw [if_neg he] at hd
            rw [Option.map_eq_some_iff] at hc hd
            obtain ⟨re, hre, rfl⟩ := hc
            obtain ⟨re', hre', rfl⟩ := hd
            rw [hre] at hre'
            simp only [Option.some.injEq] at hre'
            subst hre'
            dsimp only at hsets
            subst hsets
            exact key _ hrun

/-- the options without those that select records are always accepted -/
theorem C82_plain (W : World) (cfg : Config) (s : Levels) (o : FilterOpts) :
    ∃ sel, (plainOptions o).select W cfg s = (some sel, s) := by
  obtain ⟨fs, hfs⟩ : ∃ fs, FilterSet.build none none [] [] = some fs :=
    Option.isSome_iff_exists.1 (((C62_lists none none [] []).2).2 (by simp))
  refine ⟨W.selection ((plainOptions o).options W) fs none, ?_⟩
  unfold FilterOpts.select FilterOpts.selection
  dsimp only [plainOptions, parseSource, buildSet, FilterTexts.matcher]
  simp only [List.mapM_nil, Option.pure_def, hfs]

/-- **C82** the second command of a pipeline is accepted -/
theorem C82_accepted (W : World) (sha : Bytes → Bytes) (draw : Nat → Nat) (cfg : Config) (s : Levels) :
    (∀ b : HashArgs, ∃ d, ({ b with opts := plainOptions b.opts } : HashArgs).prepare W sha cfg s = some d) ∧
    (∀ b : CountArgs, ∃ d, ({ b with opts := plainOptions b.opts } : CountArgs).prepare W cfg s = some d) ∧
    (∀ b : PrintArgs, ∃ d, ({ b with opts := plainOptions b.opts } : PrintArgs).prepare W cfg s = some d) ∧
    (∀ b : SplitArgs, ∃ d, ({ b with opts := plainOptions b.opts } : SplitArgs).prepare W cfg s = some d) ∧
    (∀ b : SliceArgs, ∃ d, ({ b with opts := plainOptions b.opts } : SliceArgs).prepare W cfg s = some d) ∧
    (∀ b : SampleArgs, ∃ d, ({ b with opts := plainOptions b.opts } : SampleArgs).prepare W draw cfg s = some d) := by
  refine ⟨fun b => ?_, fun b => ?_, fun b => ?_, fun b => ?_, fun b => ?_, fun b => ?_⟩ <;>
  · obtain ⟨sel, h⟩ := C82_plain W cfg s b.opts
    simp [HashArgs.prepare, CountArgs.prepare, PrintArgs.prepare, SplitArgs.prepare, SliceArgs.prepare,
      SampleArgs.prepare, h]

/-- **C82** (`slice`) without `--length` -/
theorem C82_slice_partial (W : World) (cfg : Config) (a : FilterArgs) (l : FilterLists)
    (files : List (String × Bytes)) (out : Bytes) (h : Delivers W cfg a l files out) (b : SliceArgs)
    (hs : SameFilter b.opts a l) (hl : b.length = 0) (s t : Levels) (c d : SliceCmd) (hc : b.prepare W cfg s = some c)
    (hd : ({ b with opts := plainOptions b.opts } : SliceArgs).prepare W cfg t = some d) (name : String)
    (st : SliceState) (hrun : c.run files = .ok st) : d.run [(name, out)] = .ok st := by
  obtain ⟨sel, s', h1, rfl⟩ := select_of_map hc
  obtain ⟨sel', t', h2, rfl⟩ := select_of_map hd
  obtain ⟨rs, hi, hi', hv, ht⟩ := piped_selection h hs h1 h2 name
  have hk : ∀ x : SliceCmd, x.length = 0 → x.onSkip = id := by
    intro x hx
    funext st
    simp [SliceCmd.onSkip, hx]
  unfold SliceCmd.run at hrun ⊢
  rw [hk _ hl] at hrun ⊢
  refine loop_same hi hi' hv ht ?_ hrun
  exact fun _ _ => rfl

/-- **C82** (`explode`) Here the law is the other way round: `explode --where ..` is `explode | filter ..`,
since the options select among the pieces. -/
theorem C82_explode (W : World) (cfg : Config) (a : FilterArgs) (l : FilterLists) (files : List (String × Bytes))
    (b : ExplodeArgs) (hs : SameFilter b.opts a l) (hlim : b.opts.limit = 0) (hk : b.keep = none)
    (hd : b.discard = none) (s t : Levels) (c d : ExplodeCmd) (hc : b.prepare W cfg s = some c)
    (hd' : ({ b with opts := plainOptions b.opts } : ExplodeArgs).prepare W cfg t = some d)
    (pieces : Bytes) (n m : Nat) (hrun' : d.run files = .ok (pieces, m)) (name : String) (out out' : Bytes)
    (h : Delivers W cfg a l [(name, pieces)] out) (hrun : c.run files = .ok (out', n)) : out' = out := by
  obtain ⟨rs, hi⟩ := input_exists files
  have ha := same_accepted hs h.1
  have hcmp := same_compiles hs h.2.1
  obtain ⟨-, di, ke, h1, h2, h3⟩ := C81_explode W cfg s b ha hcmp c hc
  obtain ⟨-, di', ke', h1', h2', h3'⟩ := C81_explode W cfg t { b with opts := plainOptions b.opts }
    (plain_accepted ha) hcmp d hd'
  have e1 : di = [] := by unfold OptionPreds at h1; rw [hd] at h1; exact h1
  have e2 : ke = [] := by unfold OptionPreds at h2; rw [hk] at h2; exact h2
  have e3 : di' = [] := by unfold OptionPreds at h1'; dsimp only at h1'; rw [hd] at h1'; exact h1'
  have e4 : ke' = [] := by unfold OptionPreds at h2'; dsimp only at h2'; rw [hk] at h2'; exact h2'
  subst e1 e2 e3 e4
  have hl : ∀ r ∈ rs.flatMap (exploded b.level), LineRecord r := by
    intro r hr
    obtain ⟨x, hx, hr⟩ := List.mem_flatMap.1 hr
    obtain ⟨-, h5, h6⟩ := exploded_line (input_lineRecord hi x hx) hr
    rw [h6]; exact h5
  have hw : ∀ l : List ByteRecord, (∀ r ∈ l, LineRecord r) →
      l.flatMap (fun r => (reduced [] [] r.record).write) = l.flatMap ByteRecord.write := by
    intro l hl
    refine flatMap_congr_mem (fun r hr => ?_)
    rw [reduced_nil, line_write (hl r hr)]
  have hall : requested W cfg (plainOptions b.opts) (rs.flatMap (exploded b.level)) = rs.flatMap (exploded b.level) :=
    List.filter_eq_self.2 (fun r _ => by simpa using requested_plain W cfg b.opts hcmp.1 r.record)
  have ep := h3' files rs pieces m hi hrun'
  have hlim' : (plainOptions b.opts).limit = 0 := hlim
  dsimp only at ep
  rw [hlim', limited, if_pos rfl, hall, hw _ hl] at ep
  have eo := h3 files rs out' n hi hrun
  rw [hlim, limited, if_pos rfl, requested_same hs, hw _ (fun r hr => hl r (requested_mem hr))] at eo
  subst ep
  rw [eo, (C82_input W cfg a l _ out h _ (lines_input name hl).1 name).2.2]

/-- **C82** (`filter`) two filters select what both select, in either order -/
theorem C82_filters (W : World) (cfg : Config) (a b : FilterArgs) (l m : FilterLists) (files : List (String × Bytes))
    (name name' : String) (x y x' y' : Bytes) (h1 : Delivers W cfg a l files x) (h2 : Delivers W cfg b m [(name, x)] y)
    (h3 : Delivers W cfg b m files x') (h4 : Delivers W cfg a l [(name', x')] y') (rs : List ByteRecord)
    (hi : Input files rs) :
    y = y' ∧ ∃ ys, Input [(name, y)] ys ∧ ∀ r, r ∈ ys ↔
      r ∈ rs ∧ Requested W cfg (sameOptions a l) r.record ∧ Requested W cfg (sameOptions b m) r.record := by
  obtain ⟨i1, -, e1⟩ := C82_input W cfg a l files x h1 rs hi name
  obtain ⟨i2, -, e2⟩ := C82_input W cfg b m _ y h2 _ i1 name
  obtain ⟨i3, -, e3⟩ := C82_input W cfg b m files x' h3 rs hi name'
  obtain ⟨i4, -, e4⟩ := C82_input W cfg a l _ y' h4 _ i3 name'
  constructor
  · rw [e2, e4]
    congr 1
    unfold requested
    rw [List.filter_filter, List.filter_filter]
    refine List.filter_congr (fun r _ => ?_)
    rw [Bool.and_comm]
  · refine ⟨_, i2, fun r => ?_⟩
    unfold requested
    rw [List.mem_filter, List.mem_filter]
    simp only [decide_eq_true_eq, and_assoc]

/-- **C82** (`filter`) `filter A | filter B` is `filter A --and B` -/
theorem C82_and (W : World) (cfg : Config) (a b : FilterArgs) (l m : FilterLists) (files : List (String × Bytes))
    (name : String) (x y z : Bytes) (h1 : Delivers W cfg a l files x) (h2 : Delivers W cfg b m [(name, x)] y)
    (hor : a.or = []) (hb1 : b.and = []) (hb2 : b.or = []) (hb3 : b.not = []) (hm1 : m.allow = []) (hm2 : m.deny = [])
    (hm3 : m.source = none) (hci : m.ignoreCase = l.ignoreCase) (hth : m.strsimThreshold = l.strsimThreshold)
    (h3 : Delivers W cfg { a with and := a.and ++ [b.sources.1] } l files z) : y = z := by
  obtain ⟨rs, hi⟩ := input_exists files
  obtain ⟨i1, -, e1⟩ := C82_input W cfg a l files x h1 rs hi name
  obtain ⟨i2, -, e2⟩ := C82_input W cfg b m _ y h2 _ i1 name
  obtain ⟨-, -, e3⟩ := C82_input W cfg _ l files z h3 rs hi name
  rw [e2, e3]
  congr 1
  unfold requested
  rw [List.filter_filter]
  refine List.filter_congr (fun r _ => ?_)
  rw [Bool.eq_iff_iff]
  simp only [Bool.and_eq_true, decide_eq_true_eq]
  have hs : ({ a with and := a.and ++ [b.sources.1] } : FilterArgs).sources = a.sources := rfl
  have hp : ListsAdmit W (sameOptions b m) r.record := by
    obtain ⟨vs, q1, -, -⟩ := (requested_plain W cfg (sameOptions b m) h2.2.1.1 r.record).1
    refine ⟨vs, ?_, ?_, .inl hm1⟩
    · have : (sameOptions b m).source = none := hm3
      rw [this]
      exact q1
    · rintro v _ ⟨nm, hn, _⟩
      have : (sameOptions b m).deny = [] := hm2
      rw [this] at hn
      simp at hn
  unfold Requested TextsHold
  simp only [sameOptions, hor, hb1, hb2, hb3, hci, hth, hs, Option.some.injEq, forall_eq', List.mem_append,
    List.mem_singleton, List.not_mem_nil, false_imp_iff, implies_true, and_true, true_imp_iff, ne_eq,
    not_true_eq_false] at hp ⊢
  constructor
  · rintro ⟨⟨-, q1⟩, q2, q3, q4, q5⟩
    refine ⟨q2, q3, ?_, q5⟩
    rintro w (hw | rfl)
    · exact q4 w hw
    · exact q1
  · rintro ⟨q2, q3, q4, q5⟩
    exact ⟨⟨hp, q4 _ (.inr rfl)⟩, q2, q3, fun w hw => q4 w (.inl hw), q5⟩

/-! ## concrete cases and disagreements -/

/-- the lists and options used below -/
def toyLists : FilterLists := ⟨false, 70, [], [], none, none⟩

/-- the options of other commands that ask for the same as `toyFilter false` -/
def toySame : FilterOpts := toyOpts 70 false none (some "003@.0 =* 'abcd'")

/-- what `filter` writes -/
def toyOut (a : FilterArgs) (l : FilterLists) (input : Bytes) : Option Bytes :=
  match a.command toyWorld ⟨true, none⟩ Levels.zero l with
  | some f => match f.run [("a", input)] with
    | .ok (x, _) => some x.out
    | _ => none
  | none => none

theorem delivers_toy {a : FilterArgs} {l : FilterLists} {input out : Bytes} (h : toyOut a l input = some out)
    (ha : (sameOptions a l).Accepted) (h1 : a.invert = false) (h2 : a.limit = 0) (h3 : a.keep = none)
    (h4 : a.discard = none) : Delivers toyWorld ⟨true, none⟩ a l [("a", input)] out := by
  refine ⟨ha, ⟨⟨fun _ _ => rfl, fun _ _ => rfl⟩, ⟨fun _ _ => rfl, fun _ _ => rfl⟩⟩, h1, h2, h3, h4, ?_⟩
  unfold toyOut at h
  split at h
  · rename_i f hf
    split at h
    · rename_i x n hr
      exact ⟨_, f, x, n, hf, hr, Option.some.inj h⟩
    · simp at h
  · simp at h

/-- three records and an invalid line; `filter` delivers two of them, and the options of the other
commands are the same with another limit -/
example : Delivers toyWorld ⟨true, none⟩ (toyFilter false) toyLists
    [("a", recLine "abcx" ++ bs "x\n" ++ recLine "x" ++ recLine "abce")] (recLine "abcx" ++ recLine "abce") :=
  delivers_toy (by decide +kernel) ⟨by decide, by decide, by decide⟩ rfl rfl rfl rfl

example : SameFilter toySame (toyFilter false) toyLists ∧
    SameFilter { toySame with limit := 1, skipInvalid := true } (toyFilter false) toyLists := ⟨rfl, rfl⟩

/-- the commands of the theorems, directly and behind `filter` -/
example : (HashArgs.prepare toyWorld (fun b => b.take 2) ⟨true, none⟩ Levels.zero ⟨toySame⟩).map
      (fun c => c.run [("a", recLine "abcx" ++ bs "x\n" ++ recLine "x" ++ recLine "abce")]) =
    (HashArgs.prepare toyWorld (fun b => b.take 2) ⟨true, none⟩ Levels.zero ⟨plainOptions toySame⟩).map
      (fun c => c.run [("a", recLine "abcx" ++ recLine "abce")]) ∧
    (SelectArgs.prepare toyWorld (fun _ => 0) ⟨true, none⟩ Levels.zero
      ⟨false, false, bs "|", false, false, none, bs "003@.0", toySame⟩).map
        (fun c => c.run [("a", recLine "abcx" ++ bs "x\n" ++ recLine "x" ++ recLine "abce")]) =
      some (.ok ⟨[[bs "abcx"], [bs "abce"]], [], 2⟩) ∧
    (SelectArgs.prepare toyWorld (fun _ => 0) ⟨true, none⟩ Levels.zero
      ⟨false, false, bs "|", false, false, none, bs "003@.0", plainOptions toySame⟩).map
        (fun c => c.run [("a", recLine "abcx" ++ recLine "abce")]) =
      some (.ok ⟨[[bs "abcx"], [bs "abce"]], [], 2⟩) ∧ (0x28 : Byte) ∉ bs "003@.0" := by decide +kernel

/-- two filters and `--and` -/
example :
    let a : FilterArgs := { toyFilter false with filter := bs "003@.0 =^ 'a'" }
    let b : FilterArgs := { toyFilter false with filter := bs "003@.0 =$ 'c'" }
    let input := recLine "abc" ++ recLine "a" ++ recLine "c" ++ recLine "ac"
    toyOut a toyLists input = some (recLine "abc" ++ recLine "a" ++ recLine "ac") ∧
    toyOut b toyLists (recLine "abc" ++ recLine "a" ++ recLine "ac") = some (recLine "abc" ++ recLine "ac") ∧
    toyOut b toyLists input = some (recLine "abc" ++ recLine "c" ++ recLine "ac") ∧
    toyOut a toyLists (recLine "abc" ++ recLine "c" ++ recLine "ac") = some (recLine "abc" ++ recLine "ac") ∧
    toyOut { a with and := a.and ++ [b.sources.1] } toyLists input = some (recLine "abc" ++ recLine "ac") := by
  decide +kernel

/-- **C82** is false for `slice --length`: an invalid line, which `filter` drops, makes the range of
`slice` one record longer. -/
theorem C82_slice_false :
    let input := bs "x\n" ++ recLine "abcx" ++ recLine "abce"
    Delivers toyWorld ⟨true, none⟩ (toyFilter false) toyLists [("a", input)] (recLine "abcx" ++ recLine "abce") ∧
    SameFilter toySame (toyFilter false) toyLists ∧
    (SliceArgs.prepare toyWorld ⟨true, none⟩ Levels.zero ⟨0, 0, 1, toySame⟩).map
      (fun c => c.run [("a", input)]) = some (.ok ⟨2, 2, 2, recLine "abcx" ++ recLine "abce"⟩) ∧
    (SliceArgs.prepare toyWorld ⟨true, none⟩ Levels.zero ⟨0, 0, 1, plainOptions toySame⟩).map
      (fun c => c.run [("a", recLine "abcx" ++ recLine "abce")]) = some (.ok ⟨1, 1, 1, recLine "abcx"⟩) :=
  ⟨delivers_toy (by decide +kernel) ⟨by decide, by decide, by decide⟩ rfl rfl rfl rfl, rfl, by decide +kernel⟩

/-- a record with two copies -/
def twoCopies : Bytes :=
  bs "003@ " ++ [0x1F] ++ bs "01" ++ [0x1E] ++ bs "101@ " ++ [0x1F] ++ bs "a7" ++ [0x1E] ++
    bs "203@/01 " ++ [0x1F] ++ bs "0x" ++ [0x1E] ++ bs "203@/02 " ++ [0x1F] ++ bs "0y" ++ [0x1E, 0x0A]

/-- **C82** is false for `explode` in the order of the other commands: the expression selects records
before `explode`, but pieces in `explode --where`. -/
theorem C82_explode_false :
    let a : FilterArgs := { toyFilter false with filter := bs "203@/*.0 == 'x'" }
    let o : FilterOpts := toyOpts 70 false none (some "203@/*.0 == 'x'")
    Delivers toyWorld ⟨true, none⟩ a toyLists [("a", twoCopies)] twoCopies ∧ SameFilter o a toyLists ∧
    (ExplodeArgs.prepare toyWorld ⟨true, none⟩ Levels.zero ⟨none, none, .copy, o⟩).map
        (fun c => match c.run [("a", twoCopies)] with
          | .ok (_, n) => n
          | _ => 0) = some 1 ∧
    (ExplodeArgs.prepare toyWorld ⟨true, none⟩ Levels.zero ⟨none, none, .copy, plainOptions o⟩).map
        (fun c => match c.run [("a", twoCopies)] with
          | .ok (_, n) => n
          | _ => 0) = some 2 :=
  ⟨delivers_toy (by decide +kernel) ⟨by decide, by decide, by decide⟩ rfl rfl rfl rfl, rfl, by decide +kernel⟩

/-- `explode --where` is `explode` and then `filter` -/
example :
    let a : FilterArgs := { toyFilter false with filter := bs "203@/*.0 == 'x'" }
    let o : FilterOpts := toyOpts 70 false none (some "203@/*.0 == 'x'")
    ∃ pieces out, (ExplodeArgs.prepare toyWorld ⟨true, none⟩ Levels.zero ⟨none, none, .copy, plainOptions o⟩).map
        (fun c => c.run [("a", twoCopies)]) = some (.ok (pieces, 2)) ∧
      toyOut a toyLists pieces = some out ∧
      (ExplodeArgs.prepare toyWorld ⟨true, none⟩ Levels.zero ⟨none, none, .copy, o⟩).map
        (fun c => c.run [("a", twoCopies)]) = some (.ok (out, 1)) := by
  let p1 := bs "003@ " ++ [0x1F] ++ bs "01" ++ [0x1E] ++ bs "101@ " ++ [0x1F] ++ bs "a7" ++ [0x1E] ++
    bs "203@/01 " ++ [0x1F] ++ bs "0x" ++ [0x1E, 0x0A]
  let p2 := bs "003@ " ++ [0x1F] ++ bs "01" ++ [0x1E] ++ bs "101@ " ++ [0x1F] ++ bs "a7" ++ [0x1E] ++
    bs "203@/02 " ++ [0x1F] ++ bs "0y" ++ [0x1E, 0x0A]
  exact ⟨p1 ++ p2, p1, by decide +kernel⟩

end Pica.Props
