import Verif.Spec.Options
import Verif.Props.Unique
import Verif.Props.Count
import Verif.Props.Describe
import Verif.Props.Explode
import Verif.Props.Frequency
import Verif.Props.Partition
import Verif.Props.Print
import Verif.Props.Sample
import Verif.Props.Select
import Verif.Props.Slice
import Verif.Props.SplitExact
import Verif.Props.RuleFile

/-! # C81: options mean the same in every command -/

namespace Pica.Props
open Pica Spec

theorem env_eq_scored (W : World) (t : W.Num) : W.env t = scored W t := rfl

theorem regexOk_scored {W : World} {o : Opts} (h : RegexOk W.rx W.base.toEnv o) (t : W.Num) :
    RegexOk W.rx (scored W t) o := ⟨h.one, h.set⟩

theorem says_iff {W : World} {cfg : Config} {ci : Bool} {n : Nat} {x : Bytes} {m : RecordMatcher}
    (h : NormParses W.rx W.tr cfg.normalization x m) (r : Record) :
    Says W cfg ci n x r ↔ m.isMatch (scored W (W.percent n)) ⟨ci⟩ r = some true := by
  obtain ⟨y, hy, s, s', hp⟩ := h
  have hs := fieldMatcher_new_sound (scored W (W.percent n)) ⟨ci⟩ hp
  constructor
  · rintro ⟨y', v, hy', ht, hv⟩
    have e : y' = y := by rw [normalised_iff] at hy hy'; rw [hy, hy']
    subst e
    rw [C16_field_unique _ _ _ _ _ _ ht hs] at hv
    exact hv
  · intro hm
    exact ⟨y, _, hy, hs, hm⟩

theorem all2_says {W : World} {cfg : Config} {ci : Bool} {n : Nat} {r : Record} :
    ∀ {xs : List Bytes} {ms : List RecordMatcher}, All2 (NormParses W.rx W.tr cfg.normalization) xs ms →
      ((∀ x ∈ xs, Says W cfg ci n x r) ↔ ∀ m ∈ ms, m.isMatch (scored W (W.percent n)) ⟨ci⟩ r = some true) ∧
      ((∀ x ∈ xs, ¬ Says W cfg ci n x r) ↔ ∀ m ∈ ms, ¬ m.isMatch (scored W (W.percent n)) ⟨ci⟩ r = some true) ∧
      ((∃ x ∈ xs, Says W cfg ci n x r) ↔ ∃ m ∈ ms, m.isMatch (scored W (W.percent n)) ⟨ci⟩ r = some true)
  | [], _, h => by cases h; simp
  | x :: xs, _, h => by
    cases h with
    | cons h1 h2 =>
      obtain ⟨a, b, c⟩ := all2_says (ci := ci) (n := n) (r := r) h2
      have e := says_iff (ci := ci) (n := n) h1 r
      simp only [List.mem_cons, or_and_right, exists_or, exists_eq_left, forall_eq_or_imp, a, b, c, e, and_self]

theorem mapM_mem {α β : Type} {f : α → Option β} : ∀ {xs : List α} {ys : List β}, xs.mapM f = some ys →
    (∀ y, y ∈ ys ↔ ∃ x ∈ xs, f x = some y) ∧ (ys = [] ↔ xs = [])
  | [], _, h => by
    simp only [List.mapM_nil, Option.pure_def, Option.some.injEq] at h
    subst h; simp
  | x :: xs, ys, h => by
    rw [List.mapM_cons] at h
    simp only [Option.bind_eq_bind, Option.pure_def, Option.bind_eq_some_iff, Option.some.injEq] at h
    obtain ⟨y, hy, zs, hz, rfl⟩ := h
    obtain ⟨h1, -⟩ := mapM_mem hz
    refine ⟨fun z => ?_, by simp⟩
    simp only [List.mem_cons, h1, or_and_right, exists_or, exists_eq_left, hy, Option.some.injEq]
    exact or_congr eq_comm Iff.rfl

/-- the lists of a filter set -/
theorem buildSet_admits {W : World} {l : FilterOpts} {s s1 : Levels} {source : Option Path} {set : FilterSet}
    (hs : parseSource W.rx s l.source = (some source, s1))
    (hb : buildSet W source l.column l.allow l.deny = some set) (hr : RegexOk W.rx W.base.toEnv ⟨false⟩) (r : Record) :
    (∃ vs, set.path.values (scored W W.eighty) ⟨false⟩ r = some vs ∧ Admitted set.allow set.deny vs) ↔
      ListsAdmit W l r := by
  unfold buildSet at hb
  split at hb
  · rename_i a d ha hd
    obtain ⟨hl, -⟩ := C62_lists source l.column a d
    obtain ⟨-, -, hp1, hp2⟩ := hl set hb
    have hpath : ∃ s s', Path.new W.rx s (l.source.getD (bs "003@.0")) = (some set.path, s') := by
      unfold parseSource at hs
      split at hs
      · rename_i hsrc
        simp only [Prod.mk.injEq, Option.some.injEq] at hs
        rw [hsrc]
        exact ⟨s, _, Prod.ext (hp2 hs.1.symm W.rx s) rfl⟩
      · rename_i text hsrc
        split at hs
        · rename_i p s' hp
          simp only [Prod.mk.injEq, Option.some.injEq] at hs
          rw [hsrc, hp1 p hs.1.symm]
          exact ⟨s, s', hp⟩
        · simp at hs
    obtain ⟨s2, s3, hpath⟩ := hpath
    obtain ⟨sel, v, ht, hv⟩ := C23_text W.rx s2 s3 _ _ hpath (scored W W.eighty) ⟨false⟩ (regexOk_scored hr _)
    obtain ⟨ha1, ha2⟩ := mapM_mem ha
    obtain ⟨hd1, -⟩ := mapM_mem hd
    have adm : ∀ vs, Admitted set.allow set.deny vs ↔ (∀ v ∈ vs, ¬ Listed W l.column l.deny v) ∧
        (l.allow = [] ∨ ∃ v ∈ vs, Listed W l.column l.allow v) := by
      intro vs
      rw [C62_admitted source l.column a d set hb vs]
      have key : ∀ (names : List Bytes) (ts : List Table), (∀ y, y ∈ ts ↔ ∃ x ∈ names, W.list x = some y) → ∀ v,
          ((∃ t ∈ ts, ∃ cells, UsedColumn l.column t cells ∧ some v ∈ cells) ↔ Listed W l.column names v) := by
        intro names ts h v
        unfold Listed
        constructor
        · rintro ⟨t, ht, cells, h1, h2⟩
          obtain ⟨x, hx, hx'⟩ := (h t).1 ht
          exact ⟨x, hx, t, cells, hx', h1, h2⟩
        · rintro ⟨x, hx, t, cells, hx', h1, h2⟩
          exact ⟨t, (h t).2 ⟨x, hx, hx'⟩, cells, h1, h2⟩
      apply and_congr
      · apply forall_congr'; intro v
        apply forall_congr'; intro _
        rw [← key l.deny d hd1]
        constructor
        · rintro h ⟨t, ht, cells, h1, h2⟩; exact h t ht cells h1 h2
        · intro h t ht cells h1 h2; exact h ⟨t, ht, cells, h1, h2⟩
      · rw [ha2]
        apply or_congr Iff.rfl
        simp only [← key l.allow a ha1]
    unfold ListsAdmit
    constructor
    · rintro ⟨vs, h1, h2⟩
      rw [hv] at h1
      simp only [Option.some.injEq] at h1
      exact ⟨vs, ⟨sel, v, _, ht, h1.symm⟩, (adm vs).1 h2⟩
    · rintro ⟨vs, ⟨sel', v', css, ht', rfl⟩, h2⟩
      refine ⟨_, hv r, ?_⟩
      rw [C23_unique _ _ _ _ _ _ _ _ _ _ ht ht' r]
      exact (adm _).2 h2
  · simp at hb

/-- **C81** the records selected by the options of a command are the requested ones, whatever the state of the
parser; the options of the matcher are those given. -/
theorem C81_selection (W : World) (cfg : Config) (s s' : Levels) (l : FilterOpts) (ha : l.Accepted)
    (hc : Compiles W l) (sel : Selection) (h : l.select W cfg s = (some sel, s')) (r : Record) :
    Picked sel r ↔ Requested W cfg l r := by
  unfold FilterOpts.select FilterOpts.selection at h
  split at h
  · simp at h
  · rename_i source s1 hs
    split at h
    · simp at h
    · rename_i set hb
      split at h
      · simp at h
      · rename_i m s2 hm
        simp only [Prod.mk.injEq, Option.some.injEq] at h
        obtain ⟨rfl, rfl⟩ := h
        have hl := buildSet_admits hs hb hc.1 r
        have hsel := C60_selection W.rx (translit W.tr cfg.normalization) s1 s2 l.texts ha.2
          (W.selection (l.options W) set m) hm ⟨hc.2.one, hc.2.set⟩
        unfold Requested TextsHold
        rcases hsel with ⟨hw, h1⟩ | ⟨w, mw, mas, mos, mns, hw, p1, p2, p3, p4, h1, h2, h3⟩
        · rw [h1, hw]
          simp only [reduceCtorEq, false_implies, implies_true, and_true]
          exact hl
        · rw [h1, hw]
          simp only [Option.some.injEq, forall_eq']
          refine and_congr hl ?_
          have e1 := says_iff (ci := l.ignoreCase) (n := l.strsimThreshold) (normParses_of p1) r
          have e2 := all2_says (ci := l.ignoreCase) (n := l.strsimThreshold) (r := r) (all2_normParses p2)
          have e3 := all2_says (ci := l.ignoreCase) (n := l.strsimThreshold) (r := r) (all2_normParses p3)
          have e4 := all2_says (ci := l.ignoreCase) (n := l.strsimThreshold) (r := r) (all2_normParses p4)
          by_cases ho : l.texts.or = []
          · rw [h2 ho]
            simp only [ho, ne_eq, not_true_eq_false, false_implies, and_true, true_implies]
            rw [e1, e2.1, e4.2.1]
            rfl
          · rw [h3 ho]
            simp only [ho, ne_eq, not_false_eq_true, false_implies, true_and, true_implies]
            rw [e1, e3.2.2]
            rfl

theorem skip_iff (cfg : Config) (l : FilterOpts) :
    l.skip cfg = true ↔ l.skipInvalid = true ∨ cfg.skipInvalid = true := by
  unfold FilterOpts.skip; simp

theorem picked_requested {W : World} {cfg : Config} {s s' : Levels} {l : FilterOpts} (ha : l.Accepted)
    (hc : Compiles W l) {sel : Selection} (h : l.select W cfg s = (some sel, s')) (rs : List ByteRecord) :
    picked sel rs = requested W cfg l rs := by
  classical
  unfold picked requested
  refine List.filter_congr (fun r _ => ?_)
  rw [decide_eq_decide]
  exact C81_selection W cfg s s' l ha hc sel h r.record

theorem select_of_map {W : World} {cfg : Config} {s : Levels} {l : FilterOpts} {C : Type} {f : Selection → C} {c : C}
    (h : (l.select W cfg s).1.map f = some c) : ∃ sel s', l.select W cfg s = (some sel, s') ∧ f sel = c := by
  rw [Option.map_eq_some_iff] at h
  obtain ⟨sel, h1, h2⟩ := h
  exact ⟨sel, (l.select W cfg s).2, Prod.ext h1 rfl, h2⟩

/-- **C81** (`count`) from the command line to the numbers.  The limit is not respected, see below. -/
theorem C81_count_partial (W : World) (cfg : Config) (s : Levels) (a : CountArgs) (ha : a.opts.Accepted)
    (hc : Compiles W a.opts) (c : CountCmd) (h : a.prepare W cfg s = some c) :
    (c.skip = true ↔ a.opts.skipInvalid = true ∨ cfg.skipInvalid = true) ∧
    ∀ files rs st, Input files rs → c.loop files = .ok st →
      st.records = (requested W cfg a.opts rs).length ∧
      st.fields = ((requested W cfg a.opts rs).map (fun r => r.record.length)).sum ∧
      st.subfields = ((requested W cfg a.opts rs).map (fun r => (r.record.map (fun f => f.subfields.length)).sum)).sum := by
  obtain ⟨sel, s', h1, rfl⟩ := select_of_map h
  refine ⟨skip_iff _ _, fun files rs st hi hrun => ?_⟩
  rw [← picked_requested ha hc h1]
  exact C37_exact _ files rs hi st hrun

/-- the combinations of options of `count` that clap accepts, count.rs:18-44 -/
def CountAccepted (a : CountArgs) : Prop :=
  (a.records = true → a.fields = false ∧ a.subfields = false ∧ a.csv = false ∧ a.tsv = false ∧ a.noHeader = false) ∧
  (a.fields = true → a.subfields = false ∧ a.csv = false ∧ a.tsv = false ∧ a.noHeader = false) ∧
  (a.subfields = true → a.csv = false ∧ a.tsv = false ∧ a.noHeader = false) ∧
  (a.csv = true → a.tsv = false)

/-- **C81** (`count`) what is written, in terms of the options -/
theorem C81_count_report (W : World) (cfg : Config) (s : Levels) (a : CountArgs) (ha : CountAccepted a) (c : CountCmd)
    (h : a.prepare W cfg s = some c) (files : List (String × Bytes)) (st : CountState) (hrun : c.loop files = .ok st) :
    ∃ x y z out, Numeral st.records x ∧ Numeral st.fields y ∧ Numeral st.subfields z ∧ c.run files = .ok out ∧
      (a.records = true → out = x ++ bs "\n") ∧ (a.fields = true → out = y ++ bs "\n") ∧
      (a.subfields = true → out = z ++ bs "\n") ∧
      (a.csv = true → a.noHeader = false →
        out = bs "records,fields,subfields\n" ++ (x ++ bs "," ++ y ++ bs "," ++ z ++ bs "\n")) ∧
      (a.csv = true → a.noHeader = true → out = x ++ bs "," ++ y ++ bs "," ++ z ++ bs "\n") ∧
      (a.tsv = true → a.noHeader = false →
        out = bs "records\tfields\tsubfields\n" ++ (x ++ bs "\t" ++ y ++ bs "\t" ++ z ++ bs "\n")) ∧
      (a.tsv = true → a.noHeader = true → out = x ++ bs "\t" ++ y ++ bs "\t" ++ z ++ bs "\n") ∧
      (a.records = false → a.fields = false → a.subfields = false → a.csv = false → a.tsv = false →
        out = bs "records: " ++ x ++ bs "\nfields: " ++ y ++ bs "\nsubfields: " ++ z ++ bs "\n") := by
  obtain ⟨sel, s', h1, rfl⟩ := select_of_map h
  obtain ⟨x, y, z, hx, hy, hz, hr⟩ := C37_report _ files st hrun
  refine ⟨x, y, z, _, hx, hy, hz, hr, ?_⟩
  obtain ⟨a1, a2, a3, a4⟩ := ha
  obtain ⟨r, f, u, cs, ts, nh, opts⟩ := a
  clear h h1 hrun hr
  dsimp only [CountArgs.format] at *
  cases r <;> cases f <;> cases u <;> cases cs <;> cases ts <;> cases nh <;>
    first
    | (exfalso; revert a1 a2 a3 a4; decide)
    | (refine ⟨?_, ?_, ?_, ?_, ?_, ?_, ?_, ?_⟩ <;> intros <;> first | rfl | contradiction)

example (l : FilterOpts) : CountAccepted ⟨false, false, false, false, true, true, l⟩ := by simp [CountAccepted]

/-- **C81** (`hash`) -/
theorem C81_hash (W : World) (sha : Bytes → Bytes) (cfg : Config) (s : Levels) (a : HashArgs) (ha : a.opts.Accepted)
    (hc : Compiles W a.opts) (c : HashCmd) (h : a.prepare W sha cfg s = some c) :
    (c.skip = true ↔ a.opts.skipInvalid = true ∨ cfg.skipInvalid = true) ∧
    ∀ files rs st, Input files rs → c.run files = .ok st →
      st.out = (limited a.opts.limit (requested W cfg a.opts rs)).map (fun r =>
        (W.lossy (idnText r.record), hexText (sha r.record.write))) := by
  obtain ⟨sel, s', h1, rfl⟩ := select_of_map h
  refine ⟨skip_iff _ _, fun files rs st hi hrun => ?_⟩
  rw [← picked_requested ha hc h1]
  exact C52_rows _ files rs hi st hrun

/-- **C81** (`print`) -/
theorem C81_print (W : World) (cfg : Config) (s : Levels) (a : PrintArgs) (ha : a.opts.Accepted)
    (hc : Compiles W a.opts) (c : PrintCmd) (h : a.prepare W cfg s = some c) :
    (c.skip = true ↔ a.opts.skipInvalid = true ∨ cfg.skipInvalid = true) ∧
    ∀ files rs st, Input files rs → c.run files = .ok st →
      ∃ tr : Bytes → Bytes, (∀ v, Normalised W.tr a.nf v (tr v)) ∧
      st.out = (limited a.opts.limit (requested W cfg a.opts rs)).flatMap (fun r => recordBlock tr r.record) := by
  obtain ⟨sel, s', h1, rfl⟩ := select_of_map h
  refine ⟨skip_iff _ _, fun files rs st hi hrun => ⟨translit W.tr a.nf, fun v => normalised_iff.2 rfl, ?_⟩⟩
  rw [← picked_requested ha hc h1]
  exact (C51_output _ files rs hi st hrun).1

/-- **C81** (`sample`) -/
theorem C81_sample (W : World) (draw : Nat → Nat) (cfg : Config) (s : Levels) (a : SampleArgs) (ha : a.opts.Accepted)
    (hc : Compiles W a.opts) (c : SampleCmd) (h : a.prepare W draw cfg s = some c) :
    (c.skip = true ↔ a.opts.skipInvalid = true ∨ cfg.skipInvalid = true) ∧
    ∀ files rs out, Input files rs → c.run files = .ok out →
      ∃ (ps : List Nat) (l : List ByteRecord), ps.Nodup ∧
        ps.length = min a.size (limited a.opts.limit (requested W cfg a.opts rs)).length ∧
        All2 (fun p r => (limited a.opts.limit (requested W cfg a.opts rs))[p]? = some r) ps l ∧
        out = l.flatMap ByteRecord.write := by
  obtain ⟨sel, s', h1, rfl⟩ := select_of_map h
  refine ⟨skip_iff _ _, fun files rs out hi hrun => ?_⟩
  rw [← picked_requested ha hc h1]
  exact C35_distinct_partial _ files rs hi out hrun

/-- **C81** (`slice`) with `--end`, or without `--end` and `--length` -/
theorem C81_slice (W : World) (cfg : Config) (s : Levels) (a : SliceArgs) (ha : a.opts.Accepted)
    (hc : Compiles W a.opts) (c : SliceCmd) (h : a.prepare W cfg s = some c) (hl : a.length = 0) :
    (c.skip = true ↔ a.opts.skipInvalid = true ∨ cfg.skipInvalid = true) ∧
    ∀ files rs st, Input files rs → c.run files = .ok st →
      (0 < a.end → st.out = (limited a.opts.limit
        (((requested W cfg a.opts rs).take a.end).drop a.start)).flatMap ByteRecord.write) ∧
      (a.end = 0 → (requested W cfg a.opts rs).length < 2 ^ 64 →
        st.out = (limited a.opts.limit ((requested W cfg a.opts rs).drop a.start)).flatMap ByteRecord.write) := by
  obtain ⟨sel, s', h1, rfl⟩ := select_of_map h
  refine ⟨skip_iff _ _, fun files rs st hi hrun => ?_⟩
  rw [← picked_requested ha hc h1]
  refine ⟨fun he => ?_, fun he hn => C34_start _ he hl files rs hi hn st hrun⟩
  rw [C34_end _ he hl files rs hi st hrun, sliced, range_from]
  rfl

/-- **C81** (`split`) -/
theorem C81_split (W : World) (cfg : Config) (s : Levels) (a : SplitArgs) (ha : a.opts.Accepted)
    (hc : Compiles W a.opts) (c : SplitCmd) (h : a.prepare W cfg s = some c) :
    (c.skip = true ↔ a.opts.skipInvalid = true ∨ cfg.skipInvalid = true) ∧
    (∀ t, a.template = some t → c.template = t) ∧
    (a.template = none → c.template = if a.gzip = true then bs "{}.dat.gz" else bs "{}.dat") ∧
    ∀ files rs st, Input files rs → c.run files = .ok st →
      ∃ pieces, Pieces (fun k => k % 2 ^ 32 % a.chunkSize = 0)
          (limited a.opts.limit (requested W cfg a.opts rs)) pieces ∧
        (¬ HasBraces c.template → st.store = [(c.template, (pieces.getLastD []).flatMap ByteRecord.write)]) ∧
        (HasBraces c.template → pieces.length ≤ 2 ^ 32 → st.store = chunkFiles c pieces) := by
  obtain ⟨sel, s', h1, rfl⟩ := select_of_map h
  refine ⟨skip_iff _ _, ?_, ?_, fun files rs st hi hrun => ?_⟩
  · intro t ht; simp [fileTemplate, ht]
  · intro ht; simp [fileTemplate, ht]
  · rw [← picked_requested ha hc h1]
    exact C31_exact _ files rs hi st hrun

/-- **C81** (`describe`) -/
theorem C81_describe (W : World) (iter : TagTable → TagTable) (hiter : ∀ t, (iter t).Perm t) (cfg : Config)
    (s : Levels) (a : DescribeArgs) (ha : a.opts.Accepted) (hc : Compiles W a.opts) (c : DescribeCmd)
    (h : a.prepare W iter cfg s = some c) :
    (c.skip = true ↔ a.opts.skipInvalid = true ∨ cfg.skipInvalid = true) ∧
    ∃ discard keep, OptionPreds W.trim a.discard discard ∧ OptionPreds W.trim a.keep keep ∧
    ∀ files rs d, Input files rs → c.run files = .ok d →
      Describes ((limited a.opts.limit (requested W cfg a.opts rs)).flatMap
        (fun r => reduced discard keep r.record)) d := by
  unfold DescribeArgs.prepare at h
  split at h
  · rename_i discard keep hd hk
    obtain ⟨sel, s', h1, rfl⟩ := select_of_map h
    refine ⟨skip_iff _ _, discard, keep, optionPreds_of hd, optionPreds_of hk, fun files rs d hi hrun => ?_⟩
    rw [← picked_requested ha hc h1]
    exact C50_table _ hiter files rs hi d hrun
  · simp at h

/-- **C81** (`explode`) -/
theorem C81_explode (W : World) (cfg : Config) (s : Levels) (a : ExplodeArgs) (ha : a.opts.Accepted)
    (hc : Compiles W a.opts) (c : ExplodeCmd) (h : a.prepare W cfg s = some c) :
    (c.skip = true ↔ a.opts.skipInvalid = true ∨ cfg.skipInvalid = true) ∧
    ∃ discard keep, OptionPreds W.trim a.discard discard ∧ OptionPreds W.trim a.keep keep ∧
    ∀ files rs out n, Input files rs → c.run files = .ok (out, n) →
      out = (limited a.opts.limit (requested W cfg a.opts (rs.flatMap (exploded a.level)))).flatMap
        (fun r => (reduced discard keep r.record).write) := by
  unfold ExplodeArgs.prepare at h
  split at h
  · rename_i discard keep hd hk
    obtain ⟨sel, s', h1, rfl⟩ := select_of_map h
    refine ⟨skip_iff _ _, discard, keep, optionPreds_of hd, optionPreds_of hk, fun files rs out n hi hrun => ?_⟩
    rw [← picked_requested ha hc h1]
    exact (C30_output _ files rs hi out n hrun).1
  · simp at h

/-- the conversions between the options keep threshold and case -/
theorem C81_conversions (W : World) (o : QueryOptions W.Num) :
    (o.matcher W).strsimThreshold = o.strsimThreshold ∧ (o.matcher W).caseIgnore = o.caseIgnore ∧
    (o.format W).matcher.strsimThreshold = o.strsimThreshold ∧ (o.format W).matcher.caseIgnore = o.caseIgnore ∧
    (o.format W).stripOverreadChar = false := ⟨rfl, rfl, rfl, rfl, rfl⟩

theorem normalised_translit (W : World) (n : Option NForm) (x : Bytes) :
    Normalised W.tr n x (translit W.tr n x) := normalised_iff.2 rfl

/-- the rows of the query of a command -/
theorem query_results {W : World} {cfg : Config} {l : FilterOpts} {o : QueryOpts} (ho : o.caseIgnore = l.ignoreCase)
    (hc : Compiles W l) {s1 : Levels} {q : Query} {text : Bytes}
    (hq : (Query.new W.rx s1 (translit W.tr cfg.normalization text)).1 = some q) :
    ∃ ms, Asks W cfg l o text ms ∧ ∀ (rs : List ByteRecord) (results : List (List (List Bytes))),
      All2 (fun r rows => q.run (W.fmtEnv (W.percent l.strsimThreshold)) o r.record = some rows) rs results →
      results = rs.map (fun r => queryRows o ms r.record) := by
  have hq' : Query.new W.rx s1 (translit W.tr cfg.normalization text) =
      (some q, (Query.new W.rx s1 (translit W.tr cfg.normalization text)).2) := Prod.ext hq rfl
  have hr : RegexOk W.rx (W.fmtEnv (W.percent l.strsimThreshold)).toEnv o.opts := by
    have e : o.opts = ⟨l.ignoreCase⟩ := by rw [← ho]; rfl
    rw [e]; exact ⟨hc.2.one, hc.2.set⟩
  obtain ⟨ms, hm, hrows⟩ := C25_text W.rx _ _ _ q hq' (W.fmtEnv (W.percent l.strsimThreshold)) o hr
  refine ⟨ms, ⟨_, normalised_translit W _ _, hm⟩, fun rs results h => ?_⟩
  induction h with
  | nil => rfl
  | cons h0 _ ih =>
    rw [List.map_cons, ← ih]
    congr 1
    rw [hrows] at h0
    simpa [queryRows] using h0.symm

/-- **C81** (`select`) the query is normalised as well, and the options hold for its filters. -/
theorem C81_select (W : World) (hash : List Bytes → Nat) (cfg : Config) (s : Levels) (a : SelectArgs)
    (ha : a.opts.Accepted) (hc : Compiles W a.opts) (c : SelectCmd) (h : a.prepare W hash cfg s = some c) :
    (c.skip = true ↔ a.opts.skipInvalid = true ∨ cfg.skipInvalid = true) ∧
    ∃ ms, Asks W cfg a.opts ⟨a.opts.ignoreCase, a.separator, a.squash, a.merge⟩ a.query ms ∧
    ∃ text : Bytes → Bytes, (a.nf = none → text = id) ∧ (∀ nf, a.nf = some nf → ∀ v, text v = W.tr nf (W.lossy v)) ∧
    ∀ files rs st, Input files rs → c.run files = .ok st → ∀ rows, rows =
        wantedRows a.noEmptyColumns ((limited a.opts.limit (requested W cfg a.opts rs)).flatMap (fun r =>
          queryRows ⟨a.opts.ignoreCase, a.separator, a.squash, a.merge⟩ ms r.record)) →
      (a.unique = false → st.out = rows.map (·.map text)) ∧
      (a.unique = true → Function.Injective hash → st.out = (firsts rows).map (·.map text)) := by
  unfold SelectArgs.prepare at h
  split at h
  · simp at h
  · rename_i sel s1 h1
    rw [Option.map_eq_some_iff] at h
    obtain ⟨q, hq, rfl⟩ := h
    obtain ⟨ms, hm, hrows⟩ := query_results
      (o := ⟨a.opts.ignoreCase, a.separator, a.squash, a.merge⟩) rfl hc hq
    have hsel : a.opts.select W cfg s = (some sel, s1) := h1
    refine ⟨skip_iff _ _, ms, hm, a.text W, ?_, ?_, fun files rs st hi hrun rows hr => ?_⟩
    · intro hn; unfold SelectArgs.text; rw [hn]
    · intro nf hn v; unfold SelectArgs.text; rw [hn]
    · have key : ∀ results, All2 (fun r rows => q.run (W.fmtEnv (W.percent a.opts.strsimThreshold))
            ⟨a.opts.ignoreCase, a.separator, a.squash, a.merge⟩ r.record = some rows)
            (limited a.opts.limit (picked sel rs)) results →
          wantedRows a.noEmptyColumns results.flatten = rows := by
        intro results h2
        rw [hrows _ _ h2, picked_requested ha hc hsel, hr, List.flatMap_def]
      constructor
      · intro hu
        obtain ⟨results, r1, r2⟩ := C46_rows _ hu files rs hi st hrun
        rw [r2, key results r1]
      · intro hu hinj
        obtain ⟨results, r1, r2⟩ := C46_unique_partial _ hu files rs hi st hrun
        rw [r2 (fun a _ b _ hab => hinj hab), key results r1]

/-- **C81** (`frequency`) -/
theorem C81_frequency (W : World) (iter : List (Row × Nat) → List (Row × Nat)) (hiter : ∀ t, (iter t).Perm t)
    (cfg : Config) (s : Levels) (a : FrequencyArgs)
    (ha : a.opts.Accepted) (hc : Compiles W a.opts) (c : FreqCmd) (h : a.prepare W iter cfg s = some c) :
    (c.skip = true ↔ a.opts.skipInvalid = true ∨ cfg.skipInvalid = true) ∧
    ∃ ms, Asks W cfg a.opts ⟨a.opts.ignoreCase, a.separator, a.squash, a.merge⟩ a.query ms ∧
    ∃ text : Bytes → Bytes, (∀ v, Normalised W.tr a.nf (W.lossy v) (text v)) ∧
    ∀ files rs out, Input files rs → c.run files = .ok out →
      ∃ full, Listing a.unique a.reverse ((limited a.opts.limit (requested W cfg a.opts rs)).map (fun r =>
          queryRows ⟨a.opts.ignoreCase, a.separator, a.squash, a.merge⟩ ms r.record)) full ∧
        out = ((limited a.num full).takeWhile (fun x => decide (a.threshold ≤ x.2))).map
          (fun x => (x.1.map text, x.2)) := by
  unfold FrequencyArgs.prepare at h
  split at h
  · simp at h
  · rename_i sel s1 h1
    rw [Option.map_eq_some_iff] at h
    obtain ⟨q, hq, rfl⟩ := h
    obtain ⟨ms, hm, hrows⟩ := query_results
      (o := ⟨a.opts.ignoreCase, a.separator, a.squash, a.merge⟩) rfl hc hq
    have hsel : a.opts.select W cfg s = (some sel, s1) := h1
    refine ⟨skip_iff _ _, ms, hm, fun v => translit W.tr a.nf (W.lossy v), fun v => normalised_translit W _ _,
      fun files rs out hi hrun => ?_⟩
    obtain ⟨results, full, r1, r2, r3⟩ := freq_run _ hiter files rs hi out hrun
    refine ⟨full, ?_, r3⟩
    have e : results = _ := hrows _ _ r1
    rw [e] at r2
    rw [← picked_requested ha hc hsel]
    exact r2

/-- the values of the path that clap has parsed -/
theorem path_values {W : World} {s s' : Levels} {text : Bytes} {p : Path} {t : W.Num} {ci : Bool}
    (h : Path.new W.rx s text = (some p, s')) (hr : RegexOk W.rx W.base.toEnv ⟨ci⟩) (r : Record) (vs : List Bytes) :
    p.values (scored W t) ⟨ci⟩ r = some vs ↔ PathValues W t ci text r vs := by
  obtain ⟨sel, v, ht, hv⟩ := C23_text W.rx s s' text p h (scored W t) ⟨ci⟩ (regexOk_scored hr _)
  rw [hv]
  constructor
  · intro e
    simp only [Option.some.injEq] at e
    exact ⟨sel, v, _, ht, e.symm⟩
  · rintro ⟨sel', v', css, ht', rfl⟩
    rw [C23_unique _ _ _ _ _ _ _ _ _ _ ht ht' r]

open Classical in
/-- **C81** (`partition`) the path is not normalised, see below. -/
theorem C81_partition_partial (W : World) (cfg : Config) (s : Levels) (a : PartitionArgs) (ha : a.opts.Accepted)
    (hc : Compiles W a.opts) (c : PartitionCmd) (h : a.prepare W cfg s = some c) :
    (c.skip = true ↔ a.opts.skipInvalid = true ∨ cfg.skipInvalid = true) ∧
    (∀ t, a.template = some t → c.template = t) ∧
    (a.template = none → c.template = if a.gzip = true then bs "{}.dat.gz" else bs "{}.dat") ∧
    (∀ st, c.files st = st.writers.map (fun w => (replaceBraces (W.lossy w.1) c.template, w.2))) ∧
    ∀ files rs st, Input files rs → c.run files = .ok st → a.opts.limit = 0 →
      (st.writers.map Prod.fst).Nodup ∧
      ∀ v b, (v, b) ∈ st.writers ↔
        (∃ r ∈ requested W cfg a.opts rs, ∃ vs,
          PathValues W (W.percent a.opts.strsimThreshold) a.opts.ignoreCase a.path r.record vs ∧ v ∈ vs) ∧
        b = ((requested W cfg a.opts rs).filter (fun r => decide (∃ vs,
          PathValues W (W.percent a.opts.strsimThreshold) a.opts.ignoreCase a.path r.record vs ∧ v ∈ vs))).flatMap
            ByteRecord.write := by
  unfold PartitionArgs.prepare at h
  split at h
  · simp at h
  · rename_i path s1 hp
    obtain ⟨sel, s', h1, rfl⟩ := select_of_map h
    refine ⟨skip_iff _ _, ?_, ?_, ?_, fun files rs st hi hrun hlim => ?_⟩
    · intro t ht; simp [fileTemplate, ht]
    · intro ht; simp [fileTemplate, ht]
    · intro st; rfl
    · have hEo : sel.E = scored W (W.percent a.opts.strsimThreshold) ∧ sel.o = ⟨a.opts.ignoreCase⟩ := by
        unfold FilterOpts.select FilterOpts.selection at h1
        split at h1
        · simp at h1
        · split at h1
          · simp at h1
          · split at h1
            · simp at h1
            · simp only [Prod.mk.injEq, Option.some.injEq] at h1
              rw [← h1.1]
              exact ⟨rfl, rfl⟩
      obtain ⟨hE, ho⟩ := hEo
      have := C33_writers _ hlim files rs hi st hrun
      rw [← picked_requested ha hc h1]
      simp only [HasValue, hE, ho, path_values hp hc.2] at this
      exact this

open Classical in
/-- **C81** (`filter`) the options of `filter` select the same records as in the other commands;
with `--invert-match` those that pass the lists and are not requested. -/
theorem C81_filter (W : World) (cfg : Config) (s : Levels) (a : FilterArgs) (l : FilterLists)
    (ha : (sameOptions a l).Accepted) (hc : Compiles W (sameOptions a l)) (c : FilterCmd)
    (h : a.command W cfg s l = some c) :
    (c.skip = true ↔ a.skip = true ∨ cfg.skipInvalid = true) ∧
    ∃ discard keep, OptionPreds W.trim a.discard discard ∧ OptionPreds W.trim a.keep keep ∧
    ∀ files rs x n, Input files rs → c.run files = .ok (x, n) →
      (a.invert = false → x.out = (limited a.limit (requested W cfg (sameOptions a l) rs)).flatMap
        (fun r => (reduced discard keep r.record).write)) ∧
      (a.invert = true → x.out = (limited a.limit (rs.filter (fun r =>
          decide (ListsAdmit W (sameOptions a l) r.record ∧ ¬ TextsHold W cfg (sameOptions a l) r.record)))).flatMap
        (fun r => (reduced discard keep r.record).write)) := by
  unfold FilterArgs.command at h
  split at h
  · simp at h
  · rename_i source s1 hs
    split at h
    · simp at h
    · rename_i set hb
      obtain ⟨mw, mas, mos, mns, discard, keep, p1, p2, p3, p4, hd, hk, hskip, hrun⟩ :=
        C60_filter W.rx W.trim W.tr cfg _ _ _ set s1 a c h ⟨hc.2.one, hc.2.set⟩
      have hl := fun r => buildSet_admits (l := sameOptions a l) hs hb hc.1 r
      have ht : ∀ r, Asked (fun m => m.isMatch (scored W (W.percent l.strsimThreshold)) ⟨l.ignoreCase⟩ r = some true)
          mw mas mos mns ↔ TextsHold W cfg (sameOptions a l) r := by
        intro r
        have e1 := says_iff (ci := l.ignoreCase) (n := l.strsimThreshold) p1 r
        have e2 := all2_says (ci := l.ignoreCase) (n := l.strsimThreshold) (r := r) p2
        have e3 := all2_says (ci := l.ignoreCase) (n := l.strsimThreshold) (r := r) p3
        have e4 := all2_says (ci := l.ignoreCase) (n := l.strsimThreshold) (r := r) p4
        unfold TextsHold sameOptions Asked
        simp only [Option.some.injEq, forall_eq']
        rw [← e1, ← e2.1, ← e3.2.2, ← e4.2.1]
        rcases ha.2.2 with ho | ho
        · simp only [sameOptions] at ho
          simp [ho, and_assoc]
        · simp only [sameOptions] at ho
          by_cases hor : a.or = []
          · simp [ho, hor]
          · simp [ho, hor]
      refine ⟨hskip, discard, keep, hd, hk, fun files rs x n hi hx => ?_⟩
      have := hrun files rs hi x n hx
      constructor
      · intro hinv
        rw [this]
        unfold requested Requested
        congr 2
        refine List.filter_congr (fun r _ => ?_)
        rw [decide_eq_decide, ← hl, ← ht, hinv]
        simp only [iff_true]
        rfl
      · intro hinv
        rw [this]
        congr 2
        refine List.filter_congr (fun r _ => ?_)
        rw [decide_eq_decide, ← hl, ← ht, hinv]
        simp only [Bool.true_eq_false, iff_false]
        rfl

/-- **C81** (`check`) the rules of the loaded files see the requested records, up to the limit. -/
theorem C81_check (W : World) (R : RuleEnv) (toml : Bytes → Option TTable)
    (order : List (Bytes × RawRule) → List (Bytes × RawRule)) (regexSet : List Bytes → Option (Bytes → Bool))
    (C : CheckEnv) (cfg : Config) (s : Levels) (a : CheckArgs) (ha : a.opts.Accepted) (hc : Compiles W a.opts)
    (c : CheckCmd) (h : a.prepare W R toml order regexSet C cfg s = some c) :
    (c.skip = true ↔ a.opts.skipInvalid = true ∨ cfg.skipInvalid = true) ∧
    All2 (FromFile R toml W.tr W.list order cfg.normalization) a.rules c.rulesets ∧
    (∀ x, Chosen c x ↔ (a.filter ≠ [] → ∃ re, regexSet a.filter = some re ∧ re x.id = true) ∧
      (∀ text, a.tags = some text → ∃ parts, Parts text parts ∧ ∃ p ∈ parts, ∃ tags, x.tags = some tags ∧
        C.trim p ∈ tags)) ∧
    ∀ rs, examined c rs = (limited a.opts.limit (requested W cfg a.opts rs)).map (·.record) := by
  unfold CheckArgs.prepare at h
  split at h
  · simp at h
  · rename_i sel s1 h1
    split at h
    · simp at h
    · rename_i sets s2 h2
      have hf := C79_files_partial R toml W.tr W.list order cfg.normalization _ _ _ _ h2
      split at h
      · rename_i he
        simp only [Option.some.injEq] at h
        subst h
        refine ⟨skip_iff _ _, hf, fun x => ?_, fun rs => ?_⟩
        · have : a.filter = [] := by simpa using he
          unfold Chosen
          simp [this]
        · unfold examined
          rw [picked_requested ha hc h1]
      · rename_i he
        rw [Option.map_eq_some_iff] at h
        obtain ⟨re, hre, rfl⟩ := h
        refine ⟨skip_iff _ _, hf, fun x => ?_, fun rs => ?_⟩
        · have : a.filter ≠ [] := by simpa using he
          unfold Chosen
          simp [this, hre]
        · unfold examined
          rw [picked_requested ha hc h1]

/-! ## what does not hold, and examples -/

/-- a world where numbers are percents, the score is the share of equal positions, and decomposition
is that of `ä` only; there is one list, with the values `1` and `2` -/
def toyWorld : World where
  rx := fun _ => true
  base := toyFmt
  Num := Nat
  above := fun a b => decide (b < a)
  percent := id
  eighty := 80
  score := fun ci a b =>
    let a := if ci then toyEnv.lower a else a
    let b := if ci then toyEnv.lower b else b
    100 * ((a.zip b).filter (fun p => p.1 == p.2)).length / max a.length b.length
  tr := fun nf v => match nf, v with
    | .nfd, v => v.flatMap (fun b => if b = 0xC3 then [0x61, 0xCC] else if b = 0xA4 then [0x88] else [b])
    | _, v => v
  trim := id
  lossy := id
  list := fun name => if name = bs "l.csv" then some [(bs "ppn", [some (bs "1"), some (bs "2")])] else none

instance : DecidableEq toyWorld.Num := inferInstanceAs (DecidableEq Nat)

/-- options: threshold, ignored case, path of the lists and `--where` -/
def toyOpts (threshold : Nat) (ci : Bool) (source : Option String) (w : Option String) : FilterOpts :=
  ⟨false, 0, ci, threshold, [], [], none, source.map bs, ⟨w.map bs, [], [], []⟩⟩

/-- the records that `count` counts with these options -/
def toyCount (cfg : Config) (l : FilterOpts) (input : Bytes) : Option (LoopResult CountState) :=
  (CountArgs.prepare toyWorld cfg Levels.zero ⟨false, false, false, false, false, false, l⟩).map
    (fun c => c.loop [("a", input)])

example : (toyOpts 75 false none (some "003@.0 =* 'abcd'")).Accepted ∧
    Compiles toyWorld (toyOpts 75 false none (some "003@.0 =* 'abcd'")) :=
  ⟨⟨by decide, by decide, by decide⟩, ⟨fun _ _ => rfl, fun _ _ => rfl⟩, ⟨fun _ _ => rfl, fun _ _ => rfl⟩⟩

/-- the options matter: threshold and case -/
example :
    toyCount ⟨false, none⟩ (toyOpts 70 false none (some "003@.0 =* 'abcd'")) (recLine "abce" ++ recLine "ABCD") =
      some (.ok ⟨1, 1, 1⟩) ∧
    toyCount ⟨false, none⟩ (toyOpts 70 true none (some "003@.0 =* 'abcd'")) (recLine "abce" ++ recLine "ABCD") =
      some (.ok ⟨2, 2, 2⟩) ∧
    toyCount ⟨false, none⟩ (toyOpts 80 false none (some "003@.0 =* 'abcd'")) (recLine "abce" ++ recLine "ABCD") =
      some (.ok ⟨0, 0, 0⟩) := by decide +kernel

/-- lists and `--where` -/
example : toyCount ⟨false, none⟩ { toyOpts 80 false none (some "003@.0 != '1'") with allow := [bs "l.csv"] }
    (recLine "1" ++ recLine "2" ++ recLine "3") = some (.ok ⟨1, 1, 1⟩) := by decide +kernel

/-- the flag and the configuration -/
example :
    toyCount ⟨false, none⟩ (toyOpts 80 false none none) (recLine "1" ++ bs "x\n" ++ recLine "2") ≠
      some (.ok ⟨2, 2, 2⟩) ∧
    toyCount ⟨true, none⟩ (toyOpts 80 false none none) (recLine "1" ++ bs "x\n" ++ recLine "2") =
      some (.ok ⟨2, 2, 2⟩) ∧
    toyCount ⟨false, none⟩ { toyOpts 80 false none none with skipInvalid := true }
      (recLine "1" ++ bs "x\n" ++ recLine "2") = some (.ok ⟨2, 2, 2⟩) := by decide +kernel

/-- `select` and `frequency` -/
example : (SelectArgs.prepare toyWorld (fun _ => 0) ⟨false, none⟩ Levels.zero
    ⟨false, false, bs "|", false, false, none, bs "003@.0", toyOpts 70 false none (some "003@.0 =* 'abcd'")⟩).map
      (fun c => c.run [("a", recLine "abce" ++ recLine "x")]) = some (.ok ⟨[[bs "abce"]], [], 1⟩) ∧
  (FrequencyArgs.prepare toyWorld id ⟨false, none⟩ Levels.zero
    ⟨false, false, bs "|", false, false, 0, 0, none, bs "003@.0", toyOpts 70 false none (some "003@.0 =* 'abcd'")⟩).map
      (fun c => c.run [("a", recLine "abce" ++ recLine "x")]) = some (.ok [([bs "abce"], 1)]) := by decide +kernel

/-- the options hold in the query of `select` -/
example : (SelectArgs.prepare toyWorld (fun _ => 0) ⟨false, none⟩ Levels.zero
    ⟨false, false, bs "|", false, false, none, bs "003@{ 0 | 0 =* 'abcd' }", toyOpts 70 true none none⟩).map
      (fun c => c.run [("a", recLine "ABCE" ++ recLine "x")]) = some (.ok ⟨[[bs "ABCE"]], [], 2⟩) := by decide +kernel

/-- `hash`, `print`, `sample`, `slice`, `split`, `describe`, `explode`, `partition` and `filter` -/
example : (HashArgs.prepare toyWorld (fun b => b.take 2) ⟨false, none⟩ Levels.zero
      ⟨{ toyOpts 70 false none (some "003@.0 =* 'abcd'") with limit := 1 }⟩).map
      (fun c => c.run [("a", recLine "x" ++ recLine "abce" ++ recLine "abcd")]) =
        some (.ok ⟨[(bs "abce", bs "3030")], 1⟩) ∧
  (PrintArgs.prepare toyWorld ⟨false, none⟩ Levels.zero ⟨none, toyOpts 70 false none (some "003@.0 =* 'abcd'")⟩).isSome ∧
  (SampleArgs.prepare toyWorld id ⟨false, none⟩ Levels.zero ⟨1, toyOpts 70 false none (some "003@.0 =* 'abcd'")⟩).isSome ∧
  (SliceArgs.prepare toyWorld ⟨false, none⟩ Levels.zero ⟨1, 2, 0, toyOpts 70 false none (some "003@.0 =* 'abcd'")⟩).map
      (fun c => (c.run [("a", recLine "x" ++ recLine "abce" ++ recLine "abcd")])) =
        some (.ok ⟨2, 2, 1, recLine "abcd"⟩) ∧
  (SplitArgs.prepare toyWorld ⟨false, none⟩ Levels.zero
    ⟨true, none, 1, toyOpts 70 false none (some "003@.0 =* 'abcd'")⟩).map (·.template) = some (bs "{}.dat.gz") ∧
  (DescribeArgs.prepare toyWorld id ⟨false, none⟩ Levels.zero
    ⟨none, some (bs "003@"), toyOpts 70 false none (some "003@.0 =* 'abcd'")⟩).isSome ∧
  (ExplodeArgs.prepare toyWorld ⟨false, none⟩ Levels.zero
    ⟨none, none, .copy, toyOpts 70 false none (some "003@.0 =* 'abcd'")⟩).isSome ∧
  (PartitionArgs.prepare toyWorld ⟨false, none⟩ Levels.zero
    ⟨false, none, bs "003@.0", toyOpts 70 false none (some "003@.0 =* 'abcd'")⟩).map
      (fun c => (c.run [("a", recLine "x" ++ recLine "abce" ++ recLine "abcd")])) =
        some (.ok ⟨[(bs "abce", recLine "abce"), (bs "abcd", recLine "abcd")], 2⟩) := by decide +kernel

/-- the options of `filter`, and those of another command -/
def toyFilter (invert : Bool) : FilterArgs :=
  ⟨false, 0, invert, false, none, none, none, [], [], [], bs "003@.0 =* 'abcd'", [bs "-"]⟩

example : (sameOptions (toyFilter false) ⟨false, 70, [], [], none, none⟩).Accepted ∧
  ((toyFilter false).command toyWorld ⟨false, none⟩ Levels.zero ⟨false, 70, [], [], none, none⟩).map
    (fun c => match c.run [("a", recLine "x" ++ recLine "abce")] with
      | .ok (x, _) => some x.out
      | _ => none) = some (some (recLine "abce")) ∧
  ((toyFilter true).command toyWorld ⟨false, none⟩ Levels.zero ⟨false, 70, [], [], none, none⟩).map
    (fun c => match c.run [("a", recLine "x" ++ recLine "abce")] with
      | .ok (x, _) => some x.out
      | _ => none) = some (some (recLine "x")) :=
  ⟨⟨by decide, by decide, by decide⟩, by decide +kernel⟩

example : (CheckArgs.prepare toyWorld ruleM (fun _ => some []) id (fun _ => none) checkEnv ⟨true, none⟩ Levels.zero
    ⟨[], [], none, toyOpts 70 false none (some "003@.0 =* 'abcd'")⟩).map (·.skip) = some true := by decide +kernel

/-- **C81** is false: the threshold is documented as the minimum score, but a score equal to it does not
suffice. -/
theorem C81_minimum_false (W : World) (hirr : ∀ a, W.above a a = false) (ci : Bool) (n : Nat) (a b : Bytes)
    (h : W.score ci a b = W.percent n) : (scored W (W.percent n)).similar ci a b = false := by
  simp only [scored, h, hirr]

/-- a record whose score is the threshold, and the same with a threshold that is one less -/
example : toyWorld.score false (bs "abcd") (bs "abce") = toyWorld.percent 75 ∧ (∀ a, toyWorld.above a a = false) ∧
    toyCount ⟨false, none⟩ (toyOpts 75 false none (some "003@.0 =* 'abcd'")) (recLine "abce") = some (.ok ⟨0, 0, 0⟩) ∧
    toyCount ⟨false, none⟩ (toyOpts 74 false none (some "003@.0 =* 'abcd'")) (recLine "abce") =
      some (.ok ⟨1, 1, 1⟩) :=
  ⟨by decide +kernel, fun (a : Nat) => (decide_eq_false (Nat.lt_irrefl a) : decide (a < a) = false), by decide +kernel⟩

/-- **C81** is false: the configured normalization is applied to the expressions of `--where` and to
queries, but neither to the path of `partition` nor to that of `--filter-set-source`.  With it, the
same expression finds a record (written as NFD) in `count` and `select` and no value in `partition`
and in the lists. -/
theorem C81_normalization_false :
    toyCount ⟨false, some .nfd⟩ (toyOpts 80 false none (some "003@.0 == 'ä'")) (recLine "a\u0308") =
      some (.ok ⟨1, 1, 1⟩) ∧
    (SelectArgs.prepare toyWorld (fun _ => 0) ⟨false, some .nfd⟩ Levels.zero
      ⟨false, false, bs "|", false, false, none, bs "003@{ 0 | 0 == 'ä' }", toyOpts 80 false none none⟩).map
        (fun c => c.run [("a", recLine "a\u0308")]) = some (.ok ⟨[[bs "a\u0308"]], [], 1⟩) ∧
    (PartitionArgs.prepare toyWorld ⟨false, some .nfd⟩ Levels.zero
      ⟨false, none, bs "003@{ 0 | 0 == 'ä' }", toyOpts 80 false none none⟩).map
        (fun c => c.run [("a", recLine "a\u0308")]) = some (.ok ⟨[], 0⟩) := by decide +kernel

/-- **C81** is false: `--ignore-case` and `--strsim-threshold` hold in `--where`, but not in the path of
`--filter-set-source`. -/
theorem C81_source_false :
    let rec1 := bs "002@ " ++ [0x1F] ++ bs "0OAX" ++ [0x1F] ++ bs "p1" ++ [0x1E, 0x0A]
    toyCount ⟨false, none⟩ (toyOpts 80 true none (some "002@.0 == 'Oax'")) rec1 = some (.ok ⟨1, 1, 2⟩) ∧
    toyCount ⟨false, none⟩ { toyOpts 80 true (some "002@{ p | 0 == 'OAX' }") none with allow := [bs "l.csv"] } rec1 =
      some (.ok ⟨1, 1, 2⟩) ∧
    toyCount ⟨false, none⟩ { toyOpts 80 true (some "002@{ p | 0 == 'Oax' }") none with allow := [bs "l.csv"] } rec1 =
      some (.ok ⟨0, 0, 0⟩) := by decide +kernel

/-- **C81** is false: `count` has the option `--limit` and ignores it. -/
theorem C81_limit_false (W : World) (cfg : Config) (s : Levels) (a : CountArgs) (n : Nat) :
    ({ a with opts := { a.opts with limit := n } } : CountArgs).prepare W cfg s = a.prepare W cfg s := rfl

example : toyCount ⟨false, none⟩ { toyOpts 80 false none none with limit := 1 } (recLine "1" ++ recLine "2") =
    some (.ok ⟨2, 2, 2⟩) := by decide +kernel

end Pica.Props
