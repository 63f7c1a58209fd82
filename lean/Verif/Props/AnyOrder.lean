import Verif.Props.Count
import Verif.Props.Describe
import Verif.Props.Frequency
import Verif.Props.Select
import Verif.Props.Print
import Verif.Props.Partition
import Verif.Props.Filter
import Verif.Props.Link
import Verif.Props.Pipeline
import Verif.Props.Piped

/-!
# C86: the order of the records and their division into files
-/

namespace Pica.Props
open Pica Spec

theorem all2_filterMap {α β : Type} {g : α → Option β} {l : List α} {xs : List β}
    (h : All2 (fun r x => g r = some x) l xs) : xs = l.filterMap g := by
  induction h with
  | nil => rfl
  | cons hr _ ih => rw [List.filterMap_cons_some hr, ← ih]

theorem picked_perm (sel : Selection) {rs rs' : List ByteRecord} (h : rs.Perm rs') :
    (picked sel rs).Perm (picked sel rs') := h.filter _

theorem limited_zero {α : Type} {n : Nat} (h : n = 0) (l : List α) : limited n l = l := by
  rw [limited, if_pos h]

theorem all2_perm {α β : Type} {g : α → Option β} {l l' : List α} {xs xs' : List β} (h : l.Perm l')
    (h1 : All2 (fun r x => g r = some x) l xs) (h2 : All2 (fun r x => g r = some x) l' xs') : xs.Perm xs' := by
  rw [all2_filterMap h1, all2_filterMap h2]
  exact h.filterMap _

/-- **C86** `count` gives the same numbers. -/
theorem C86_count (c : CountCmd) {files files' : List (String × Bytes)} {rs rs' : List ByteRecord}
    (hi : Input files rs) (hi' : Input files' rs') (hrs : rs.Perm rs') {s s' : CountState}
    (h : c.loop files = .ok s) (h' : c.loop files' = .ok s') : s = s' := by
  obtain ⟨h1, h2, h3⟩ := C37_exact c files rs hi s h
  obtain ⟨h1', h2', h3'⟩ := C37_exact c files' rs' hi' s' h'
  have hp := picked_perm c.sel hrs
  cases s
  cases s'
  simp only [CountState.mk.injEq]
  simp only at h1 h2 h3 h1' h2' h3'
  rw [h1, h2, h3, h1', h2', h3']
  exact ⟨hp.length_eq, (hp.map _).sum_nat, (hp.map _).sum_nat⟩

theorem describes_perm {fs fs' : List Field} (hp : fs.Perm fs') {d : Description} (h : Describes fs d) :
    Describes fs' d where
  codesSorted := h.codesSorted
  codes c := by rw [h.codes]; simp only [hp.mem_iff]
  tagsSorted := h.tagsSorted
  tags t := by rw [h.tags]; simp only [hp.mem_iff]
  cells x hx := by
    rw [h.cells x hx]
    apply List.map_congr_left
    intro c _
    exact ((hp.filter _).flatMap_right _).countP_eq _

/-- **C86** `describe` writes the same table, whatever the orders of the hash maps are. -/
theorem C86_describe (c : DescribeCmd) (hl : c.limit = 0)
    (iter : List (Bytes × List (Byte × Nat)) → List (Bytes × List (Byte × Nat)))
    (hiter : ∀ t, (c.iter t).Perm t) (hiter' : ∀ t, (iter t).Perm t)
    {files files' : List (String × Bytes)} {rs rs' : List ByteRecord}
    (hi : Input files rs) (hi' : Input files' rs') (hrs : rs.Perm rs') {d d' : Description}
    (h : c.run files = .ok d) (h' : { c with iter := iter }.run files' = .ok d') : d = d' := by
  have h1 := C50_table c hiter files rs hi d h
  have h2 := C50_table { c with iter := iter } hiter' files' rs' hi' d' h'
  dsimp only at h2
  rw [limited_zero hl] at h1 h2
  exact C50_unique _ d d' (describes_perm ((picked_perm c.sel hrs).flatMap_right _) h1) h2

theorem occurrences_perm {unique : Bool} {results results' : List (List Row)} (hp : results.Perm results')
    (row : Row) : occurrences unique results row = occurrences unique results' row := by
  unfold occurrences
  split
  · exact (hp.filter _).length_eq
  · exact (hp.flatten.filter _).length_eq

/-- **C86** `frequency` lists the same rows in the same order, whatever the orders of the
hash maps are. -/
theorem C86_frequency (c : FreqCmd) (hl : c.limit = 0)
    (iter : List (Row × Nat) → List (Row × Nat))
    (hiter : ∀ t, (c.iter t).Perm t) (hiter' : ∀ t, (iter t).Perm t)
    {files files' : List (String × Bytes)} {rs rs' : List ByteRecord}
    (hi : Input files rs) (hi' : Input files' rs') (hrs : rs.Perm rs') {out out' : List (Row × Nat)}
    (h : c.run files = .ok out) (h' : { c with iter := iter }.run files' = .ok out') : out = out' := by
  obtain ⟨results, full, h1, h2, h3⟩ := freq_run c hiter files rs hi out h
  obtain ⟨results', full', h1', h2', h3'⟩ := freq_run { c with iter := iter } hiter' files' rs' hi' out' h'
  unfold Results at h1 h1'
  dsimp only at h1' h2' h3'
  rw [limited_zero hl] at h1 h1'
  have hp := all2_perm (picked_perm c.sel hrs) h1 h1'
  have : Listing c.unique c.reverse results' full :=
    ⟨fun row n => by rw [h2.exact, occurrences_perm hp], h2.ordered⟩
  rw [h3, h3', listing_unique this h2']

theorem firsts_perm {a b : List (List Bytes)} (h : a.Perm b) : (firsts a).Perm (firsts b) := by
  obtain ⟨h1, -, h2⟩ := firsts_spec a
  obtain ⟨h1', -, h2'⟩ := firsts_spec b
  exact (List.perm_ext_iff_of_nodup h1 h1').2 (fun r => by rw [h2, h2', h.mem_iff])

/-- **C86** `select` writes the same rows, each as often; with `--unique` if no two rows of
the results have the same hash. -/
theorem C86_select (c : SelectCmd) (hl : c.limit = 0)
    (hinj : c.unique = true → ∀ a b, c.hash a = c.hash b → a = b)
    {files files' : List (String × Bytes)} {rs rs' : List ByteRecord}
    (hi : Input files rs) (hi' : Input files' rs') (hrs : rs.Perm rs') {s s' : SelectState}
    (h : c.run files = .ok s) (h' : c.run files' = .ok s') : s.out.Perm s'.out := by
  cases hu : c.unique with
  | false =>
    obtain ⟨results, h1, h2⟩ := C46_rows c hu files rs hi s h
    obtain ⟨results', h1', h2'⟩ := C46_rows c hu files' rs' hi' s' h'
    unfold SelResults at h1 h1'
    rw [limited_zero hl] at h1 h1'
    have hp := all2_perm (picked_perm c.sel hrs) h1 h1'
    rw [h2, h2']
    exact (hp.flatten.filter _).map _
  | true =>
    obtain ⟨results, h1, h2⟩ := C46_unique_partial c hu files rs hi s h
    obtain ⟨results', h1', h2'⟩ := C46_unique_partial c hu files' rs' hi' s' h'
    unfold SelResults at h1 h1'
    rw [limited_zero hl] at h1 h1'
    have hp := all2_perm (picked_perm c.sel hrs) h1 h1'
    rw [h2 (fun a _ b _ => hinj hu a b), h2' (fun a _ b _ => hinj hu a b)]
    exact (firsts_perm (hp.flatten.filter _)).map _

/-- **C86** `hash` writes the same rows, each as often. -/
theorem C86_hash (c : HashCmd) (hl : c.limit = 0)
    {files files' : List (String × Bytes)} {rs rs' : List ByteRecord}
    (hi : Input files rs) (hi' : Input files' rs') (hrs : rs.Perm rs') {s s' : HashState}
    (h : c.run files = .ok s) (h' : c.run files' = .ok s') : s.out.Perm s'.out := by
  rw [C52_rows c files rs hi s h, C52_rows c files' rs' hi' s' h', limited_zero hl, limited_zero hl]
  exact (picked_perm c.sel hrs).map _

/-- **C86** the outputs of `filter` are read as the same records, each as often. -/
theorem C86_filter (c : FilterCmd) (hl : c.limit = 0) (name : String)
    {files files' : List (String × Bytes)} {rs rs' : List ByteRecord}
    (hi : Input files rs) (hi' : Input files' rs') (hrs : rs.Perm rs') {s s' : FilterOut} {n n' : Nat}
    (h : c.run files = .ok (s, n)) (h' : c.run files' = .ok (s', n')) :
    n = n' ∧ ∃ l l', Input [(name, s.out)] l ∧ AllValid [(name, s.out)] ∧
      Input [(name, s'.out)] l' ∧ AllValid [(name, s'.out)] ∧ l.Perm l' := by
  classical
  constructor
  · obtain ⟨-, -, h1⟩ := C28_output c files rs hi s n h
    obtain ⟨-, -, h2⟩ := C28_output c files' rs' hi' s' n' h'
    rw [h1, h2, limited_zero hl, limited_zero hl]
    exact (hrs.filter _).length_eq
  · rw [filter_delivered c files rs hi s n h, filter_delivered c files' rs' hi' s' n' h']
    obtain ⟨h1, h2⟩ := written_input name _ (delivered_lines c rs (input_lineRecord hi))
    obtain ⟨h3, h4⟩ := written_input name _ (delivered_lines c rs' (input_lineRecord hi'))
    refine ⟨_, _, h1, h2, h3, h4, ((List.Perm.filter _ ?_).map _)⟩
    unfold delivered
    rw [limited_zero hl, limited_zero hl]
    exact (((hrs.map _).filter _).map _)

/-- **C86** `print` writes the same blocks: one for each record, its fields and an empty line. -/
theorem C86_print (c : PrintCmd) (hl : c.limit = 0)
    {files files' : List (String × Bytes)} {rs rs' : List ByteRecord}
    (hi : Input files rs) (hi' : Input files' rs') (hrs : rs.Perm rs') {s s' : PrintState}
    (h : c.run files = .ok s) (h' : c.run files' = .ok s') :
    ∃ l l' : List ByteRecord, l.Perm l' ∧ s.out = l.flatMap (fun r => recordBlock c.translit r.record) ∧
      s'.out = l'.flatMap (fun r => recordBlock c.translit r.record) ∧ l = picked c.sel rs := by
  refine ⟨_, _, picked_perm c.sel hrs, ?_, ?_, rfl⟩
  · rw [(C51_output c files rs hi s h).1, limited_zero hl]
  · rw [(C51_output c files' rs' hi' s' h').1, limited_zero hl]

/-- **C86** `partition` makes the same parts, and each is read as the same records, each as
often. -/
theorem C86_partition (c : PartitionCmd) (hl : c.limit = 0) (name : String)
    {files files' : List (String × Bytes)} {rs rs' : List ByteRecord}
    (hi : Input files rs) (hi' : Input files' rs') (hrs : rs.Perm rs') {s s' : PartitionState}
    (h : c.run files = .ok s) (h' : c.run files' = .ok s') :
    (s.writers.map Prod.fst).Perm (s'.writers.map Prod.fst) ∧
    ∀ v b b', (v, b) ∈ s.writers → (v, b') ∈ s'.writers →
      ∃ l l', Input [(name, b)] l ∧ AllValid [(name, b)] ∧ Input [(name, b')] l' ∧ AllValid [(name, b')] ∧
        l.Perm l' := by
  classical
  obtain ⟨h1, h2⟩ := C33_writers c hl files rs hi s h
  obtain ⟨h1', h2'⟩ := C33_writers c hl files' rs' hi' s' h'
  have hp := picked_perm c.sel hrs
  constructor
  · refine (List.perm_ext_iff_of_nodup h1 h1').2 (fun v => ?_)
    have key : ∀ {w : List (Bytes × Bytes)} {l : List ByteRecord} {f : Bytes → Bytes},
        (∀ v b, (v, b) ∈ w ↔ (∃ r ∈ l, HasValue c r v) ∧ b = f v) →
        (v ∈ w.map Prod.fst ↔ ∃ r ∈ l, HasValue c r v) := by
      intro w l f hw
      constructor
      · intro hv
        obtain ⟨⟨v', b⟩, hx, rfl⟩ := List.mem_map.1 hv
        exact ((hw v' b).1 hx).1
      · intro hv
        exact List.mem_map.2 ⟨(v, f v), (hw v _).2 ⟨hv, rfl⟩, rfl⟩
    rw [key (f := fun v => ((picked c.sel rs).filter (fun r => decide (HasValue c r v))).flatMap ByteRecord.write) h2,
      key (f := fun v => ((picked c.sel rs').filter (fun r => decide (HasValue c r v))).flatMap ByteRecord.write) h2']
    simp only [hp.mem_iff]
  · intro v b b' hb hb'
    have hlr := input_lineRecord hi
    have hlr' := input_lineRecord hi'
    rw [((h2 v b).1 hb).2, ((h2' v b').1 hb').2]
    obtain ⟨h3, h4⟩ := lines_input name (rs := (picked c.sel rs).filter (fun r => decide (HasValue c r v)))
      (fun r hr => hlr r (List.mem_filter.1 (List.mem_filter.1 hr).1).1)
    obtain ⟨h5, h6⟩ := lines_input name (rs := (picked c.sel rs').filter (fun r => decide (HasValue c r v)))
      (fun r hr => hlr' r (List.mem_filter.1 (List.mem_filter.1 hr).1).1)
    exact ⟨_, _, h3, h4, h5, h6, hp.filter _⟩

/-! ## check -/

/-- the check has no memory: every check but `link` -/
def Memoryless : Checks → Prop
  | .link .. => False
  | _ => True

theorem memoryless_preprocess {r : Record} {x : Checks} (h : Memoryless x) : x.preprocess r = some x := by
  cases x <;> first | rfl | exact h.elim

theorem memoryless_check {C : CheckEnv} {r : Record} {x y : Checks} {b : Bool} {m : Option Bytes}
    (h : Memoryless x) (hc : x.check C r = some (y, b, m)) : y = x := by
  cases x with
  | link => exact h.elim
  | datetime E o path parses offset =>
    simp only [Checks.check] at hc
    split at hc
    · simp at hc
    · rw [Option.map_eq_some_iff] at hc
      obtain ⟨_, _, he⟩ := hc
      exact (Prod.mk.inj he).1.symm
  | unicode nf =>
    simp only [Checks.check] at hc
    split at hc
    · split at hc
      · simp only [Option.some.injEq] at hc; exact (Prod.mk.inj hc).1.symm
      · rw [Option.map_eq_some_iff] at hc
        obtain ⟨_, _, he⟩ := hc
        exact (Prod.mk.inj he).1.symm
    · simp only [Option.some.injEq] at hc; exact (Prod.mk.inj hc).1.symm
  | _ =>
    simp only [Checks.check] at hc
    rw [Option.map_eq_some_iff] at hc
    obtain ⟨_, _, he⟩ := hc
    exact (Prod.mk.inj he).1.symm

theorem memoryless_run {C : CheckEnv} {r : Record} {x : CheckRule} {y : CheckRule × List Report × Bool}
    (h : Memoryless x.check) (hr : x.run C r = some y) : y.1 = x := by
  unfold CheckRule.run at hr
  split at hr
  · simp at hr
  · rename_i z _ hc
    simp only [Option.some.injEq] at hr
    subst hr
    rw [memoryless_check h hc]
  · rename_i z m hc
    split at hr
    · simp at hr
    · simp only [Option.some.injEq] at hr
      subst hr
      rw [memoryless_check h hc]

theorem memoryless_rules {C : CheckEnv} {fast : Bool} {r : Record} : ∀ {xs : List CheckRule}
    {y : List CheckRule × List Report}, (∀ x ∈ xs, Memoryless x.check) → RuleSet.checkRules C fast r xs = some y →
    y.1 = xs := by
  intro xs
  induction xs with
  | nil => intro y _ h; simp only [RuleSet.checkRules, Option.some.injEq] at h; subst h; rfl
  | cons x xs ih =>
    intro y hm h
    rw [RuleSet.checkRules] at h
    cases hx : x.run C r with
    | none => rw [hx] at h; simp at h
    | some z =>
      obtain ⟨x', reports, result⟩ := z
      have e := memoryless_run (hm x (by simp)) hx
      dsimp only at e
      subst e
      rw [hx] at h
      dsimp only at h
      split at h
      · simp only [Option.some.injEq] at h; subst h; rfl
      · cases hxs : RuleSet.checkRules C fast r xs with
        | none => rw [hxs] at h; simp at h
        | some w =>
          rw [hxs] at h
          simp only [Option.some.injEq] at h
          subst h
          rw [← ih (fun a ha => hm a (by simp [ha])) hxs]

theorem memoryless_set {C : CheckEnv} {r : Record} {s : RuleSet} {y : RuleSet × List Report}
    (hm : ∀ x ∈ s.rules, Memoryless x.check) (h : s.step C r = some y) : y.1 = s := by
  have hp : s.preprocess r = some s := by
    have key : ∀ xs : List CheckRule, (∀ x ∈ xs, Memoryless x.check) → mapP (CheckRule.preprocess r) xs = some xs := by
      intro xs
      induction xs with
      | nil => intro _; rfl
      | cons x xs ih =>
        intro hx
        have e : x.preprocess r = some x := by
          unfold CheckRule.preprocess
          rw [memoryless_preprocess (hx x (by simp))]
          rfl
        rw [mapP, e, ih (fun a ha => hx a (by simp [ha]))]
        rfl
    unfold RuleSet.preprocess
    rw [key _ hm]
    rfl
  unfold RuleSet.step at h
  rw [hp] at h
  dsimp only at h
  unfold RuleSet.check at h
  split at h
  · simp at h
  · simp only [Option.some.injEq] at h; subst h; rfl
  · rw [Option.map_eq_some_iff] at h
    obtain ⟨w, hw, rfl⟩ := h
    dsimp only
    rw [memoryless_rules hm hw]

theorem memoryless_record {C : CheckEnv} {r : Record} : ∀ {ss : List RuleSet} {y : List RuleSet × List Report},
    (∀ s ∈ ss, ∀ x ∈ s.rules, Memoryless x.check) → CheckCmd.record C r ss = some y → y.1 = ss := by
  intro ss
  induction ss with
  | nil => intro y _ h; simp only [CheckCmd.record, Option.some.injEq] at h; subst h; rfl
  | cons s ss ih =>
    intro y hm h
    rw [CheckCmd.record] at h
    cases hs : s.step C r with
    | none => rw [hs] at h; simp at h
    | some z =>
      rw [hs] at h
      obtain ⟨s', o⟩ := z
      have e := memoryless_set (hm s (by simp)) hs
      dsimp only at e h
      subst e
      cases hss : CheckCmd.record C r ss with
      | none => rw [hss] at h; simp at h
      | some w =>
        rw [hss] at h
        simp only [Option.some.injEq] at h
        subst h
        rw [← ih (fun a ha => hm a (by simp [ha])) hss]

/-- what the rule sets report for a record -/
def reportsOf (C : CheckEnv) (ss : List RuleSet) (r : Record) : List Report :=
  match CheckCmd.record C r ss with
  | some y => y.2
  | none => []

theorem memoryless_iterate {C : CheckEnv} {ss : List RuleSet} (hm : ∀ s ∈ ss, ∀ x ∈ s.rules, Memoryless x.check) :
    ∀ {recs : List Record} {y : List RuleSet × List Report}, iterate (CheckCmd.record C) recs ss = some y →
      y = (ss, recs.flatMap (reportsOf C ss)) := by
  intro recs
  induction recs with
  | nil => intro y h; simp only [iterate, Option.some.injEq] at h; subst h; rfl
  | cons r recs ih =>
    intro y h
    rw [iterate] at h
    cases hr : CheckCmd.record C r ss with
    | none => rw [hr] at h; simp at h
    | some z =>
      have e := memoryless_record hm hr
      obtain ⟨ss', o⟩ := z
      dsimp only at e
      subst e
      rw [hr] at h
      dsimp only at h
      rw [Option.map_eq_some_iff] at h
      obtain ⟨w, hw, rfl⟩ := h
      rw [ih hw, List.flatMap_cons]
      congr 2
      unfold reportsOf
      rw [hr]

theorem memoryless_ok {c : CheckCmd} (hm : ∀ s ∈ c.rulesets, ∀ x ∈ s.rules, Memoryless x.check)
    {files : List (String × Bytes)} {rs : List ByteRecord}
    (hi : Input files rs) {out : List Report} (h : c.run files = .ok out) :
    out = (c.checked rs).flatMap (reportsOf c.C c.prepared) := by
  have hm' : ∀ s ∈ c.prepared, ∀ x ∈ s.rules, Memoryless x.check := by
    intro s hs x hx
    obtain ⟨s0, h3, rfl⟩ := List.mem_map.1 (List.mem_filter.1 hs).1
    exact hm s0 h3 x (List.mem_filter.1 hx).1
  unfold CheckCmd.run at h
  cases hl : filesLoop c.skip id (selBody c.sel.test c.body) files ⟨c.prepared, [], 0⟩ with
  | err e s => rw [hl] at h; simp at h
  | panic => rw [hl] at h; simp at h
  | ok s =>
    rw [hl] at h
    simp only [LoopResult.ok.injEq] at h
    have h1 := runSteps_sel (filesLoop_ok hi hl)
    have h2 := check_steps c (chosen c.sel.test rs) ⟨c.prepared, [], 0⟩ (by dsimp only; omega)
    rw [show (if c.limit = 0 then chosen c.sel.test rs else
        (chosen c.sel.test rs).take (c.limit - (⟨c.prepared, [], 0⟩ : CheckState).count)).map (·.record) =
        c.checked rs from rfl] at h2
    dsimp only at h2
    cases hit : iterate (CheckCmd.record c.C) (c.checked rs) c.prepared with
    | none => rw [hit] at h2; rw [h2] at h1; simp at h1
    | some p =>
      rw [hit] at h2
      obtain ⟨n, hn⟩ := h2
      rw [hn] at h1
      simp only [Option.some.injEq] at h1
      subst h1
      rw [memoryless_iterate hm' hit] at h
      dsimp only at h
      rw [← h, List.nil_append]
      have hfin : c.prepared.flatMap (RuleSet.finish c.C) = [] := by
        rw [List.flatMap_eq_nil_iff]
        intro s hs
        unfold RuleSet.finish
        rw [List.flatMap_eq_nil_iff]
        intro x hx
        have := hm' s hs x hx
        unfold CheckRule.finish
        split
        · rename_i e; rw [e] at this; exact this.elim
        · rfl
      rw [hfin, List.append_nil]

/-- **C86** `check` reports the same, each as often, if there is no link check; also with fast
termination. -/
theorem C86_check_partial (c : CheckCmd) (hl : c.limit = 0)
    (hm : ∀ s ∈ c.rulesets, ∀ x ∈ s.rules, Memoryless x.check)
    {files files' : List (String × Bytes)} {rs rs' : List ByteRecord}
    (hi : Input files rs) (hi' : Input files' rs') (hrs : rs.Perm rs') {out out' : List Report}
    (h : c.run files = .ok out) (h' : c.run files' = .ok out') : out.Perm out' := by
  rw [memoryless_ok hm hi h, memoryless_ok hm hi' h']
  unfold CheckCmd.checked
  rw [limited_zero hl, limited_zero hl, chosen_eq_picked, chosen_eq_picked]
  exact (((picked_perm c.sel hrs).map _).flatMap_right _)

/-! ## concat -/

/-- **C86** without `--unique` the outputs of `concat` are read as the same records, each as often. -/
theorem C86_concat_partial (c : ConcatCmd) (hu : c.unique = false) (name : String)
    {files files' : List (String × Bytes)} {rs rs' : List ByteRecord}
    (hi : Input files rs) (hi' : Input files' rs') (hrs : rs.Perm rs') {s s' : ConcatState}
    (h : c.run files = .ok s) (h' : c.run files' = .ok s') :
    ∃ l l', Input [(name, s.out)] l ∧ AllValid [(name, s.out)] ∧
      Input [(name, s'.out)] l' ∧ AllValid [(name, s'.out)] ∧ l.Perm l' := by
  rw [((C32_lossless c hu files rs hi).1 s h).1, ((C32_lossless c hu files' rs' hi').1 s' h').1]
  obtain ⟨h3, h4⟩ := lines_input name (input_lineRecord hi)
  obtain ⟨h5, h6⟩ := lines_input name (input_lineRecord hi')
  exact ⟨_, _, h3, h4, h5, h6, hrs⟩

theorem firstFrom_spec {α : Type} {key : α → Bytes} (l : List α) : ∀ p : List α,
    (firstFrom key p l).Nodup ∧ (∀ x ∈ firstFrom key p l, x ∈ l ∧ key x ∉ p.map key) ∧
    ((∀ a ∈ l, key a ≠ []) → (∀ a ∈ l, ∀ b ∈ l, key a = key b → a = b) →
      ∀ x ∈ l, key x ∉ p.map key → x ∈ firstFrom key p l) := by
  induction l with
  | nil => intro p; simp [firstFrom]
  | cons a l ih =>
    intro p
    obtain ⟨h1, h2, h3⟩ := ih (p ++ [a])
    rw [firstFrom]
    refine ⟨?_, ?_, ?_⟩
    · split
      · rw [List.singleton_append, List.nodup_cons]
        refine ⟨fun hm => ?_, h1⟩
        have := (h2 a hm).2
        simp at this
      · simpa using h1
    · intro x hx
      rcases List.mem_append.1 hx with hx | hx
      · split at hx
        · rename_i hc
          rw [List.mem_singleton] at hx
          subst hx
          exact ⟨by simp, hc.2⟩
        · simp at hx
      · obtain ⟨k1, k2⟩ := h2 x hx
        refine ⟨by simp [k1], fun hm => k2 ?_⟩
        rw [List.map_append]
        exact List.mem_append_left _ hm
    · intro hne hinj x hx hk
      rw [List.mem_append]
      by_cases hxa : x = a
      · subst hxa
        rw [if_pos ⟨hne x (by simp), hk⟩]
        simp
      · right
        have hxl : x ∈ l := by
          rcases List.mem_cons.1 hx with h | h
          · exact absurd h hxa
          · exact h
        refine h3 (fun b hb => hne b (by simp [hb])) (fun b hb d hd => hinj b (by simp [hb]) d (by simp [hd])) x hxl ?_
        rw [List.map_append, List.mem_append]
        rintro (hm | hm)
        · exact hk hm
        · simp only [List.map_cons, List.map_nil, List.mem_singleton] at hm
          exact hxa (hinj x hx a (by simp) hm)

theorem firstOf_perm {α : Type} {key : α → Bytes} {l l' : List α} (hne : ∀ a ∈ l, key a ≠ [])
    (hinj : ∀ a ∈ l, ∀ b ∈ l, key a = key b → a = b) (h : l.Perm l') : (firstOf key l).Perm (firstOf key l') := by
  rw [← firstFrom_nil, ← firstFrom_nil]
  obtain ⟨h1, h2, h3⟩ := firstFrom_spec (key := key) l []
  obtain ⟨h1', h2', h3'⟩ := firstFrom_spec (key := key) l' []
  refine (List.perm_ext_iff_of_nodup h1 h1').2 (fun x => ?_)
  constructor
  · intro hx
    exact h3' (fun a ha => hne a (h.mem_iff.2 ha)) (fun a ha b hb => hinj a (h.mem_iff.2 ha) b (h.mem_iff.2 hb)) x
      (h.mem_iff.1 (h2 x hx).1) (by simp)
  · intro hx
    exact h3 hne hinj x (h.mem_iff.2 (h2' x hx).1) (by simp)

theorem line_write_inj {a b : ByteRecord} (ha : LineRecord a) (hb : LineRecord b) (h : a.write = b.write) : a = b := by
  obtain ⟨t, -, h1, h2⟩ := ha
  obtain ⟨u, -, h3, h4⟩ := hb
  rw [← h2, h] at h1
  rw [← h4, h1] at h3
  exact Option.some.inj h3

/-- **C86** the same with `--unique` by checksum, if different lines have different checksums. -/
theorem C86_concat_hash_partial (c : ConcatCmd) (hu : c.unique = true) (hs : c.strategy = .hash)
    (hsha : ∀ b, (c.sha b).length = 32) (name : String)
    {files files' : List (String × Bytes)} {rs rs' : List ByteRecord}
    (hi : Input files rs) (hi' : Input files' rs') (hrs : rs.Perm rs')
    (hinj : ∀ a ∈ rs, ∀ b ∈ rs, c.sha a.write = c.sha b.write → a.write = b.write)
    (hc : c.skip = true ∨ AllValid files) (hc' : c.skip = true ∨ AllValid files') :
    ∃ s s' l l', c.run files = .ok s ∧ c.run files' = .ok s' ∧ Input [(name, s.out)] l ∧ AllValid [(name, s.out)] ∧
      Input [(name, s'.out)] l' ∧ AllValid [(name, s'.out)] ∧ l.Perm l' := by
  obtain ⟨s, h1, h2⟩ := C32_unique_hash c hu hs hsha files rs hi hc
  obtain ⟨s', h1', h2'⟩ := C32_unique_hash c hu hs hsha files' rs' hi' hc'
  have hsub : ∀ (l : List ByteRecord), ∀ r ∈ firstOf (fun r => c.sha r.write) l, r ∈ l := by
    intro l r hr
    rw [← firstFrom_nil] at hr
    exact ((firstFrom_spec l []).2.1 r hr).1
  have hlr := input_lineRecord hi
  have hlr' := input_lineRecord hi'
  obtain ⟨h3, h4⟩ := lines_input name (rs := firstOf (fun r => c.sha r.write) rs) (fun r hr => hlr r (hsub _ r hr))
  obtain ⟨h5, h6⟩ := lines_input name (rs := firstOf (fun r => c.sha r.write) rs') (fun r hr => hlr' r (hsub _ r hr))
  refine ⟨s, s', _, _, h1, h1', ?_, ?_, ?_, ?_, firstOf_perm (key := fun r => c.sha r.write) ?_ ?_ hrs⟩
  · rw [h2]; exact h3
  · rw [h2]; exact h4
  · rw [h2']; exact h5
  · rw [h2']; exact h6
  · intro a _ h; have := hsha a.write; rw [h] at this; simp at this
  · intro a ha b hb h; exact line_write_inj (hlr a ha) (hlr b hb) (hinj a ha b hb h)

/-! ## where the order matters -/

/-- two records as they are read, in both orders -/
theorem swap_input {l m : Bytes} {a b : ByteRecord} (ha : ByteRecord.fromBytes l = some a)
    (hb : ByteRecord.fromBytes m = some b) (hl : LF ∉ l.dropLast ∧ l ≠ []) (hm : LF ∉ m.dropLast ∧ m ≠ [])
    (hwa : a.write = l) (hwb : b.write = m) :
    Input [("a", l ++ m)] [a, b] ∧ Input [("a", m ++ l)] [b, a] ∧ [a, b].Perm [b, a] := by
  have h1 := lineRecord_of_line ha hl.1 hl.2
  have h2 := lineRecord_of_line hb hm.1 hm.2
  have k1 := (lines_input "a" (rs := [a, b]) (by simp [h1, h2])).1
  have k2 := (lines_input "a" (rs := [b, a]) (by simp [h1, h2])).1
  simp only [List.flatMap_cons, List.flatMap_nil, List.append_nil, hwa, hwb] at k1 k2
  exact ⟨k1, k2, List.Perm.swap b a []⟩

/-- **C86** fails with a limit: the first record is another one. -/
theorem C86_limit_false : ∃ (c : HashCmd) (files files' : List (String × Bytes)) (rs rs' : List ByteRecord)
    (s s' : HashState), Input files rs ∧ Input files' rs' ∧ rs.Perm rs' ∧ c.run files = .ok s ∧
      c.run files' = .ok s' ∧ ¬ s.out.Perm s'.out := by
  obtain ⟨h1, h2, h3⟩ := swap_input (l := recLine "1") (m := recLine "2") (a := recOf "1") (b := recOf "2")
    (by decide +kernel) (by decide +kernel) (by decide +kernel) (by decide +kernel) (by decide +kernel) (by decide +kernel)
  refine ⟨hashSample, _, _, _, _, ⟨[(bs "1", bs "3030")], 1⟩, ⟨[(bs "2", bs "3030")], 1⟩, h1, h2, h3,
    by decide +kernel, by decide +kernel, ?_⟩
  rw [List.perm_singleton]
  decide +kernel

/-- **C86** fails for `concat --unique` by IDN: of two records with the same IDN the first one is kept. -/
theorem C86_concat_idn_false : ∃ (c : ConcatCmd) (files files' : List (String × Bytes)) (rs rs' : List ByteRecord)
    (s s' : ConcatState), c.unique = true ∧ c.strategy = .idn ∧ Input files rs ∧ Input files' rs' ∧ rs.Perm rs' ∧
      c.run files = .ok s ∧ c.run files' = .ok s' ∧ s.out = linkLine "1" "8" ∧ s'.out = linkLine "1" "9" := by
  obtain ⟨h1, h2, h3⟩ := swap_input (l := linkLine "1" "8") (m := linkLine "1" "9")
    (a := ⟨some (linkLine "1" "8"), [⟨bs "003@", none, [⟨0x30, bs "1"⟩]⟩, ⟨bs "012A", none, [⟨0x6C, bs "8"⟩]⟩]⟩)
    (b := ⟨some (linkLine "1" "9"), [⟨bs "003@", none, [⟨0x30, bs "1"⟩]⟩, ⟨bs "012A", none, [⟨0x6C, bs "9"⟩]⟩]⟩)
    (by decide +kernel) (by decide +kernel) (by decide +kernel) (by decide +kernel) (by decide +kernel) (by decide +kernel)
  exact ⟨concatSample true .idn, _, _, _, _, ⟨linkLine "1" "8", none, [bs "1"]⟩, ⟨linkLine "1" "9", none, [bs "1"]⟩, rfl, rfl,
    h1, h2, h3, by decide +kernel, by decide +kernel, rfl, rfl⟩

/-- **C86** fails for the link check: the message lists the values in the order of the records. -/
theorem C86_link_false : ∃ (c : CheckCmd) (files files' : List (String × Bytes)) (rs rs' : List ByteRecord)
    (out out' : List Report), Input files rs ∧ Input files' rs' ∧ rs.Perm rs' ∧
      c.run files = .ok out ∧ c.run files' = .ok out' ∧ ¬ out.Perm out' := by
  obtain ⟨h1, h2, h3⟩ := swap_input (l := linkLine "1" "8") (m := linkLine "1" "9")
    (a := ⟨some (linkLine "1" "8"), [⟨bs "003@", none, [⟨0x30, bs "1"⟩]⟩, ⟨bs "012A", none, [⟨0x6C, bs "8"⟩]⟩]⟩)
    (b := ⟨some (linkLine "1" "9"), [⟨bs "003@", none, [⟨0x30, bs "1"⟩]⟩, ⟨bs "012A", none, [⟨0x6C, bs "9"⟩]⟩]⟩)
    (by decide +kernel) (by decide +kernel) (by decide +kernel) (by decide +kernel) (by decide +kernel) (by decide +kernel)
  refine ⟨linkCmd, _, _, _, _, [⟨some (bs "1"), bs "L", .error, some (bs "8, 9")⟩],
    [⟨some (bs "1"), bs "L", .error, some (bs "9, 8")⟩], h1, h2, h3, by decide +kernel, by decide +kernel, ?_⟩
  rw [List.perm_singleton]
  decide +kernel

/-! ## the division into files -/

/-- **C86** if two commands with the same record loop, starting in the same state, end without error,
they end in the same state, however the records are divided into files; also with a limit. -/
theorem C86_division {S : Type} (skip skip' : Bool) (body : S → ByteRecord → Step S) (s₀ : S)
    {files files' : List (String × Bytes)} {rs : List ByteRecord} (hi : Input files rs) (hi' : Input files' rs)
    {s s' : S} (h : filesLoop skip id body files s₀ = .ok s) (h' : filesLoop skip' id body files' s₀ = .ok s') :
    s = s' := by
  have h1 := filesLoop_ok hi h
  have h2 := filesLoop_ok hi' h'
  rw [h1] at h2
  exact Option.some.inj h2

/-- **C86** (division) for the commands: a run that ends without error depends only on the records. -/
theorem C86_commands {files files' : List (String × Bytes)} {rs : List ByteRecord} (hi : Input files rs)
    (hi' : Input files' rs) :
    (∀ (c : FilterCmd) s s', c.run files = .ok s → c.run files' = .ok s' → s = s') ∧
    (∀ (c : SelectCmd) s s', c.run files = .ok s → c.run files' = .ok s' → s = s') ∧
    (∀ (c : SplitCmd) s s', c.run files = .ok s → c.run files' = .ok s' → s = s') ∧
    (∀ (c : PartitionCmd) s s', c.run files = .ok s → c.run files' = .ok s' → s = s') ∧
    (∀ (c : ConcatCmd) s s', c.run files = .ok s → c.run files' = .ok s' → s = s') ∧
    (∀ (c : CheckCmd) s s', c.run files = .ok s → c.run files' = .ok s' → s = s') := by
  refine ⟨?_, ?_, ?_, ?_, ?_, ?_⟩
  · intro c s s' h h'; exact C86_division _ _ _ _ hi hi' h h'
  · intro c s s' h h'; exact C86_division _ _ _ _ hi hi' h h'
  · intro c s s' h h'; exact C86_division _ _ _ _ hi hi' h h'
  · intro c s s' h h'; exact C86_division _ _ _ _ hi hi' h h'
  · intro c s s' h h'; exact C86_division _ _ _ _ hi hi' h h'
  · intro c s s' h h'
    unfold CheckCmd.run at h h'
    split at h
    · rename_i x hx
      split at h'
      · rename_i y hy
        have := C86_division _ _ _ _ hi hi' hx hy
        subst this
        rw [h] at h'
        exact LoopResult.ok.inj h'
      · simp at h'
      · simp at h'
    · simp at h
    · simp at h

/-- **C86** (division) the other commands, also with a limit; for `describe` and `frequency` whatever the
orders of the hash maps are, for `sample` with the same random numbers. -/
theorem C86_outputs {files files' : List (String × Bytes)} {rs : List ByteRecord} (hi : Input files rs)
    (hi' : Input files' rs) :
    (∀ (c : CountCmd) s s', c.run files = .ok s → c.run files' = .ok s' → s = s') ∧
    (∀ (c : HashCmd) s s', c.run files = .ok s → c.run files' = .ok s' → s = s') ∧
    (∀ (c : PrintCmd) s s', c.run files = .ok s → c.run files' = .ok s' → s = s') ∧
    (∀ (c : ExplodeCmd) s s', c.run files = .ok s → c.run files' = .ok s' → s = s') ∧
    (∀ (c : ConvertCmd) s s', c.run files = .ok s → c.run files' = .ok s' → s = s') ∧
    (∀ (c : SampleCmd) s s', c.run files = .ok s → c.run files' = .ok s' → s = s') ∧
    (∀ (c : DescribeCmd) iter s s', (∀ t, (c.iter t).Perm t) → (∀ t, (iter t).Perm t) → c.run files = .ok s →
      { c with iter := iter }.run files' = .ok s' → s = s') ∧
    (∀ (c : FreqCmd) iter s s', (∀ t, (c.iter t).Perm t) → (∀ t, (iter t).Perm t) → c.run files = .ok s →
      { c with iter := iter }.run files' = .ok s' → s = s') := by
  refine ⟨?_, ?_, ?_, ?_, ?_, ?_, ?_, ?_⟩
  · intro c s s' h h'
    unfold CountCmd.run at h h'
    split at h
    · rename_i x hx
      split at h'
      · rename_i y hy
        have := C86_division _ _ _ _ hi hi' hx hy
        subst this
        rw [h] at h'
        exact LoopResult.ok.inj h'
      · simp at h'
      · simp at h'
    · simp at h
    · simp at h
  · intro c s s' h h'; exact C86_division _ _ _ _ hi hi' h h'
  · intro c s s' h h'; exact C86_division _ _ _ _ hi hi' h h'
  · intro c s s' h h'; exact C86_division _ _ _ _ hi hi' h h'
  · intro c s s' h h'
    unfold ConvertCmd.run at h h'
    split at h
    · rename_i x hx
      split at h'
      · rename_i y hy
        have := C86_division _ _ _ _ hi hi' hx hy
        subst this
        rw [h] at h'
        exact LoopResult.ok.inj h'
      · simp at h'
      · simp at h'
    · simp at h
    · simp at h
  · intro c s s' h h'
    unfold SampleCmd.run at h h'
    cases hx : c.loop files with
    | ok x =>
      cases hy : c.loop files' with
      | ok y =>
        have := C86_division _ _ _ _ hi hi' hx hy
        subst this
        rw [hx] at h; rw [hy] at h'
        rw [h] at h'
        exact LoopResult.ok.inj h'
      | err e y => rw [hy] at h'; simp at h'
      | panic => rw [hy] at h'; simp at h'
    | err e y => rw [hx] at h; simp at h
    | panic => rw [hx] at h; simp at h
  · intro c iter s s' hc hit h h'
    exact C50_unique _ s s' (C50_table c hc files rs hi s h) (C50_table { c with iter := iter } hit files' rs hi' s' h')
  · intro c iter s s' hc hit h h'
    obtain ⟨results, full, h1, h2, h3⟩ := freq_run c hc files rs hi s h
    obtain ⟨results', full', h1', h2', h3'⟩ := freq_run { c with iter := iter } hit files' rs hi' s' h'
    unfold Results at h1 h1'
    dsimp only at h1' h2' h3'
    have hp := all2_perm (List.Perm.refl _) h1 h1'
    have : Listing c.unique c.reverse results' full :=
      ⟨fun row n => by rw [h2.exact, occurrences_perm hp], h2.ordered⟩
    rw [h3, h3', listing_unique this h2']

/-! ## cases -/

/-- one file and three, one of them empty -/
theorem division_sample : ∃ rs, Input [("a", recLine "1" ++ recLine "2")] rs ∧
    Input [("a", recLine "1"), ("b", []), ("c", recLine "2")] rs :=
  ⟨_, input_of _, input_is (by decide +kernel)⟩
example : ∃ rs, Input [("a", recLine "1" ++ recLine "2")] rs ∧
    Input [("a", recLine "1"), ("b", []), ("c", recLine "2")] rs ∧
    (countSample .plain).run [("a", recLine "1" ++ recLine "2")] =
      (countSample .plain).run [("a", recLine "1"), ("b", []), ("c", recLine "2")] := by
  obtain ⟨rs, h1, h2⟩ := division_sample
  exact ⟨rs, h1, h2, by decide +kernel⟩

/-- two records in two orders, in one file and in two -/
theorem orders_sample : ∃ rs rs', Input [("a", recLine "1" ++ recLine "2")] rs ∧
    Input [("a", recLine "2" ++ recLine "1")] rs' ∧ rs.Perm rs' := by
  obtain ⟨h1, h2, h3⟩ := swap_input (l := recLine "1") (m := recLine "2") (a := recOf "1") (b := recOf "2")
    (by decide +kernel) (by decide +kernel) (by decide +kernel) (by decide +kernel) (by decide +kernel) (by decide +kernel)
  exact ⟨_, _, h1, h2, h3⟩

example : (countSample .plain).loop [("a", recLine "1" ++ recLine "2")] = .ok ⟨2, 2, 2⟩ ∧
    (countSample .plain).loop [("a", recLine "2" ++ recLine "1")] = .ok ⟨2, 2, 2⟩ := by decide +kernel
example : describeSample.run [("a", recLine "1" ++ recLine "2")] = .ok ⟨[0x30], [(bs "003@", [2])]⟩ ∧
    { describeSample with iter := id }.run [("a", recLine "2" ++ recLine "1")] = .ok ⟨[0x30], [(bs "003@", [2])]⟩ := by
  decide +kernel
example : (freqSample false false 0 0).map (·.run [("a", recLine "2" ++ recLine "1")]) =
    some (.ok [([bs "1"], 1), ([bs "2"], 1)]) := by decide +kernel
example : (selectSample true false (fun r => (r.flatten.map UInt8.toNat).foldl (fun a b => 256 * a + b) 0)).map
      (fun c => match c.run [("a", recLine "2" ++ recLine "1" ++ recLine "2")] with | .ok s => s.out | _ => []) =
    some [[bs "2", []], [bs "1", []]] := by decide +kernel
example : { hashSample with limit := 0 }.run [("a", recLine "2" ++ recLine "1")] =
    .ok ⟨[(bs "2", bs "3030"), (bs "1", bs "3030")], 2⟩ := by decide +kernel
example : printSample.run [("a", recLine "2" ++ recLine "1")] =
    .ok ⟨bs "003@ $0 2\n\n003@ $0 1\n\n", 2⟩ := by decide +kernel
example : (filterSample false 0).map (fun c => match c.run [("a", recLine "2" ++ recLine "12" ++ recLine "1")] with
    | .ok (s, n) => (s.out, n) | _ => ([], 0)) = some (recLine "12" ++ recLine "1", 2) := by decide +kernel
example : (partitionSample "{}.dat" 0).run [("a", recLine "2" ++ recLine "1")] =
    .ok ⟨[(bs "2", recLine "2"), (bs "1", recLine "1")], 2⟩ := by decide +kernel
example : (∀ s ∈ (checkSample true [failRule "A"]).rulesets, ∀ x ∈ s.rules, Memoryless x.check) ∧
    (checkSample true [failRule "A"]).run [("a", recLine "2" ++ recLine "1")] =
    .ok [⟨some (bs "2"), bs "A", .error, none⟩, ⟨some (bs "1"), bs "A", .error, none⟩] := by
  refine ⟨?_, by decide +kernel⟩
  intro s hs x hx
  simp only [checkSample, List.mem_singleton] at hs
  subst hs
  simp only [List.mem_singleton] at hx
  subst hx
  trivial
example : (∀ b, ((concatSample true .hash).sha b).length = 32) ∧
    (concatSample true .hash).sha (recOf "1").write ≠ (concatSample true .hash).sha (recOf "2").write :=
  ⟨fun b => by simp [concatSample], by decide +kernel⟩

end Pica.Props
