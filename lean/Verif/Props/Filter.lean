import Verif.Model.FilterCmd
import Verif.Lemmas.Cases
import Verif.Props.ByteRecord
import Verif.Props.Path

/-! # C28, C29: filter -/

namespace Pica.Props
open Pica Spec

/-! ## C29 -/

/-- the values of a record are admitted by the lists -/
def Admitted (allow deny : Option (List Bytes)) (vs : List Bytes) : Prop :=
  (∀ d, deny = some d → ∀ v ∈ vs, v ∉ d) ∧ (∀ a, allow = some a → ∃ v ∈ vs, v ∈ a)

/-- **C29** a record passes iff none of its selected values is denied and, with
an allow list, one of them is allowed. -/
theorem C29_check (E₀ : Env) (fs : FilterSet) (r : Record) (vs : List Bytes)
    (h : fs.path.values E₀ ⟨false⟩ r = some vs) :
    (fs.check E₀ r = some true ↔ Admitted fs.allow fs.deny vs) ∧
    (fs.check E₀ r = some false ↔ ¬ Admitted fs.allow fs.deny vs) := by
  have key : ∃ b, fs.check E₀ r = some b ∧ (b = true ↔ Admitted fs.allow fs.deny vs) := by
    unfold FilterSet.check Admitted
    rw [h]
    have e : ∀ a : List Bytes, (!vs.any (fun v => a.contains v) || a.isEmpty) = false ↔ ∃ v ∈ vs, v ∈ a := by
      intro a
      cases a with
      | nil => simp
      | cons x a => simp
    rcases hd : fs.deny with _ | d <;> rcases ha : fs.allow with _ | a
    · exact ⟨true, by simp⟩
    · by_cases h2 : ∃ v ∈ vs, v ∈ a
      · exact ⟨true, by simp only [(e a).2 h2]; simp, by simpa using h2⟩
      · have : (!vs.any (fun v => a.contains v) || a.isEmpty) = true := by
          rw [← Bool.not_eq_false, e]; exact h2
        exact ⟨false, by simp only [this]; simp, by simpa using h2⟩
    · by_cases h1 : ∃ v ∈ vs, v ∈ d
      · have : vs.any (fun v => d.contains v) = true := by simpa using h1
        refine ⟨false, by simp only [this]; rfl, ?_⟩
        simpa using h1
      · have : vs.any (fun v => d.contains v) = false := by
          rw [← Bool.not_eq_true]; simpa using h1
        refine ⟨true, by simp only [this]; rfl, ?_⟩
        simpa using h1
    · by_cases h1 : ∃ v ∈ vs, v ∈ d
      · have : vs.any (fun v => d.contains v) = true := by simpa using h1
        refine ⟨false, by simp only [this]; rfl, ?_⟩
        obtain ⟨v, hv, hd⟩ := h1
        simp only [Bool.false_eq_true, false_iff, not_and]
        intro h; exact absurd hd (h d rfl v hv)
      · have h1' : vs.any (fun v => d.contains v) = false := by
          rw [← Bool.not_eq_true]; simpa using h1
        have h1'' : ∀ v ∈ vs, v ∉ d := fun v hv hd => h1 ⟨v, hv, hd⟩
        by_cases h2 : ∃ v ∈ vs, v ∈ a
        · refine ⟨true, by simp only [h1', (e a).2 h2]; simp, ?_⟩
          simp only [Option.some.injEq, true_iff]
          exact ⟨fun _ hd => hd ▸ h1'', fun _ ha => ha ▸ h2⟩
        · have : (!vs.any (fun v => a.contains v) || a.isEmpty) = true := by
            rw [← Bool.not_eq_false, e]; exact h2
          refine ⟨false, by simp only [h1', this]; simp, ?_⟩
          simp only [Bool.false_eq_true, false_iff, not_and]
          intro _ h; exact h2 (h a rfl)
  obtain ⟨b, hb, hiff⟩ := key
  rw [hb]
  cases b with
  | true => simpa using hiff
  | false => simpa using hiff

/-- **C29** an empty allow list admits nothing. -/
theorem C29_empty_allow (E₀ : Env) (fs : FilterSet) (h : fs.allow = some []) (r : Record) :
    fs.check E₀ r ≠ some true := by
  intro hc
  cases hv : fs.path.values E₀ ⟨false⟩ r with
  | none => simp [FilterSet.check, hv] at hc
  | some vs =>
    obtain ⟨v, _, hv⟩ := ((C29_check E₀ fs r vs hv).1.1 hc).2 [] h
    simp at hv

/-- **C29** a denied value overrides every allow list. -/
theorem C29_deny_overrides (E₀ : Env) (fs : FilterSet) (r : Record) (vs d : List Bytes) (v : Bytes)
    (h : fs.path.values E₀ ⟨false⟩ r = some vs) (hd : fs.deny = some d) (hv : v ∈ vs) (hm : v ∈ d) :
    fs.check E₀ r = some false :=
  (C29_check E₀ fs r vs h).2.2 (fun ha => ha.1 d hd v hv hm)

/-- **C29** without lists every record passes. -/
theorem C29_no_lists (E₀ : Env) (fs : FilterSet) (r : Record) (vs : List Bytes)
    (h : fs.path.values E₀ ⟨false⟩ r = some vs) (ha : fs.allow = none) (hd : fs.deny = none) :
    fs.check E₀ r = some true :=
  (C29_check E₀ fs r vs h).1.2 (by simp [Admitted, ha, hd])

/-- a filter set on the values of `045E.e` -/
def setSample (allow deny : Option (List Bytes)) : Option FilterSet :=
  (pathM "045E.e").map (fun p => ⟨allow, deny, p⟩)

example : ((setSample (some [bs "x"]) none).bind (·.check toyEnv pathSample),
    (setSample (some [bs "x"]) (some [bs "w"])).bind (·.check toyEnv pathSample),
    (setSample (some [bs "q"]) none).bind (·.check toyEnv pathSample),
    (setSample (some []) none).bind (·.check toyEnv pathSample)) =
    (some true, some false, some false, some false) := by decide +kernel

/-! ## C28 -/

/-- a record passes the filter: admitted by the lists, and matched (or, inverted,
not matched) -/
def Passes (c : FilterCmd) (r : Record) : Prop :=
  (∃ vs, c.set.path.values c.E₀ ⟨false⟩ r = some vs ∧ Admitted c.set.allow c.set.deny vs) ∧
  c.matcher.eval c.E c.o r = some (!c.invert)

open Classical in
/-- a record without the discarded fields and, if there is a keep list, without
the fields that are not kept -/
noncomputable def reduced (discard keep : List FieldPred) (r : Record) : Record :=
  r.filter (fun f => decide (¬ Selected discard f ∧ (keep = [] ∨ Selected keep f)))

theorem check_true_iff (E₀ : Env) (fs : FilterSet) (r : Record) :
    fs.check E₀ r = some true ↔
      ∃ vs, fs.path.values E₀ ⟨false⟩ r = some vs ∧ Admitted fs.allow fs.deny vs := by
  constructor
  · intro h
    cases hv : fs.path.values E₀ ⟨false⟩ r with
    | none => simp [FilterSet.check, hv] at h
    | some vs => exact ⟨vs, rfl, (C29_check E₀ fs r vs hv).1.1 h⟩
  · rintro ⟨vs, hv, ha⟩
    exact (C29_check E₀ fs r vs hv).1.2 ha

theorem filter_test_iff (c : FilterCmd) (r : ByteRecord) :
    c.test r = some true ↔ Passes c r.record := by
  unfold FilterCmd.test Passes
  rw [← check_true_iff]
  rcases hc : c.set.check c.E₀ r.record with _ | b
  · simp
  · cases b with
    | false => simp
    | true =>
      rcases c.matcher.eval c.E c.o r.record with _ | b
      · simp
      · cases b <;> cases c.invert <;> simp

theorem reduce_record (c : FilterCmd) (r : ByteRecord) :
    (c.reduce r).record = reduced c.discard c.keep r.record := by
  classical
  unfold FilterCmd.reduce reduced
  by_cases hk : c.keep = []
  · rw [hk, (C10_empty_preds _).1, C10_discard]
    exact List.filter_congr (fun f _ => by simp)
  · rw [C10_keep _ hk, C10_discard, List.filter_filter]
    exact List.filter_congr (fun f _ => by simp [hk, Bool.and_comm])

theorem reduce_write (c : FilterCmd) {l : Bytes} {r : ByteRecord} (h : ByteRecord.fromBytes l = some r) :
    (c.reduce r).write = (reduced c.discard c.keep r.record).write := by
  have hr : Reach (c.reduce r) := .keep _ (.discard _ (.fromBytes h))
  rw [C10_written_bytes _ hr, reduce_record]

theorem emit_foldl (c : FilterCmd) (l : List ByteRecord) (s : FilterOut) :
    l.foldl c.emit s = ⟨s.out ++ l.flatMap (fun r => (c.reduce r).write),
      s.tee.map (· ++ l.flatMap (fun r => (c.reduce r).write))⟩ := by
  induction l generalizing s with
  | nil => cases s; rename_i t; cases t <;> simp
  | cons a l ih =>
    rw [List.foldl_cons, ih]
    cases s; rename_i t
    cases t <;> simp [FilterCmd.emit]

open Classical in
/-- **C28** the output is the concatenation of the encodings of the reduced
records, taken over the first `limit` records that pass; `--tee` gets the same
bytes. -/
theorem C28_output (c : FilterCmd) (files : List (String × Bytes)) (rs : List ByteRecord)
    (hi : Input files rs) (s : FilterOut) (n : Nat) (h : c.run files = .ok (s, n)) :
    let sel := limited c.limit (rs.filter (fun r => decide (Passes c r.record)))
    s.out = sel.flatMap (fun r => (reduced c.discard c.keep r.record).write) ∧
    s.tee = (if c.tee then some s.out else none) ∧ n = sel.length := by
  have hs := selLimit_ok hi h
  have e : chosen c.test rs = rs.filter (fun r => decide (Passes c r.record)) :=
    List.filter_congr (fun r _ => by rw [Bool.eq_iff_iff]; simpa using filter_test_iff c r)
  rw [e] at hs
  obtain ⟨rfl, rfl⟩ := Prod.mk.inj hs
  have hw : ∀ (l : List ByteRecord), (∀ r ∈ l, r ∈ rs) →
      l.flatMap (fun r => (c.reduce r).write) =
      l.flatMap (fun r => (reduced c.discard c.keep r.record).write) := by
    intro l hl
    induction l with
    | nil => rfl
    | cons r l ih =>
      obtain ⟨b, hb⟩ := input_fromBytes hi r (hl r (by simp))
      rw [List.flatMap_cons, List.flatMap_cons, ih (fun r hr => hl r (by simp [hr])), reduce_write c hb]
  have hw' := hw (limited c.limit (rs.filter (fun r => decide (Passes c r.record))))
    (fun r hr => (List.mem_filter.1 (mem_limited hr)).1)
  dsimp only
  rw [emit_foldl, hw']
  refine ⟨by simp, ?_, rfl⟩
  cases c.tee <;> simp

/-- **C28** the command finishes when the invalid lines are skipped or absent and
neither lists nor matcher panic. -/
theorem C28_finishes (c : FilterCmd) (files : List (String × Bytes)) (rs : List ByteRecord)
    (hi : Input files rs) (hc : c.skip = true ∨ AllValid files)
    (hl : ∀ r ∈ rs, (c.set.path.values c.E₀ ⟨false⟩ r.record).isSome)
    (hm : ∀ r ∈ rs, (c.matcher.eval c.E c.o r.record).isSome) :
    ∃ s n, c.run files = .ok (s, n) := by
  have ht : ∀ r ∈ rs, ∃ b, c.test r = some b := by
    intro r hr
    obtain ⟨vs, hv⟩ := Option.isSome_iff_exists.1 (hl r hr)
    obtain ⟨b, hb⟩ := Option.isSome_iff_exists.1 (hm r hr)
    unfold FilterCmd.test
    have := C29_check c.E₀ c.set r.record vs hv
    by_cases ha : Admitted c.set.allow c.set.deny vs
    · rw [this.1.2 ha, hb]; exact ⟨_, rfl⟩
    · rw [this.2.2 ha]; exact ⟨_, rfl⟩
  obtain ⟨⟨s, n⟩, h⟩ := selLimit_clean (limit := c.limit) (g := c.emit) hi hc ht
    ⟨[], if c.tee then some [] else none⟩
  exact ⟨s, n, h⟩

/-- **C28** the records passing with and without `--invert-match` partition the
records admitted by the lists. -/
theorem C28_invert (c : FilterCmd) (r : Record)
    (hm : (c.matcher.eval c.E c.o r).isSome) :
    (Passes c r ∨ Passes { c with invert := !c.invert } r ↔
      ∃ vs, c.set.path.values c.E₀ ⟨false⟩ r = some vs ∧ Admitted c.set.allow c.set.deny vs) ∧
    ¬ (Passes c r ∧ Passes { c with invert := !c.invert } r) := by
  obtain ⟨b, hb⟩ := Option.isSome_iff_exists.1 hm
  unfold Passes
  dsimp only
  rw [hb]
  cases b <;> cases c.invert <;> simp

open Classical in
/-- **C28** as bytes: without limit and reductions, the two outputs are the
encodings of two complementary sublists of the admitted records. -/
theorem C28_invert_output (c : FilterCmd) (files : List (String × Bytes)) (rs : List ByteRecord)
    (hi : Input files rs) (hlim : c.limit = 0) (s s' : FilterOut) (n n' : Nat)
    (hm : ∀ r ∈ rs, (c.matcher.eval c.E c.o r.record).isSome)
    (h : c.run files = .ok (s, n)) (h' : { c with invert := !c.invert }.run files = .ok (s', n')) :
    let adm := rs.filter (fun r => decide (∃ vs, c.set.path.values c.E₀ ⟨false⟩ r.record = some vs ∧
      Admitted c.set.allow c.set.deny vs))
    ∃ p : ByteRecord → Bool,
      s.out = (adm.filter p).flatMap (fun r => (reduced c.discard c.keep r.record).write) ∧
      s'.out = (adm.filter (fun r => !p r)).flatMap (fun r => (reduced c.discard c.keep r.record).write) ∧
      n + n' = adm.length := by
  obtain ⟨h1, _, h2⟩ := C28_output c files rs hi s n h
  obtain ⟨h1', _, h2'⟩ := C28_output _ files rs hi s' n' h'
  simp only [limited, hlim, if_true] at h1 h2 h1' h2'
  intro adm
  refine ⟨fun r => decide (Passes c r.record), ?_, ?_, ?_⟩
  · rw [h1]; congr 1
    rw [List.filter_filter]
    refine List.filter_congr (fun r hr => ?_)
    have := C28_invert c r.record (hm r hr)
    rw [Bool.eq_iff_iff]; simp only [Bool.and_eq_true, decide_eq_true_eq]
    exact ⟨fun hp => ⟨hp, this.1.1 (.inl hp)⟩, fun hp => hp.1⟩
  · rw [h1']; congr 1
    rw [List.filter_filter]
    refine List.filter_congr (fun r hr => ?_)
    have := C28_invert c r.record (hm r hr)
    rw [Bool.eq_iff_iff]; simp only [Bool.and_eq_true, decide_eq_true_eq, Bool.not_eq_true', decide_eq_false_iff_not]
    exact ⟨fun hp => ⟨fun hq => this.2 ⟨hq, hp⟩, this.1.1 (.inr hp)⟩,
      fun hp => (this.1.2 hp.2).resolve_left hp.1⟩
  · rw [h2, h2', ← List.countP_eq_length_filter, ← List.countP_eq_length_filter,
      ← List.countP_eq_length_filter]
    clear h1 h2 h1' h2' hi h h' adm
    induction rs with
    | nil => rfl
    | cons r rs ih =>
      have ih := ih (fun r hr => hm r (by simp [hr]))
      have := C28_invert c r.record (hm r (by simp))
      rw [List.countP_cons, List.countP_cons, List.countP_cons, ← ih]
      have hif : ∀ (A B C : Prop), (A ∨ B ↔ C) → ¬ (A ∧ B) →
          (if decide A = true then 1 else 0) + (if decide B = true then 1 else 0) =
          (if decide C = true then 1 else 0) := by
        intro A B C h1 h2
        have hC : C = (A ∨ B) := propext h1.symm
        subst hC
        by_cases hA : A <;> by_cases hB : B <;> simp_all
      rw [← hif _ _ _ this.1 this.2]
      simp only [hlim]
      omega

/-- a filter command and its input: the second of three lines is invalid -/
def filterSample (invert : Bool) (limit : Nat) : Option FilterCmd := do
  let set ← setSample none (some [bs "9"])
  let m ← fldM "003@{0 =^ '1'}"
  some ⟨true, invert, limit, true, toyEnv, toyEnv, ⟨false⟩, set, m, [], pred003⟩

def filterInput : List (String × Bytes) :=
  [("a", bs "003@ " ++ [0x1F] ++ bs "012" ++ [0x1E] ++ bs "012A " ++ [0x1F] ++ bs "ax" ++ [0x1E, 0x0A] ++
    bs "bad" ++ [0x0A]),
   ("b", bs "003@ " ++ [0x1F] ++ bs "03" ++ [0x1E, 0x0A] ++ bs "003@ " ++ [0x1F] ++ bs "014" ++ [0x1E, 0x0A])]

example : (filterSample false 0).map (·.run filterInput) = some (.ok
    (⟨bs "003@ " ++ [0x1F] ++ bs "012" ++ [0x1E, 0x0A] ++ bs "003@ " ++ [0x1F] ++ bs "014" ++ [0x1E, 0x0A],
      some (bs "003@ " ++ [0x1F] ++ bs "012" ++ [0x1E, 0x0A] ++ bs "003@ " ++ [0x1F] ++ bs "014" ++ [0x1E, 0x0A])⟩,
     2)) := by decide +kernel
example : (filterSample true 1).map (·.run filterInput) = some (.ok
    (⟨bs "003@ " ++ [0x1F] ++ bs "03" ++ [0x1E, 0x0A],
      some (bs "003@ " ++ [0x1F] ++ bs "03" ++ [0x1E, 0x0A])⟩, 1)) := by decide +kernel

/-! ## Selection of records in the other commands -/

/-- a record is selected: admitted by the lists and, if there is a matcher,
matched -/
def Picked (sel : Selection) (r : Record) : Prop :=
  (∃ vs, sel.set.path.values sel.E₀ ⟨false⟩ r = some vs ∧ Admitted sel.set.allow sel.set.deny vs) ∧
  ∀ m, sel.matcher = some m → m.eval sel.E sel.o r = some true

theorem picked_iff (sel : Selection) (r : ByteRecord) :
    sel.test r = some true ↔ Picked sel r.record := by
  unfold Selection.test Picked
  rw [← check_true_iff]
  rcases hc : sel.set.check sel.E₀ r.record with _ | b
  · simp
  · cases b with
    | false => simp
    | true =>
      rcases sel.matcher with _ | m
      · simp
      · simp

open Classical in
/-- the selected records of a list -/
noncomputable def picked (sel : Selection) (rs : List ByteRecord) : List ByteRecord :=
  rs.filter (fun r => decide (Picked sel r.record))

theorem chosen_eq_picked (sel : Selection) (rs : List ByteRecord) :
    chosen sel.test rs = picked sel rs := by
  classical
  exact List.filter_congr (fun r _ => by rw [Bool.eq_iff_iff]; simpa using picked_iff sel r)

/-- neither the lists nor the matcher panic on a record -/
def NoPanic (sel : Selection) (r : Record) : Prop :=
  (sel.set.path.values sel.E₀ ⟨false⟩ r).isSome ∧
  ∀ m, sel.matcher = some m → (m.eval sel.E sel.o r).isSome

theorem test_total {sel : Selection} {r : ByteRecord} (h : NoPanic sel r.record) :
    ∃ b, sel.test r = some b := by
  obtain ⟨vs, hv⟩ := Option.isSome_iff_exists.1 h.1
  unfold Selection.test
  have := C29_check sel.E₀ sel.set r.record vs hv
  by_cases ha : Admitted sel.set.allow sel.set.deny vs
  · rw [this.1.2 ha]
    cases hm : sel.matcher with
    | none => exact ⟨_, rfl⟩
    | some m => exact Option.isSome_iff_exists.1 (h.2 m hm)
  · rw [this.2.2 ha]; exact ⟨_, rfl⟩

/-! ## the theorems on concrete records and files -/

/-- a selection that does not panic on concrete records -/
theorem noPanic_of {sel : Selection} {rs : List ByteRecord}
    (h : ∀ r ∈ rs, (sel.set.path.values sel.E₀ ⟨false⟩ r.record).isSome = true ∧
      (sel.matcher.all (fun m => (m.eval sel.E sel.o r.record).isSome)) = true) :
    ∀ r ∈ rs, NoPanic sel r.record :=
  fun r hr => ⟨(h r hr).1, fun m hm => by have := (h r hr).2; rw [hm] at this; simpa using this⟩

theorem picked_of {sel : Selection} {rs : List ByteRecord} (h : ∀ r ∈ rs, sel.test r = some true) :
    ∀ r ∈ rs, Picked sel r.record :=
  fun r hr => (picked_iff sel r).1 (h r hr)

example := C29_check toyEnv ((setSample (some [bs "x"]) none).get (by decide +kernel)) pathSample
  [bs "x", bs "x", bs "w"] (by decide +kernel)
example := C29_empty_allow toyEnv ((setSample (some []) none).get (by decide +kernel)) (by decide +kernel) pathSample
example := C29_deny_overrides toyEnv ((setSample (some [bs "x"]) (some [bs "w"])).get (by decide +kernel)) pathSample
  [bs "x", bs "x", bs "w"] [bs "w"] (bs "w") (by decide +kernel) (by decide +kernel) (by decide +kernel) (by decide +kernel)
example := C29_no_lists toyEnv ((setSample none none).get (by decide +kernel)) pathSample
  [bs "x", bs "x", bs "w"] (by decide +kernel) (by decide +kernel) (by decide +kernel)

/-- the output of `filterSample` -/
def filterWritten : Bytes :=
  bs "003@ " ++ [0x1F] ++ bs "012" ++ [0x1E, 0x0A] ++ bs "003@ " ++ [0x1F] ++ bs "014" ++ [0x1E, 0x0A]

example := C28_output ((filterSample false 0).get (by decide +kernel)) filterInput _ (input_of _)
  ⟨filterWritten, some filterWritten⟩ 2 (by decide +kernel)
example := C28_finishes ((filterSample false 0).get (by decide +kernel)) filterInput _ (input_of _)
  (.inl (by decide +kernel)) (by decide +kernel) (by decide +kernel)
example := C28_invert ((filterSample false 0).get (by decide +kernel)) pathSample (by decide +kernel)
example := C28_invert_output ((filterSample false 0).get (by decide +kernel)) filterInput _ (input_of _) (by decide +kernel)
  ⟨filterWritten, some filterWritten⟩ ⟨bs "003@ " ++ [0x1F] ++ bs "03" ++ [0x1E, 0x0A],
    some (bs "003@ " ++ [0x1F] ++ bs "03" ++ [0x1E, 0x0A])⟩ 2 1 (by decide +kernel) (by decide +kernel) (by decide +kernel)

end Pica.Props
