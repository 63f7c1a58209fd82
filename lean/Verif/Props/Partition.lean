import Verif.Model.Partition
import Verif.Props.Split

/-! # C33: partition -/

namespace Pica.Props
open Pica Spec

/-- the distinct values of a record, in byte order -/
def DistinctValues (c : PartitionCmd) (r : ByteRecord) (vs : List Bytes) : Prop :=
  ∃ all, c.path.values c.sel.E c.sel.o r.record = some all ∧
    vs.Nodup ∧ (∀ v, v ∈ vs ↔ v ∈ all) ∧ vs.Pairwise (fun a b => bleq a b = true)

/-- `Writes c rs ps`: `ps` are all pairs of a record and one of its values, in
the order of the records, each pair once -/
inductive Writes (c : PartitionCmd) : List ByteRecord → List (ByteRecord × Bytes) → Prop
  | nil : Writes c [] []
  | cons {r rs vs ps} : DistinctValues c r vs → Writes c rs ps →
      Writes c (r :: rs) (vs.map (fun v => (r, v)) ++ ps)

/-- one write -/
def putOf (s : PartitionState) (p : ByteRecord × Bytes) : PartitionState := PartitionCmd.put s p.2 p.1.write

theorem put_count (s : PartitionState) (p) : (putOf s p).count = s.count + 1 := by
  unfold putOf PartitionCmd.put; split <;> rfl

theorem putOf_foldl_count (ps : List (ByteRecord × Bytes)) (s : PartitionState) :
    (ps.foldl putOf s).count = s.count + ps.length := by
  induction ps generalizing s with
  | nil => rfl
  | cons p ps ih => rw [List.foldl_cons, ih, put_count, List.length_cons]; omega

/-- the values still to be written -/
theorem puts_eq (c : PartitionCmd) (r : ByteRecord) (vs : List Bytes) : ∀ (s : PartitionState),
    c.limit = 0 ∨ s.count < c.limit →
    c.puts r vs s = let ps := vs.map (fun v => (r, v))
      if c.limit = 0 ∨ s.count + ps.length < c.limit then .next (ps.foldl putOf s)
      else .stop ((ps.take (c.limit - s.count)).foldl putOf s) := by
  induction vs with
  | nil => intro s h; simp [PartitionCmd.puts, h]
  | cons v vs ih =>
    intro s h
    rw [PartitionCmd.puts]
    have hc : (PartitionCmd.put s v r.write).count = s.count + 1 := put_count s (r, v)
    dsimp only
    rw [hc]
    by_cases hstop : c.limit > 0 ∧ s.count + 1 ≥ c.limit
    · rw [if_pos (by simpa using hstop), if_neg (by simp; omega)]
      have e : c.limit - s.count = 1 := by omega
      rw [e]
      simp [putOf]
    · rw [if_neg (by simpa using hstop), ih _ (by rw [hc]; omega), hc]
      dsimp only
      by_cases hn : c.limit = 0 ∨ s.count + 1 + (vs.map (fun v => (r, v))).length < c.limit
      · rw [if_pos hn, if_pos (by simp at hn ⊢; omega)]
        rfl
      · rw [if_neg hn, if_neg (by simp at hn ⊢; omega)]
        have e : c.limit - s.count = (c.limit - (s.count + 1)) + 1 := by omega
        rw [e, List.map_cons, List.take_succ_cons]
        rfl

theorem run_writes (c : PartitionCmd) : ∀ (rs : List ByteRecord) (s s' : PartitionState),
    c.limit = 0 ∨ s.count < c.limit → runSteps c.body rs s = some s' →
    ∃ rs' ps, rs' <+: rs ∧ Writes c rs' ps ∧ (c.limit = 0 → rs' = rs) ∧
      (c.limit = 0 ∨ rs' = rs ∨ c.limit ≤ s.count + ps.length) ∧
      s' = (if c.limit = 0 then ps else ps.take (c.limit - s.count)).foldl putOf s := by
  intro rs
  induction rs with
  | nil =>
    intro s s' _ h
    simp only [runSteps, Option.some.injEq] at h
    exact ⟨[], [], List.prefix_rfl, .nil, fun _ => rfl, .inr (.inl rfl), by simp [h]⟩
  | cons r rs ih =>
    intro s s' hl h
    rw [runSteps, PartitionCmd.body] at h
    cases hv : c.path.values c.sel.E c.sel.o r.record with
    | none => rw [hv] at h; simp at h
    | some all =>
      rw [hv] at h
      dsimp only at h
      rw [puts_eq c r _ s hl] at h
      have hd : DistinctValues c r (sortDedup all) :=
        ⟨all, hv, (sortDedup_nodup all).1, fun v => mem_sortDedup, (sortDedup_nodup all).2⟩
      generalize hp : (sortDedup all).map (fun v => (r, v)) = p0 at h
      dsimp only at h
      by_cases hn : c.limit = 0 ∨ s.count + p0.length < c.limit
      · rw [if_pos hn] at h
        have hcount := putOf_foldl_count p0 s
        obtain ⟨rs', ps, h1, h2, h3, h4, h5⟩ := ih (p0.foldl putOf s) s' (by rw [hcount]; exact hn) h
        refine ⟨r :: rs', p0 ++ ps, ?_, hp ▸ .cons hd h2, fun h0 => by rw [h3 h0], ?_, ?_⟩
        · obtain ⟨t, rfl⟩ := h1; exact ⟨t, rfl⟩
        · rw [hcount] at h4
          rcases h4 with h4 | h4 | h4
          · exact .inl h4
          · exact .inr (.inl (by rw [h4]))
          · exact .inr (.inr (by rw [List.length_append]; omega))
        · rw [h5, hcount]
          by_cases h0 : c.limit = 0
          · rw [if_pos h0, if_pos h0, List.foldl_append]
          · have hn' := hn.resolve_left h0
            rw [if_neg h0, if_neg h0, List.take_append, List.take_of_length_le (l := p0) (by omega), List.foldl_append,
              show c.limit - (s.count + p0.length) = c.limit - s.count - p0.length by omega]
      · rw [if_neg hn] at h
        have h0 : c.limit ≠ 0 := fun h => hn (.inl h)
        have hle : c.limit ≤ s.count + p0.length := by
          rcases Nat.lt_or_ge (s.count + p0.length) c.limit with hh | hh
          · exact absurd (.inr hh) hn
          · exact hh
        simp only [Option.some.injEq] at h
        refine ⟨[r], p0, ⟨rs, rfl⟩, ?_, fun h => absurd h h0, .inr (.inr hle), ?_⟩
        · have := Writes.cons hd (.nil (c := c))
          rw [hp, List.append_nil] at this; exact this
        · rw [if_neg h0, h]

/-- the state after some writes: one writer per value, with the records in order -/
structure PutInv (ps : List (ByteRecord × Bytes)) (s : PartitionState) : Prop where
  nodup : (s.writers.map Prod.fst).Nodup
  keys : ∀ v, v ∈ s.writers.map Prod.fst ↔ v ∈ ps.map Prod.snd
  content : ∀ w ∈ s.writers, w.2 = (ps.filter (fun p => p.2 == w.1)).flatMap (fun p => p.1.write)

theorem putInv_step {ps s} (h : PutInv ps s) (p : ByteRecord × Bytes) : PutInv (ps ++ [p]) (putOf s p) := by
  unfold putOf PartitionCmd.put
  by_cases hm : p.2 ∈ s.writers.map Prod.fst
  · have hany : s.writers.any (fun w => w.1 == p.2) = true := by
      obtain ⟨w, hw, he⟩ := List.mem_map.1 hm
      exact List.any_eq_true.2 ⟨w, hw, by simpa using he⟩
    rw [if_pos hany]
    have hk : (s.writers.map (fun w => if w.1 == p.2 then (w.1, w.2 ++ p.1.write) else w)).map Prod.fst
        = s.writers.map Prod.fst := by
      rw [List.map_map]
      refine List.map_congr_left (fun w _ => ?_)
      simp only [Function.comp]; split <;> rfl
    refine ⟨?_, ?_, ?_⟩
    · rw [hk]; exact h.nodup
    · intro v
      rw [hk, h.keys]
      simp only [List.map_append, List.mem_append, List.map_cons, List.map_nil, List.mem_singleton]
      constructor
      · exact .inl
      · rintro (hv | rfl)
        · exact hv
        · exact (h.keys _).1 hm
    · intro w hw
      obtain ⟨w0, hw0, rfl⟩ := List.mem_map.1 hw
      have hc := h.content w0 hw0
      rw [List.filter_append, List.flatMap_append]
      by_cases he : w0.1 = p.2
      · simp [he, hc]
      · have he' : ¬ p.2 = w0.1 := fun h => he h.symm
        simp [he, he', ← hc]
  · have hany : ¬ s.writers.any (fun w => w.1 == p.2) = true := by
      intro ha
      obtain ⟨w, hw, he⟩ := List.any_eq_true.1 ha
      exact hm (List.mem_map.2 ⟨w, hw, by simpa using he⟩)
    rw [if_neg hany]
    refine ⟨?_, ?_, ?_⟩
    · rw [List.map_append, List.nodup_append]
      refine ⟨h.nodup, by simp, ?_⟩
      intro a ha b hb
      simp only [List.map_cons, List.map_nil, List.mem_singleton] at hb
      subst hb
      exact fun he => hm (he ▸ ha)
    · intro v
      simp only [List.map_append, List.mem_append, List.map_cons, List.map_nil, List.mem_singleton, h.keys]
    · intro w hw
      rw [List.filter_append, List.flatMap_append]
      rcases List.mem_append.1 hw with hw | hw
      · have : ¬ p.2 = w.1 := fun he => hm (he ▸ List.mem_map.2 ⟨w, hw, rfl⟩)
        simp [this, ← h.content w hw]
      · rw [List.mem_singleton] at hw
        subst hw
        have hnone : ps.filter (fun q => q.2 == p.2) = [] := by
          rw [List.filter_eq_nil_iff]
          intro q hq hqe
          exact hm ((h.keys _).2 (List.mem_map.2 ⟨q, hq, by simpa using hqe⟩))
        simp [hnone]

theorem putInv_foldl (qs : List (ByteRecord × Bytes)) : ∀ {ps s}, PutInv ps s →
    PutInv (ps ++ qs) (qs.foldl putOf s) := by
  induction qs with
  | nil => intro ps s h; simpa using h
  | cons q qs ih =>
    intro ps s h
    have := ih (putInv_step h q)
    rw [List.append_assoc] at this
    exact this

/-- a record has a value -/
def HasValue (c : PartitionCmd) (r : ByteRecord) (v : Bytes) : Prop :=
  ∃ all, c.path.values c.sel.E c.sel.o r.record = some all ∧ v ∈ all

open Classical in
theorem writes_filter {c rs ps} (h : Writes c rs ps) (v : Bytes) :
    (ps.filter (fun p => p.2 == v)).map Prod.fst = rs.filter (fun r => decide (HasValue c r v)) ∧
    (v ∈ ps.map Prod.snd ↔ ∃ r ∈ rs, HasValue c r v) := by
  induction h with
  | nil => simp
  | @cons r rs vs ps hd _ ih =>
    obtain ⟨all, hall, hnd, hmem, _⟩ := hd
    have hv : v ∈ vs ↔ HasValue c r v := by
      rw [hmem]
      constructor
      · intro hv; exact ⟨all, hall, hv⟩
      · rintro ⟨all', h1, h2⟩
        rw [hall] at h1; cases h1; exact h2
    constructor
    · rw [List.filter_append, List.map_append, ih.1, List.filter_cons]
      have key : ∀ vs : List Bytes, vs.Nodup →
          ((vs.map (fun v => (r, v))).filter (fun p => p.2 == v)).map Prod.fst = if v ∈ vs then [r] else [] := by
        intro vs
        induction vs with
        | nil => intro _; simp
        | cons a vs ih =>
          intro hnd
          rw [List.nodup_cons] at hnd
          have ih := ih hnd.2
          rw [List.map_cons, List.filter_cons]
          by_cases ha : a = v
          · subst ha
            rw [if_neg hnd.1] at ih
            simp only [beq_self_eq_true, if_true, List.map_cons, ih]
            simp
          · have ha' : ¬ v = a := fun h => ha h.symm
            have : ((r, a).2 == v) = false := by simpa using ha
            rw [this]
            simp only [Bool.false_eq_true, if_false, ih]
            simp [ha']
      rw [key vs hnd]
      by_cases hh : HasValue c r v
      · simp [hh, hv.2 hh]
      · have hn : ¬ v ∈ vs := fun h => hh (hv.1 h)
        simp [hh, hn]
    · simp only [List.map_append, List.mem_append, List.map_map]
      have e : v ∈ vs.map (Prod.snd ∘ fun v => (r, v)) ↔ v ∈ vs := by
        simp [Function.comp]
      rw [e, hv, ih.2]
      simp

open Classical in
/-- **C33** without a limit there is exactly one writer for each value of a
selected record, and it has written exactly the selected records having this
value, once each and in the order of the input. -/
theorem C33_writers (c : PartitionCmd) (hlim : c.limit = 0) (files : List (String × Bytes))
    (rs : List ByteRecord) (hi : Input files rs) (s : PartitionState) (h : c.run files = .ok s) :
    (s.writers.map Prod.fst).Nodup ∧
    ∀ v b, (v, b) ∈ s.writers ↔
      (∃ r ∈ picked c.sel rs, HasValue c r v) ∧
      b = ((picked c.sel rs).filter (fun r => decide (HasValue c r v))).flatMap ByteRecord.write := by
  have h1 := runSteps_sel (filesLoop_ok hi h)
  rw [chosen_eq_picked] at h1
  obtain ⟨rs', ps, -, hw, hall, -, hs⟩ := run_writes c _ _ _ (.inl hlim) h1
  rw [hall hlim] at hw
  rw [if_pos hlim] at hs
  have hinv : PutInv ([] ++ ps) s := by
    rw [hs]; exact putInv_foldl ps ⟨by simp, by simp, by simp⟩
  rw [List.nil_append] at hinv
  refine ⟨hinv.nodup, fun v b => ?_⟩
  obtain ⟨hf, hk⟩ := writes_filter hw v
  have hcont : ∀ b, (v, b) ∈ s.writers →
      b = ((picked c.sel rs).filter (fun r => decide (HasValue c r v))).flatMap ByteRecord.write := by
    intro b hb
    rw [← hf, List.flatMap_map]
    exact hinv.content _ hb
  constructor
  · intro hb
    exact ⟨hk.1 ((hinv.keys v).1 (List.mem_map.2 ⟨_, hb, rfl⟩)), hcont b hb⟩
  · rintro ⟨h1, h2⟩
    obtain ⟨⟨v', b'⟩, hm, he⟩ := List.mem_map.1 ((hinv.keys v).2 (hk.2 h1))
    simp only at he
    subst he
    rw [h2, ← hcont b' hm]; exact hm

/-- **C33** with a limit `n` the same holds for the first `n` writes, in the order
of the records and, for one record, of the values. -/
theorem C33_limit (c : PartitionCmd) (hlim : c.limit ≠ 0) (files : List (String × Bytes))
    (rs : List ByteRecord) (hi : Input files rs) (s : PartitionState) (h : c.run files = .ok s) :
    ∃ rs' ps, rs' <+: picked c.sel rs ∧ Writes c rs' ps ∧
      (rs' = picked c.sel rs ∨ c.limit ≤ ps.length) ∧
      (s.writers.map Prod.fst).Nodup ∧
      ∀ v b, (v, b) ∈ s.writers ↔
        v ∈ (ps.take c.limit).map Prod.snd ∧
        b = ((ps.take c.limit).filter (fun p => p.2 == v)).flatMap (fun p => p.1.write) := by
  have h1 := runSteps_sel (filesLoop_ok hi h)
  rw [chosen_eq_picked] at h1
  have hl : c.limit = 0 ∨ (⟨[], 0⟩ : PartitionState).count < c.limit := .inr (Nat.pos_of_ne_zero hlim)
  obtain ⟨rs', ps, hp, hw, -, hend, hs⟩ := run_writes c _ _ _ hl h1
  rw [if_neg hlim] at hs
  simp only [Nat.sub_zero] at hs
  have hinv : PutInv ([] ++ ps.take c.limit) s := by
    rw [hs]; exact putInv_foldl _ ⟨by simp, by simp, by simp⟩
  rw [List.nil_append] at hinv
  refine ⟨rs', ps, hp, hw, ?_, hinv.nodup, fun v b => ?_⟩
  · have := hend.resolve_left hlim
    simpa using this
  constructor
  · intro hb
    exact ⟨(hinv.keys v).1 (List.mem_map.2 ⟨_, hb, rfl⟩), hinv.content _ hb⟩
  · rintro ⟨h1, h2⟩
    obtain ⟨⟨v', b'⟩, hm, he⟩ := List.mem_map.1 ((hinv.keys v).2 h1)
    simp only at he
    subst he
    rw [h2, ← hinv.content _ hm]; exact hm

open Classical in
/-- **C33** if the template contains `{}` and all values are UTF-8, then different
values have different files; so the file of each value holds exactly the selected
records having this value.
Missing: values that are not UTF-8, templates without `{}` (see below). -/
theorem C33_files_partial (c : PartitionCmd) (hlim : c.limit = 0) (ht : HasBraces c.template)
    (hlossy : ∀ v, utf8Valid v = true → c.lossy v = v) (files : List (String × Bytes))
    (rs : List ByteRecord) (hi : Input files rs) (s : PartitionState) (h : c.run files = .ok s)
    (hutf : ∀ r ∈ picked c.sel rs, ∀ v, HasValue c r v → utf8Valid v = true) :
    ((c.files s).map Prod.fst).Nodup ∧
    ∀ n b, (n, b) ∈ c.files s ↔ ∃ v, n = replaceBraces v c.template ∧
      (∃ r ∈ picked c.sel rs, HasValue c r v) ∧
      b = ((picked c.sel rs).filter (fun r => decide (HasValue c r v))).flatMap ByteRecord.write := by
  obtain ⟨hnd, hm⟩ := C33_writers c hlim files rs hi s h
  have hname : ∀ w ∈ s.writers, c.name w.1 = replaceBraces w.1 c.template := by
    intro w hw
    obtain ⟨⟨r, hr, hv⟩, _⟩ := (hm w.1 w.2).1 hw
    rw [PartitionCmd.name, hlossy _ (hutf r hr _ hv)]
  constructor
  · have e : (c.files s).map Prod.fst = (s.writers.map Prod.fst).map (fun v => replaceBraces v c.template) := by
      rw [PartitionCmd.files, List.map_map, List.map_map]
      exact List.map_congr_left (fun w hw => hname w hw)
    rw [e]
    exact List.Pairwise.map _ (fun a b hab he => hab (replaceBraces_injective ht he)) hnd
  · intro n b
    rw [PartitionCmd.files, List.mem_map]
    constructor
    · rintro ⟨⟨v, b'⟩, hw, he⟩
      obtain ⟨rfl, rfl⟩ := Prod.mk.inj he
      exact ⟨v, hname _ hw, (hm _ _).1 hw⟩
    · rintro ⟨v, rfl, h2⟩
      have hw := (hm v b).2 h2
      exact ⟨(v, b), hw, by rw [hname _ hw]⟩

/-- **C33** the command finishes when the invalid lines are skipped or absent and
neither lists, matcher nor path panic. -/
theorem C33_finishes (c : PartitionCmd) (files : List (String × Bytes)) (rs : List ByteRecord)
    (hi : Input files rs) (hc : c.skip = true ∨ AllValid files)
    (hp : ∀ r ∈ rs, NoPanic c.sel r.record)
    (hv : ∀ r ∈ rs, (c.path.values c.sel.E c.sel.o r.record).isSome) : ∃ s, c.run files = .ok s := by
  unfold PartitionCmd.run
  rw [filesLoop_clean hi hc, runSteps_sel_total (fun r hr => test_total (hp r hr))]
  have key : ∀ (l : List ByteRecord) (s : PartitionState), (∀ r ∈ l, r ∈ rs) →
      ∃ s', runSteps c.body l s = some s' := by
    intro l
    induction l with
    | nil => intro s _; exact ⟨s, rfl⟩
    | cons r l ih =>
      intro s hl
      obtain ⟨vs, hvs⟩ := Option.isSome_iff_exists.1 (hv r (hl r (by simp)))
      rw [runSteps, PartitionCmd.body, hvs]
      dsimp only
      have hne : c.puts r (sortDedup vs) s ≠ .panic := by
        generalize sortDedup vs = ws
        induction ws generalizing s with
        | nil => simp [PartitionCmd.puts]
        | cons w ws ihw =>
          rw [PartitionCmd.puts]
          split
          · simp
          · exact ihw _
      cases hb : c.puts r (sortDedup vs) s with
      | next s1 => exact ih s1 (fun r hr => hl r (by simp [hr]))
      | stop s1 => exact ⟨s1, rfl⟩
      | panic => exact absurd hb hne
  obtain ⟨s', hs⟩ := key (chosen c.sel.test rs) ⟨[], 0⟩ (fun r hr => (mem_chosen.1 hr).1)
  rw [hs]; exact ⟨s', rfl⟩

/-- **C33** is false in general: two values may share a file, as soon as the
template has no `{}` or the values differ only in invalid UTF-8.  Then no file
content is right for both values. -/
theorem C33_names_false (c : PartitionCmd) (v w : Bytes)
    (h : ¬ HasBraces c.template ∨ c.lossy v = c.lossy w) : c.name v = c.name w := by
  unfold PartitionCmd.name
  rcases h with h | h
  · rw [replaceBraces_const h, replaceBraces_const h]
  · rw [h]

def partitionSample (t : String) (limit : Nat) : PartitionCmd :=
  ⟨false, bs t, limit, Path.ppnPath, fun v => if utf8Valid v then v else [0xEF, 0xBF, 0xBD], noSelection⟩

/-- a record with two values, one of them twice -/
def twoLine : Bytes := bs "003@ " ++ [0x1F] ++ bs "02" ++ [0x1F] ++ bs "01" ++ [0x1F] ++ bs "02" ++ [0x1E, 0x0A]

example : (partitionSample "{}.dat" 0).run [("a", recLine "1" ++ twoLine), ("b", recLine "2")] =
    .ok ⟨[(bs "1", recLine "1" ++ twoLine), (bs "2", twoLine ++ recLine "2")], 4⟩ := by decide +kernel
example : ((partitionSample "{}.dat" 0).files ⟨[(bs "1", [1]), (bs "2", [2])], 4⟩) =
    [(bs "1.dat", [1]), (bs "2.dat", [2])] := by decide +kernel
/-- the limit cuts between the values of a record -/
example : (partitionSample "{}.dat" 2).run [("a", recLine "1" ++ twoLine), ("b", recLine "2")] =
    .ok ⟨[(bs "1", recLine "1" ++ twoLine)], 2⟩ := by decide +kernel
/-- two writers for the same file -/
example : ((partitionSample "x" 0).run [("a", recLine "1" ++ recLine "2")],
    (partitionSample "x" 0).files ⟨[(bs "1", recLine "1"), (bs "2", recLine "2")], 2⟩) =
    (.ok ⟨[(bs "1", recLine "1"), (bs "2", recLine "2")], 2⟩,
      [(bs "x", recLine "1"), (bs "x", recLine "2")]) := by decide +kernel

/-! ## the theorems on concrete files -/

/-- two files; the second record has the values 2, 1 and 2 -/
def partitionInput : List (String × Bytes) := [("a", recLine "1" ++ twoLine), ("b", recLine "2")]

example := C33_writers (partitionSample "{}.dat" 0) rfl partitionInput _ (input_of _)
  ⟨[(bs "1", recLine "1" ++ twoLine), (bs "2", twoLine ++ recLine "2")], 4⟩ (by decide +kernel)
example := C33_limit (partitionSample "{}.dat" 2) (by decide) partitionInput _ (input_of _)
  ⟨[(bs "1", recLine "1" ++ twoLine)], 2⟩ (by decide +kernel)
example := C33_files_partial (partitionSample "{}.dat" 0) rfl ⟨[], bs ".dat", by decide +kernel⟩
  (fun v h => by simp [partitionSample, h]) partitionInput _ (input_of _)
  ⟨[(bs "1", recLine "1" ++ twoLine), (bs "2", twoLine ++ recLine "2")], 4⟩ (by decide +kernel) (by
    have h : ∀ r ∈ inputOf partitionInput, ∀ v ∈ ((partitionSample "{}.dat" 0).path.values
        (partitionSample "{}.dat" 0).sel.E (partitionSample "{}.dat" 0).sel.o r.record).getD [], utf8Valid v = true := by
      decide +kernel
    rintro r hr v ⟨vs, hv, hm⟩
    have := h r (List.mem_filter.1 hr).1 v
    rw [hv] at this
    exact this hm)
example := C33_finishes (partitionSample "{}.dat" 0) partitionInput _ (input_of _) (.inr (allValid_of (by decide +kernel)))
  (noPanic_of (by decide +kernel)) (by decide +kernel)

end Pica.Props
