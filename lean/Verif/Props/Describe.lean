import Verif.Model.Describe
import Verif.Props.Split
import Verif.Props.ByteRecord

/-! # C50: the table of describe -/

namespace Pica.Props
open Pica Spec

/-- the number of subfields with the code in the fields with the tag -/
def codeCount (fs : List Field) (tag : Bytes) (code : Byte) : Nat :=
  ((fs.filter (fun f => f.tag == tag)).flatMap Field.subfields).countP (fun s => s.code == code)

/-- the table of a list of fields -/
structure Describes (fs : List Field) (d : Description) : Prop where
  /-- the columns are ascending, without duplicates -/
  codesSorted : d.codes.Pairwise (· < ·)
  /-- there is a column for each code that occurs, and no other -/
  codes : ∀ c, c ∈ d.codes ↔ ∃ f ∈ fs, ∃ s ∈ f.subfields, s.code = c
  /-- the rows are ascending, without duplicates -/
  tagsSorted : d.rows.Pairwise (fun a b => LexLe (· < ·) a.1 b.1 ∧ a.1 ≠ b.1)
  /-- there is a row for each tag that occurs, and no other -/
  tags : ∀ t, t ∈ d.rows.map Prod.fst ↔ ∃ f ∈ fs, f.tag = t
  /-- the cells are the numbers of subfields -/
  cells : ∀ x ∈ d.rows, x.2 = d.codes.map (codeCount fs x.1)

/-- `t` counts the codes `ks` -/
structure CodeTable (ks : List Byte) (t : List (Byte × Nat)) : Prop where
  keys : (t.map Prod.fst).Nodup
  mem : ∀ c, c ∈ t.map Prod.fst ↔ c ∈ ks
  count : ∀ x ∈ t, x.2 = ks.count x.1

theorem codeAdd_table {ks : List Byte} {t : List (Byte × Nat)} (h : CodeTable ks t) (c : Byte) :
    CodeTable (ks ++ [c]) (codeAdd t c) := by
  unfold codeAdd
  by_cases hk : t.any (fun x => x.1 == c) = true
  · rw [if_pos hk]
    obtain ⟨x0, hx0, hxc⟩ := List.any_eq_true.1 hk
    have hxc : x0.1 = c := by simpa using hxc
    have hmap : (t.map (fun x => if x.1 == c then (x.1, x.2 + 1) else x)).map Prod.fst = t.map Prod.fst := by
      rw [List.map_map]
      exact List.map_congr_left (fun x _ => by dsimp only [Function.comp]; split <;> rfl)
    have hc : c ∈ ks := (h.mem c).1 (List.mem_map.2 ⟨x0, hx0, hxc⟩)
    refine ⟨by rw [hmap]; exact h.keys, ?_, ?_⟩
    · intro d
      rw [hmap, h.mem, List.mem_append, List.mem_singleton]
      constructor
      · exact .inl
      · rintro (hd | rfl)
        · exact hd
        · exact hc
    · intro x hx
      obtain ⟨y, hy, rfl⟩ := List.mem_map.1 hx
      have := h.count y hy
      by_cases he : y.1 = c
      · simp [he, List.count_append, this]
      · have he' : ¬ c = y.1 := fun e => he e.symm
        simp [he, he', List.count_append, this]
  · rw [if_neg hk]
    have hn : c ∉ ks := by
      intro hc
      obtain ⟨x, hx, hxc⟩ := List.mem_map.1 ((h.mem c).2 hc)
      exact hk (List.any_eq_true.2 ⟨x, hx, by simp [hxc]⟩)
    refine ⟨?_, ?_, ?_⟩
    · rw [List.map_append, List.nodup_append]
      refine ⟨h.keys, by simp, ?_⟩
      intro a ha b hb he
      have hb : b = c := by simpa using hb
      subst he; subst hb
      exact hn ((h.mem _).1 ha)
    · intro d
      rw [List.map_append, List.mem_append, List.mem_append, h.mem]
      simp
    · intro x hx
      rcases List.mem_append.1 hx with hx1 | hx
      · have hne : ¬ c = x.1 := by
          intro e
          exact hn ((h.mem _).1 (List.mem_map.2 ⟨x, hx1, e.symm⟩))
        rw [h.count x hx1, List.count_append]
        simp [hne]
      · have hx : x = (c, 1) := by simpa using hx
        subst hx
        simp [List.count_append, List.count_eq_zero_of_not_mem hn]

theorem codes_fold (l : List Byte) : ∀ ks t, CodeTable ks t → CodeTable (ks ++ l) (l.foldl codeAdd t) := by
  induction l with
  | nil => intro ks t h; simpa using h
  | cons k l ih =>
    intro ks t h
    have := ih _ _ (codeAdd_table h k)
    simpa using this

/-- the codes in the fields with the tag -/
def codesOf (fs : List Field) (tag : Bytes) : List Byte :=
  (fs.filter (fun f => f.tag == tag)).flatMap (fun f => f.subfields.map Subfield.code)

theorem codesOf_append (fs : List Field) (f : Field) (tag : Bytes) :
    codesOf (fs ++ [f]) tag = codesOf fs tag ++ (if f.tag = tag then f.subfields.map Subfield.code else []) := by
  unfold codesOf
  rw [List.filter_append, List.flatMap_append]
  congr 1
  by_cases h : f.tag = tag
  · simp [h]
  · simp [h]

theorem count_codesOf (fs : List Field) (tag : Bytes) (c : Byte) :
    (codesOf fs tag).count c = codeCount fs tag c := by
  unfold codesOf codeCount
  generalize fs.filter (fun f => f.tag == tag) = l
  induction l with
  | nil => rfl
  | cons f l ih =>
    rw [List.flatMap_cons, List.flatMap_cons, List.count_append, List.countP_append, ih, List.count, List.countP_map]
    rfl

/-- `t` counts the codes for each tag of the fields -/
structure FieldTable (fs : List Field) (t : TagTable) : Prop where
  keys : (t.map Prod.fst).Nodup
  mem : ∀ g, g ∈ t.map Prod.fst ↔ ∃ f ∈ fs, f.tag = g
  table : ∀ x ∈ t, CodeTable (codesOf fs x.1) x.2

theorem fieldAdd_table {fs : List Field} {t : TagTable} (h : FieldTable fs t) (f : Field) :
    FieldTable (fs ++ [f]) (fieldAdd t f) := by
  unfold fieldAdd
  dsimp only
  by_cases hk : t.any (fun x => x.1 == f.tag) = true
  · rw [if_pos hk]
    obtain ⟨x0, hx0, hxc⟩ := List.any_eq_true.1 hk
    have hxc : x0.1 = f.tag := by simpa using hxc
    have hmap : (t.map (fun x => if x.1 == f.tag then (x.1, (f.subfields.map Subfield.code).foldl codeAdd x.2)
        else x)).map Prod.fst = t.map Prod.fst := by
      rw [List.map_map]
      exact List.map_congr_left (fun x _ => by dsimp only [Function.comp]; split <;> rfl)
    have hc : ∃ g ∈ fs, g.tag = f.tag := (h.mem f.tag).1 (List.mem_map.2 ⟨x0, hx0, hxc⟩)
    refine ⟨by rw [hmap]; exact h.keys, ?_, ?_⟩
    · intro d
      rw [hmap, h.mem]
      constructor
      · rintro ⟨g, hg, he⟩
        exact ⟨g, by simp [hg], he⟩
      · rintro ⟨g, hg, he⟩
        rcases List.mem_append.1 hg with hg | hg
        · exact ⟨g, hg, he⟩
        · rw [List.mem_singleton.1 hg] at he
          rw [← he]; exact hc
    · intro x hx
      obtain ⟨y, hy, rfl⟩ := List.mem_map.1 hx
      have := h.table y hy
      by_cases he : y.1 = f.tag
      · have he2 : (y.1 == f.tag) = true := by simp [he]
        rw [if_pos he2]
        dsimp only
        rw [codesOf_append, if_pos he.symm]
        exact codes_fold _ _ _ this
      · have he2 : ¬ (y.1 == f.tag) = true := by simp [he]
        rw [if_neg he2, codesOf_append, if_neg (fun e => he e.symm), List.append_nil]
        exact this
  · rw [if_neg hk]
    have hn : ¬ ∃ g ∈ fs, g.tag = f.tag := by
      intro hc
      obtain ⟨x, hx, hxc⟩ := List.mem_map.1 ((h.mem f.tag).2 hc)
      exact hk (List.any_eq_true.2 ⟨x, hx, by simp [hxc]⟩)
    refine ⟨?_, ?_, ?_⟩
    · rw [List.map_append, List.nodup_append]
      refine ⟨h.keys, by simp, ?_⟩
      intro a ha b hb he
      have hb : b = f.tag := by simpa using hb
      subst he; subst hb
      exact hn ((h.mem _).1 ha)
    · intro d
      rw [List.map_append, List.mem_append, h.mem]
      constructor
      · rintro (⟨g, hg, he⟩ | hd)
        · exact ⟨g, by simp [hg], he⟩
        · exact ⟨f, by simp, by simpa using (List.mem_singleton.1 hd).symm⟩
      · rintro ⟨g, hg, he⟩
        rcases List.mem_append.1 hg with hg | hg
        · exact .inl ⟨g, hg, he⟩
        · right
          rw [List.mem_singleton.1 hg] at he
          simp [he]
    · intro x hx
      rcases List.mem_append.1 hx with hx | hx
      · have hne : ¬ f.tag = x.1 := by
          intro e
          exact hn ((h.mem _).1 (List.mem_map.2 ⟨x, hx, e.symm⟩))
        rw [codesOf_append, if_neg hne, List.append_nil]
        exact h.table x hx
      · have hx : x = (f.tag, (f.subfields.map Subfield.code).foldl codeAdd []) := by simpa using hx
        subst hx
        dsimp only
        have h0 : codesOf fs f.tag = [] := by
          unfold codesOf
          rw [List.filter_eq_nil_iff.2, List.flatMap_nil]
          intro g hg he
          exact hn ⟨g, hg, by simpa using he⟩
        rw [codesOf_append, if_pos rfl, h0]
        exact codes_fold _ [] [] ⟨by simp, by simp, by simp⟩

theorem fields_fold (l : List Field) : ∀ fs t, FieldTable fs t → FieldTable (fs ++ l) (l.foldl fieldAdd t) := by
  induction l with
  | nil => intro fs t h; simpa using h
  | cons f l ih =>
    intro fs t h
    have := ih _ _ (fieldAdd_table h f)
    simpa using this

theorem find_of_keys {K V : Type} [BEq K] [LawfulBEq K] {t : List (K × V)} (h : (t.map Prod.fst).Nodup) {x : K × V}
    (hx : x ∈ t) : t.find? (fun y => y.1 == x.1) = some x := by
  induction t with
  | nil => simp at hx
  | cons y t ih =>
    rw [List.map_cons, List.nodup_cons] at h
    rcases List.mem_cons.1 hx with rfl | hx
    · simp
    · have : ¬ y.1 = x.1 := fun e => h.1 (List.mem_map.2 ⟨x, hx, e.symm⟩)
      rw [List.find?_cons_of_neg (by simpa using this)]
      exact ih h.2 hx

theorem cellOf_eq {fs : List Field} {t : TagTable} (h : FieldTable fs t) (tag : Bytes) (c : Byte) :
    cellOf t tag c = codeCount fs tag c := by
  rw [← count_codesOf]
  unfold cellOf
  by_cases ht : ∃ x ∈ t, x.1 = tag
  · obtain ⟨x, hx, rfl⟩ := ht
    rw [find_of_keys h.keys hx]
    dsimp only
    have hT := h.table x hx
    by_cases hc : ∃ y ∈ x.2, y.1 = c
    · obtain ⟨y, hy, rfl⟩ := hc
      rw [find_of_keys hT.keys hy]
      exact hT.count y hy
    · have : x.2.find? (fun y => y.1 == c) = none := by
        rw [List.find?_eq_none]
        intro y hy he
        exact hc ⟨y, hy, by simpa using he⟩
      rw [this]
      refine (List.count_eq_zero_of_not_mem ?_).symm
      intro hm
      obtain ⟨y, hy, he⟩ := List.mem_map.1 ((hT.mem c).2 hm)
      exact hc ⟨y, hy, he⟩
  · have : t.find? (fun x => x.1 == tag) = none := by
      rw [List.find?_eq_none]
      intro x hx he
      exact ht ⟨x, hx, by simpa using he⟩
    rw [this]
    refine (List.count_eq_zero_of_not_mem ?_).symm
    intro hm
    unfold codesOf at hm
    obtain ⟨f, hf, _⟩ := List.mem_flatMap.1 hm
    obtain ⟨hf1, hf2⟩ := List.mem_filter.1 hf
    obtain ⟨x, hx, he⟩ := List.mem_map.1 ((h.mem tag).2 ⟨f, hf1, by simpa using hf2⟩)
    exact ht ⟨x, hx, he⟩

theorem frame_describes (c : DescribeCmd) (hiter : ∀ t, (c.iter t).Perm t) {fs : List Field} {t : TagTable}
    (h : FieldTable fs t) : Describes fs (c.frame t) := by
  have htot : ∀ a b : Byte, decide (a ≤ b) = true ∨ decide (b ≤ a) = true := by
    intro a b
    simp only [decide_eq_true_eq, UInt8.le_iff_toNat_le]
    omega
  have htr : ∀ a b c : Byte, decide (a ≤ b) = true → decide (b ≤ c) = true → decide (a ≤ c) = true := by
    intro a b c
    simp only [decide_eq_true_eq, UInt8.le_iff_toNat_le]
    omega
  have hcodes : ∀ c', c' ∈ (c.frame t).codes ↔ ∃ f ∈ fs, ∃ s ∈ f.subfields, s.code = c' := by
    intro c'
    unfold DescribeCmd.frame
    dsimp only
    rw [mem_dedupAdj, (sortBy_perm _ _).mem_iff, List.mem_flatMap]
    constructor
    · rintro ⟨x, hx, hc⟩
      have hx := (hiter t).mem_iff.1 hx
      have := ((h.table x hx).mem c').1 hc
      unfold codesOf at this
      obtain ⟨f, hf, hfs⟩ := List.mem_flatMap.1 this
      obtain ⟨s, hs, rfl⟩ := List.mem_map.1 hfs
      exact ⟨f, (List.mem_filter.1 hf).1, s, hs, rfl⟩
    · rintro ⟨f, hf, s, hs, rfl⟩
      obtain ⟨x, hx, he⟩ := List.mem_map.1 ((h.mem f.tag).2 ⟨f, hf, rfl⟩)
      refine ⟨x, (hiter t).mem_iff.2 hx, ((h.table x hx).mem _).2 ?_⟩
      unfold codesOf
      exact List.mem_flatMap.2 ⟨f, List.mem_filter.2 ⟨hf, by simp [he]⟩, List.mem_map.2 ⟨s, hs, rfl⟩⟩
  have hrows : (c.frame t).rows.Perm ((c.iter t).map (fun x => (x.1, (c.frame t).codes.map (cellOf t x.1)))) := by
    unfold DescribeCmd.frame
    dsimp only
    refine (sortBy_perm _ _).trans ?_
    rw [List.map_map]
    exact List.Perm.refl _
  have hfst : ((c.frame t).rows.map Prod.fst).Perm (t.map Prod.fst) := by
    refine (hrows.map Prod.fst).trans ?_
    rw [List.map_map]
    exact (hiter t).map _
  refine ⟨?_, hcodes, ?_, ?_, ?_⟩
  · obtain ⟨h1, h2⟩ := dedupAdj_sorted (le := fun a b : Byte => decide (a ≤ b))
      (by
        intro a b
        simp only [decide_eq_true_eq, UInt8.le_iff_toNat_le]
        intro h3 h4
        exact UInt8.toNat_inj.1 (by omega))
      (sortBy_sorted htot htr ((c.iter t).flatMap (fun x => x.2.map (·.1))))
    refine (List.Pairwise.and h2 h1).imp ?_
    intro a b hab
    have h3 : a.toNat ≤ b.toNat := by simpa [UInt8.le_iff_toNat_le] using hab.1
    have h4 : a.toNat ≠ b.toNat := fun e => hab.2 (UInt8.toNat_inj.1 e)
    rw [UInt8.lt_iff_toNat_lt]
    omega
  · have h1 : (c.frame t).rows.Pairwise (fun a b => bleq a.1 b.1 = true) :=
      sortBy_sorted (le := fun a b : Bytes × List Nat => bleq a.1 b.1) (fun a b => bleq_total a.1 b.1)
        (fun a b c => bleq_trans) _
    have h2 : (c.frame t).rows.Pairwise (fun a b => a.1 ≠ b.1) := by
      have := hfst.nodup_iff.2 h.keys
      rwa [List.Nodup, List.pairwise_map] at this
    exact (List.Pairwise.and h1 h2).imp (fun hab => ⟨(bleq_iff _ _).1 hab.1, hab.2⟩)
  · intro g
    rw [hfst.mem_iff]
    exact h.mem g
  · intro x hx
    obtain ⟨y, _, rfl⟩ := List.mem_map.1 (hrows.mem_iff.1 hx)
    exact List.map_congr_left (fun c' _ => cellOf_eq h y.1 c')

theorem described_eq (c : DescribeCmd) (r : ByteRecord) :
    ((r.discard c.discard).keep c.keep).record = reduced c.discard c.keep r.record := by
  classical
  unfold reduced
  by_cases hk : c.keep = []
  · rw [hk, (C10_empty_preds _).1, C10_discard]
    exact List.filter_congr (fun f _ => by rw [Bool.eq_iff_iff]; simp)
  · rw [C10_keep _ hk, C10_discard, List.filter_filter]
    exact List.filter_congr (fun f _ => by
      rw [Bool.eq_iff_iff, Bool.and_eq_true, decide_eq_true_iff, decide_eq_true_iff, decide_eq_true_iff]
      simp only [hk, false_or]
      exact And.comm)

theorem describe_fold (c : DescribeCmd) (rs : List ByteRecord) : ∀ (fs : List Field) (s : DescribeState),
    FieldTable fs s.fields →
    FieldTable (fs ++ rs.flatMap (fun r => reduced c.discard c.keep r.record)) (rs.foldl c.step s).fields := by
  induction rs with
  | nil => intro fs s h; simpa using h
  | cons r rs ih =>
    intro fs s h
    have h1 : FieldTable (fs ++ reduced c.discard c.keep r.record) (c.step s r).fields := by
      unfold DescribeCmd.step
      rw [described_eq]
      exact fields_fold _ _ _ h
    have := ih _ _ h1
    rw [List.flatMap_cons, ← List.append_assoc]
    exact this

/-- **C50** the table that `describe` writes: columns are the codes, rows the tags that
occur in the selected records, and the cells the numbers of subfields, whatever the order
of the hash map. -/
theorem C50_table (c : DescribeCmd) (hiter : ∀ t, (c.iter t).Perm t) (files : List (String × Bytes))
    (rs : List ByteRecord) (hi : Input files rs) (d : Description) (h : c.run files = .ok d) :
    Describes ((limited c.limit (picked c.sel rs)).flatMap (fun r => reduced c.discard c.keep r.record)) d := by
  unfold DescribeCmd.run at h
  cases hl : c.loop files with
  | panic => rw [hl] at h; simp at h
  | err e s => rw [hl] at h; simp at h
  | ok s =>
    rw [hl] at h
    dsimp only at h
    injection h with h
    rw [← h]
    have hs := selLimitC_ok (cnt := DescribeState.count) (g := c.step) (fun _ _ => rfl) hi rfl hl
    rw [chosen_eq_picked] at hs
    have := describe_fold c (limited c.limit (picked c.sel rs)) [] ⟨[], 0⟩ ⟨by simp, by simp, by simp⟩
    rw [← hs, List.nil_append] at this
    exact frame_describes c hiter this

/-- **C50** a list of fields has only one table. -/
theorem C50_unique (fs : List Field) (d d' : Description) (h : Describes fs d) (h' : Describes fs d') : d = d' := by
  have hb : ∀ a b : Byte, a < b → b < a → a = b := by
    intro a b
    simp only [UInt8.lt_iff_toNat_lt]
    omega
  have hc : d.codes = d'.codes := by
    have hn : ∀ {l : List Byte}, l.Pairwise (· < ·) → l.Nodup := by
      intro l hl
      refine hl.imp ?_
      intro a b hab e
      subst e
      simp [UInt8.lt_iff_toNat_lt] at hab
    have hp : d.codes.Perm d'.codes :=
      (List.perm_ext_iff_of_nodup (hn h.codesSorted) (hn h'.codesSorted)).2 (fun c => by rw [h.codes, h'.codes])
    exact hp.eq_of_pairwise (fun a b _ _ => hb a b) h.codesSorted h'.codesSorted
  have hn : ∀ {l : List (Bytes × List Nat)}, l.Pairwise (fun a b => LexLe (· < ·) a.1 b.1 ∧ a.1 ≠ b.1) →
      l.Nodup := by
    intro l hl
    refine hl.imp ?_
    intro a b hab e
    subst e
    exact hab.2 rfl
  have hsub : ∀ {d d' : Description}, Describes fs d → Describes fs d' → d.codes = d'.codes →
      ∀ x ∈ d.rows, x ∈ d'.rows := by
    intro d d' h h' hc x hx
    obtain ⟨y, hy, he⟩ := List.mem_map.1 ((h'.tags x.1).2 ((h.tags x.1).1 (List.mem_map.2 ⟨x, hx, rfl⟩)))
    have h1 := h.cells x hx
    have h2 := h'.cells y hy
    have : y = x := Prod.ext he (by rw [h1, h2, he, hc])
    rwa [← this]
  have hr : d.rows = d'.rows := by
    have hp : d.rows.Perm d'.rows :=
      (List.perm_ext_iff_of_nodup (hn h.tagsSorted) (hn h'.tagsSorted)).2
        (fun x => ⟨hsub h h' hc x, hsub h' h hc.symm x⟩)
    refine hp.eq_of_pairwise ?_ h.tagsSorted h'.tagsSorted
    intro a b _ _ h1 h2
    exact absurd (bleq_antisymm ((bleq_iff _ _).2 h1.1) ((bleq_iff _ _).2 h2.1)) h1.2
  cases d; cases d'
  dsimp only at hc hr
  rw [hc, hr]

/-- **C50** the command ends without error if the lines are valid (or invalid ones
skipped) and no test panics. -/
theorem C50_finishes (c : DescribeCmd) (files : List (String × Bytes)) (rs : List ByteRecord)
    (hi : Input files rs) (hc : c.skip = true ∨ AllValid files) (hp : ∀ r ∈ rs, NoPanic c.sel r.record) :
    ∃ d, c.run files = .ok d := by
  obtain ⟨s, hs⟩ := selLimitC_clean (limit := c.limit) (cnt := DescribeState.count) (g := c.step) (fun _ _ => rfl) hi hc
    (fun r hr => test_total (hp r hr)) ⟨[], 0⟩ rfl
  refine ⟨c.frame s.fields, ?_⟩
  unfold DescribeCmd.run DescribeCmd.loop
  rw [hs]

/-- the command without options; the hash map is iterated backwards -/
def describeSample : DescribeCmd := ⟨true, 0, [], [], List.reverse, noSelection⟩

example : (∀ t, (describeSample.iter t).Perm t) ∧ describeSample.run [("a", sampleBytes ++ recLine "1")] =
    .ok ⟨[0x30, 0x61, 0x62], [(bs "003@", [2, 0, 0]), (bs "012A", [0, 1, 1])]⟩ := ⟨fun t => List.reverse_perm t, by decide +kernel⟩

/-! ## the theorems on concrete files -/

example := C50_table describeSample (fun t => List.reverse_perm t) [("a", sampleBytes ++ recLine "1")] _ (input_of _)
  ⟨[0x30, 0x61, 0x62], [(bs "003@", [2, 0, 0]), (bs "012A", [0, 1, 1])]⟩ (by decide +kernel)
example := C50_finishes describeSample [("a", sampleBytes ++ bs "x\n" ++ recLine "1")] _ (input_of _) (.inl rfl)
  (noPanic_of (by decide +kernel))

end Pica.Props
