import Verif.Props.Options

/-! # C95: options divide and join the records -/

namespace Pica.Props
open Pica Spec

/-- the options with other lists -/
def withLists (l : FilterOpts) (allow deny : List Bytes) : FilterOpts := { l with allow := allow, deny := deny }

/-- the options with other expressions -/
def withTexts (l : FilterOpts) (w : Bytes) (and or not : List Bytes) : FilterOpts := { l with texts := ⟨some w, and, or, not⟩ }

/-- the values at the path of the lists are determined -/
theorem source_values {W : World} {cfg : Config} {s s' : Levels} {l : FilterOpts} (hc : Compiles W l) {sel : Selection}
    (h : l.select W cfg s = (some sel, s')) (r : Record) :
    ∃ vs, ∀ vs', PathValues W W.eighty false (l.source.getD (bs "003@.0")) r vs' ↔ vs' = vs := by
  unfold FilterOpts.select FilterOpts.selection at h
  split at h
  · simp at h
  · rename_i source s1 hs
    have hpath : ∃ s s' p, Path.new W.rx s (l.source.getD (bs "003@.0")) = (some p, s') := by
      unfold parseSource at hs
      split at hs
      · rename_i hsrc
        rw [hsrc]
        exact ⟨s, _, _, Prod.ext ((C23_ppn W.base.toEnv ⟨false⟩ []).2 W.rx s) rfl⟩
      · rename_i text hsrc
        split at hs
        · rename_i p s' hp
          rw [hsrc]
          exact ⟨s, s', p, hp⟩
        · simp at hs
    obtain ⟨s2, s3, p, hp⟩ := hpath
    obtain ⟨sl, v, ht, -⟩ := C23_text W.rx s2 s3 _ _ hp (scored W W.eighty) ⟨false⟩ (regexOk_scored hc.1 _)
    refine ⟨addressed sl v p.codes r, fun vs' => ⟨?_, ?_⟩⟩
    · rintro ⟨sl', v', css, ht', rfl⟩
      exact (C23_unique _ _ _ _ _ _ _ _ _ _ ht ht' r).symm
    · rintro rfl
      exact ⟨sl, v, _, ht, rfl⟩

theorem admits_iff {W : World} {l : FilterOpts} {r : Record} {vs : List Bytes}
    (h : ∀ vs', PathValues W W.eighty false (l.source.getD (bs "003@.0")) r vs' ↔ vs' = vs) (allow deny : List Bytes) :
    ListsAdmit W (withLists l allow deny) r ↔ (∀ v ∈ vs, ¬ Listed W l.column deny v) ∧
      (allow = [] ∨ ∃ v ∈ vs, Listed W l.column allow v) := by
  unfold ListsAdmit withLists
  dsimp only
  constructor
  · rintro ⟨vs', h1, h2⟩
    rw [h] at h1
    subst h1
    exact h2
  · intro h2
    exact ⟨vs, (h vs).2 rfl, h2⟩

theorem listed_nil {W : World} {column : Option Bytes} {v : Bytes} : ¬ Listed W column [] v := by
  rintro ⟨_, h, _⟩
  simp at h

theorem listed_append {W : World} {column : Option Bytes} {a b : List Bytes} {v : Bytes} :
    Listed W column (a ++ b) v ↔ Listed W column a v ∨ Listed W column b v := by
  unfold Listed
  simp only [List.mem_append, or_and_right, exists_or]

/-- **C95** a list that is given as allow list and as deny list divides the records. -/
theorem C95_divide (W : World) (cfg : Config) (s s' : Levels) (l : FilterOpts) (hc : Compiles W l) (sel : Selection)
    (h : l.select W cfg s = (some sel, s')) (names : List Bytes) (hn : names ≠ []) (r : Record) :
    (Requested W cfg (withLists l [] []) r ↔
      Requested W cfg (withLists l names []) r ∨ Requested W cfg (withLists l [] names) r) ∧
    ¬ (Requested W cfg (withLists l names []) r ∧ Requested W cfg (withLists l [] names) r) := by
  obtain ⟨vs, hv⟩ := source_values hc h r
  have ht : ∀ a d, TextsHold W cfg (withLists l a d) r ↔ TextsHold W cfg l r := fun _ _ => Iff.rfl
  unfold Requested
  simp only [admits_iff hv, ht, hn, false_or, listed_nil, not_false_eq_true, implies_true, true_and, true_or, and_true]
  constructor
  · constructor
    · intro hT
      by_cases hx : ∃ v ∈ vs, Listed W l.column names v
      · exact .inl ⟨hx, hT⟩
      · exact .inr ⟨fun v hv hl => hx ⟨v, hv, hl⟩, hT⟩
    · rintro (⟨-, hT⟩ | ⟨-, hT⟩) <;> exact hT
  · rintro ⟨⟨⟨v, h1, h2⟩, -⟩, h3, -⟩
    exact h3 v h1 h2

/-- **C95** several lists: a record passes the allow lists if it passes one of them, the
deny lists if it passes all of them, and both if it passes each. -/
theorem C95_lists (W : World) (cfg : Config) (s s' : Levels) (l : FilterOpts) (hc : Compiles W l) (sel : Selection)
    (h : l.select W cfg s = (some sel, s')) (a b d : List Bytes) (ha : a ≠ []) (hb : b ≠ []) (r : Record) :
    (Requested W cfg (withLists l (a ++ b) d) r ↔
      Requested W cfg (withLists l a d) r ∨ Requested W cfg (withLists l b d) r) ∧
    (∀ x y z : List Bytes, Requested W cfg (withLists l x (y ++ z)) r ↔
      Requested W cfg (withLists l x y) r ∧ Requested W cfg (withLists l x z) r) ∧
    (∀ x y : List Bytes, Requested W cfg (withLists l x y) r ↔
      Requested W cfg (withLists l x []) r ∧ Requested W cfg (withLists l [] y) r) := by
  obtain ⟨vs, hv⟩ := source_values hc h r
  have ht : ∀ a d, TextsHold W cfg (withLists l a d) r ↔ TextsHold W cfg l r := fun _ _ => Iff.rfl
  have hab : a ++ b ≠ [] := by simp [ha]
  unfold Requested
  simp only [admits_iff hv, ht]
  refine ⟨?_, fun x y z => ?_, fun x y => ?_⟩
  · simp only [ha, hb, hab, false_or, listed_append]
    constructor
    · rintro ⟨⟨h1, v, h2, h3 | h3⟩, h4⟩
      · exact .inl ⟨⟨h1, v, h2, h3⟩, h4⟩
      · exact .inr ⟨⟨h1, v, h2, h3⟩, h4⟩
    · rintro (⟨⟨h1, v, h2, h3⟩, h4⟩ | ⟨⟨h1, v, h2, h3⟩, h4⟩)
      · exact ⟨⟨h1, v, h2, .inl h3⟩, h4⟩
      · exact ⟨⟨h1, v, h2, .inr h3⟩, h4⟩
  · simp only [listed_append, not_or]
    constructor
    · rintro ⟨⟨h1, h2⟩, h3⟩
      exact ⟨⟨⟨fun v hv => (h1 v hv).1, h2⟩, h3⟩, ⟨fun v hv => (h1 v hv).2, h2⟩, h3⟩
    · rintro ⟨⟨⟨h1, h2⟩, h3⟩, ⟨h4, -⟩, -⟩
      exact ⟨⟨fun v hv => ⟨h1 v hv, h4 v hv⟩, h2⟩, h3⟩
  · simp only [listed_nil, not_false_eq_true, implies_true, true_and, true_or, and_true]
    constructor
    · rintro ⟨⟨h1, h2⟩, h3⟩
      exact ⟨⟨h2, h3⟩, h1, h3⟩
    · rintro ⟨⟨h2, h3⟩, h1, -⟩
      exact ⟨⟨h1, h2⟩, h3⟩

/-- **C95** expressions: `--or` joins, `--and` intersects, `--not` takes away. -/
theorem C95_texts (W : World) (cfg : Config) (l : FilterOpts) (x y : Bytes) (r : Record) :
    (Requested W cfg (withTexts l x [] [y] []) r ↔
      Requested W cfg (withTexts l x [] [] []) r ∨ Requested W cfg (withTexts l y [] [] []) r) ∧
    (Requested W cfg (withTexts l x [y] [] []) r ↔
      Requested W cfg (withTexts l x [] [] []) r ∧ Requested W cfg (withTexts l y [] [] []) r) ∧
    (Requested W cfg (withTexts l x [] [] [y]) r ↔
      Requested W cfg (withTexts l x [] [] []) r ∧ ¬ Requested W cfg (withTexts l y [] [] []) r) := by
  have hl : ∀ w a o n, ListsAdmit W (withTexts l w a o n) r ↔ ListsAdmit W l r := fun _ _ _ _ => Iff.rfl
  have hs : ∀ w a o n t, Says W cfg (withTexts l w a o n).ignoreCase (withTexts l w a o n).strsimThreshold t r ↔
      Says W cfg l.ignoreCase l.strsimThreshold t r := fun _ _ _ _ _ => Iff.rfl
  unfold Requested TextsHold
  simp only [hl, hs]
  simp only [withTexts, Option.some.injEq, forall_eq', List.cons_ne_nil, ne_eq, not_false_eq_true, not_true_eq_false,
    false_implies, true_implies, true_and, and_true, List.mem_cons, List.not_mem_nil, or_false, exists_eq_left, forall_eq,
    implies_true]
  refine ⟨?_, ?_, ?_⟩
  · rw [and_or_left]
  · constructor
    · rintro ⟨h1, h2, h3⟩; exact ⟨⟨h1, h2⟩, h1, h3⟩
    · rintro ⟨⟨h1, h2⟩, -, h3⟩; exact ⟨h1, h2, h3⟩
  · constructor
    · rintro ⟨h1, h2, h3⟩; exact ⟨⟨h1, h2⟩, fun h => h3 h.2⟩
    · rintro ⟨⟨h1, h2⟩, h3⟩; exact ⟨h1, h2, fun h => h3 ⟨h1, h⟩⟩

/-! ## counting -/

/-- counting with weights -/
theorem sum_filter_or {α : Type} (w : α → Nat) (l : List α) (p q u v : α → Bool)
    (hu : ∀ x ∈ l, u x = (p x || q x)) (hv : ∀ x ∈ l, v x = (p x && q x)) :
    ((l.filter p).map w).sum + ((l.filter q).map w).sum = ((l.filter u).map w).sum + ((l.filter v).map w).sum := by
  induction l with
  | nil => rfl
  | cons x l ih =>
    have ih' := ih (fun y hy => hu y (by simp [hy])) (fun y hy => hv y (by simp [hy]))
    have h1 := hu x (by simp)
    have h2 := hv x (by simp)
    simp only [List.filter_cons, h1, h2]
    cases p x <;> cases q x <;> simp <;> omega

theorem length_filter_sum {α : Type} (l : List α) : l.length = (l.map (fun _ => 1)).sum := by
  induction l with
  | nil => rfl
  | cons x l ih => simp; omega

/-- the numbers of the two sides are the same -/
def SameSums (a b c d : CountState) : Prop :=
  a.records + b.records = c.records + d.records ∧ a.fields + b.fields = c.fields + d.fields ∧
    a.subfields + b.subfields = c.subfields + d.subfields

/-- the results of `count` when the records of two runs are joined and intersected by two others -/
theorem count_sums {W : World} {cfg : Config} (l : Fin 4 → FilterOpts) {rs : List ByteRecord} {st : Fin 4 → CountState}
    (hst : ∀ i, (st i).records = (requested W cfg (l i) rs).length ∧
      (st i).fields = ((requested W cfg (l i) rs).map (fun r => r.record.length)).sum ∧
      (st i).subfields = ((requested W cfg (l i) rs).map (fun r => (r.record.map (fun f => f.subfields.length)).sum)).sum)
    (hor : ∀ r, Requested W cfg (l 2) r ↔ Requested W cfg (l 0) r ∨ Requested W cfg (l 1) r)
    (hand : ∀ r, Requested W cfg (l 3) r ↔ Requested W cfg (l 0) r ∧ Requested W cfg (l 1) r) :
    SameSums (st 0) (st 1) (st 2) (st 3) := by
  classical
  have key : ∀ w : ByteRecord → Nat, ((requested W cfg (l 0) rs).map w).sum + ((requested W cfg (l 1) rs).map w).sum =
      ((requested W cfg (l 2) rs).map w).sum + ((requested W cfg (l 3) rs).map w).sum := by
    intro w
    unfold requested
    refine sum_filter_or w rs _ _ _ _ (fun r _ => ?_) (fun r _ => ?_)
    · rw [Bool.eq_iff_iff]; simp [hor]
    · rw [Bool.eq_iff_iff]; simp [hand]
  unfold SameSums
  rw [(hst 0).1, (hst 1).1, (hst 2).1, (hst 3).1, (hst 0).2.1, (hst 1).2.1, (hst 2).2.1, (hst 3).2.1, (hst 0).2.2,
    (hst 1).2.2, (hst 2).2.2, (hst 3).2.2]
  simp only [length_filter_sum (requested W cfg _ rs)]
  exact ⟨key _, key _, key _⟩

/-- `count` with the options, on the same files -/
def Counts (W : World) (cfg : Config) (a : CountArgs) (l : FilterOpts) (files : List (String × Bytes)) (st : CountState) :
    Prop :=
  ∃ s c, CountArgs.prepare W cfg s { a with opts := l } = some c ∧ c.loop files = .ok st

theorem counts_spec {W : World} {cfg : Config} {a : CountArgs} {l : FilterOpts} {files : List (String × Bytes)}
    {rs : List ByteRecord} {st : CountState} (hi : Input files rs) (ha : l.Accepted) (hc : Compiles W l)
    (h : Counts W cfg a l files st) :
    st.records = (requested W cfg l rs).length ∧
      st.fields = ((requested W cfg l rs).map (fun r => r.record.length)).sum ∧
      st.subfields = ((requested W cfg l rs).map (fun r => (r.record.map (fun f => f.subfields.length)).sum)).sum := by
  obtain ⟨s, c, h1, h2⟩ := h
  exact (C81_count_partial W cfg s { a with opts := l } ha hc c h1).2 files rs st hi h2

/-- **C95** what `count` counts with an allow list and with the same list as deny list
adds up to what it counts without lists. -/
theorem C95_count_lists (W : World) (cfg : Config) (a : CountArgs) (l : FilterOpts) (ha : l.Accepted) (hc : Compiles W l)
    (names : List Bytes) (hn : names ≠ []) (files : List (String × Bytes)) (st0 st1 st2 : CountState)
    (h0 : Counts W cfg a (withLists l [] []) files st0) (h1 : Counts W cfg a (withLists l names []) files st1)
    (h2 : Counts W cfg a (withLists l [] names) files st2) :
    st1.records + st2.records = st0.records ∧ st1.fields + st2.fields = st0.fields ∧
      st1.subfields + st2.subfields = st0.subfields := by
  obtain ⟨rs, hi⟩ := input_exists files
  have g0 := counts_spec hi (l := withLists l [] []) ha hc h0
  have g1 := counts_spec hi (l := withLists l names []) ha hc h1
  have g2 := counts_spec hi (l := withLists l [] names) ha hc h2
  obtain ⟨s, c, hp, -⟩ := h1
  obtain ⟨sel, s', hsel, -⟩ := select_of_map hp
  have hd : ∀ r, (Requested W cfg (withLists l [] []) r ↔
      Requested W cfg (withLists l names []) r ∨ Requested W cfg (withLists l [] names) r) ∧
      ¬ (Requested W cfg (withLists l names []) r ∧ Requested W cfg (withLists l [] names) r) :=
    fun r => C95_divide W cfg s s' (withLists l names []) hc sel hsel names hn r
  classical
  have key : ∀ w : ByteRecord → Nat, ((requested W cfg (withLists l names []) rs).map w).sum +
      ((requested W cfg (withLists l [] names) rs).map w).sum = ((requested W cfg (withLists l [] []) rs).map w).sum := by
    intro w
    have := sum_filter_or w rs (fun r => decide (Requested W cfg (withLists l names []) r.record))
      (fun r => decide (Requested W cfg (withLists l [] names) r.record))
      (fun r => decide (Requested W cfg (withLists l [] []) r.record)) (fun _ => false)
      (fun r _ => by rw [Bool.eq_iff_iff]; simpa using (hd r.record).1)
      (fun r _ => by
        have := (hd r.record).2
        rw [Bool.eq_iff_iff]
        simpa using fun h h' => this ⟨h, h'⟩)
    simpa [requested] using this
  rw [g0.1, g1.1, g2.1, g0.2.1, g1.2.1, g2.2.1, g0.2.2, g1.2.2, g2.2.2]
  simp only [length_filter_sum (requested W cfg _ rs)]
  exact ⟨key _, key _, key _⟩

/-- **C95** the counts for two expressions add up to the counts for `--or` and `--and`. -/
theorem C95_count_or (W : World) (cfg : Config) (a : CountArgs) (l : FilterOpts) (hl : l.strsimThreshold < 100)
    (hc : Compiles W l) (x y : Bytes) (files : List (String × Bytes)) (st0 st1 st2 st3 : CountState)
    (h0 : Counts W cfg a (withTexts l x [] [] []) files st0) (h1 : Counts W cfg a (withTexts l y [] [] []) files st1)
    (h2 : Counts W cfg a (withTexts l x [] [y] []) files st2) (h3 : Counts W cfg a (withTexts l x [y] [] []) files st3) :
    SameSums st0 st1 st2 st3 := by
  obtain ⟨rs, hi⟩ := input_exists files
  have ac : ∀ w a o n, (o = [] ∨ (a = [] ∧ n = [])) → (withTexts l w a o n).Accepted :=
    fun w a o n h => ⟨hl, fun _ => rfl, h⟩
  have g0 := counts_spec hi (l := withTexts l x [] [] []) (ac _ _ _ _ (.inl rfl)) hc h0
  have g1 := counts_spec hi (l := withTexts l y [] [] []) (ac _ _ _ _ (.inl rfl)) hc h1
  have g2 := counts_spec hi (l := withTexts l x [] [y] []) (ac _ _ _ _ (.inr ⟨rfl, rfl⟩)) hc h2
  have g3 := counts_spec hi (l := withTexts l x [y] [] []) (ac _ _ _ _ (.inl rfl)) hc h3
  have ht := fun r => C95_texts W cfg l x y r
  refine count_sums (W := W) (cfg := cfg) (rs := rs)
    (fun i => match i with
      | 0 => withTexts l x [] [] []
      | 1 => withTexts l y [] [] []
      | 2 => withTexts l x [] [y] []
      | 3 => withTexts l x [y] [] [])
    (st := fun i => match i with | 0 => st0 | 1 => st1 | 2 => st2 | 3 => st3) ?_ (fun r => (ht r).1) (fun r => (ht r).2.1)
  intro i
  match i with
  | 0 => exact g0
  | 1 => exact g1
  | 2 => exact g2
  | 3 => exact g3

/-- **C95** the counts for `--and` and `--not` add up to the count without. -/
theorem C95_count_not (W : World) (cfg : Config) (a : CountArgs) (l : FilterOpts) (hl : l.strsimThreshold < 100)
    (hc : Compiles W l) (x y : Bytes) (files : List (String × Bytes)) (st0 st1 st2 : CountState)
    (h0 : Counts W cfg a (withTexts l x [] [] []) files st0) (h1 : Counts W cfg a (withTexts l x [y] [] []) files st1)
    (h2 : Counts W cfg a (withTexts l x [] [] [y]) files st2) :
    st1.records + st2.records = st0.records ∧ st1.fields + st2.fields = st0.fields ∧
      st1.subfields + st2.subfields = st0.subfields := by
  obtain ⟨rs, hi⟩ := input_exists files
  have ac : ∀ w a o n, (o = [] ∨ (a = [] ∧ n = [])) → (withTexts l w a o n).Accepted :=
    fun w a o n h => ⟨hl, fun _ => rfl, h⟩
  have g0 := counts_spec hi (l := withTexts l x [] [] []) (ac _ _ _ _ (.inl rfl)) hc h0
  have g1 := counts_spec hi (l := withTexts l x [y] [] []) (ac _ _ _ _ (.inl rfl)) hc h1
  have g2 := counts_spec hi (l := withTexts l x [] [] [y]) (ac _ _ _ _ (.inl rfl)) hc h2
  have ht := fun r => C95_texts W cfg l x y r
  classical
  have key : ∀ w : ByteRecord → Nat, ((requested W cfg (withTexts l x [y] [] []) rs).map w).sum +
      ((requested W cfg (withTexts l x [] [] [y]) rs).map w).sum =
      ((requested W cfg (withTexts l x [] [] []) rs).map w).sum := by
    intro w
    have := sum_filter_or w rs (fun r => decide (Requested W cfg (withTexts l x [y] [] []) r.record))
      (fun r => decide (Requested W cfg (withTexts l x [] [] [y]) r.record))
      (fun r => decide (Requested W cfg (withTexts l x [] [] []) r.record)) (fun _ => false)
      (fun r _ => by
        have h1 := (ht r.record).2.1
        have h2 := (ht r.record).2.2
        rw [Bool.eq_iff_iff]
        simp only [decide_eq_true_eq, Bool.or_eq_true, h1, h2]
        rw [← and_or_left]
        exact ⟨fun h => ⟨h, Classical.em _⟩, fun h => h.1⟩)
      (fun r _ => by
        have h1 := (ht r.record).2.1
        have h2 := (ht r.record).2.2
        rw [Bool.eq_iff_iff]
        simp only [Bool.false_eq_true, decide_eq_true_eq, Bool.and_eq_true, h1, h2, false_iff]
        rintro ⟨⟨-, h⟩, -, h'⟩
        exact h' h)
    simpa [requested] using this
  rw [g0.1, g1.1, g2.1, g0.2.1, g1.2.1, g2.2.1, g0.2.2, g1.2.2, g2.2.2]
  simp only [length_filter_sum (requested W cfg _ rs)]
  exact ⟨key _, key _, key _⟩

/-! ## examples -/

/-- a computed count -/
theorem counts_of {cfg : Config} {l : FilterOpts} {input : Bytes} {st : CountState}
    (h : toyCount cfg l input = some (.ok st)) :
    Counts toyWorld cfg ⟨false, false, false, false, false, false, l⟩ l [("a", input)] st := by
  unfold toyCount at h
  obtain ⟨c, h1, h2⟩ := Option.map_eq_some_iff.1 h
  exact ⟨Levels.zero, c, h1, h2⟩

/-- five records, of which the list names two -/
def algebraSample : Bytes := recLine "1" ++ recLine "2" ++ recLine "3" ++ recLine "4" ++ recLine "5"

/-- the records of the list and the other records -/
example :
    toyCount ⟨false, none⟩ (withLists (toyOpts 80 false none (some "003@.0 != '5'")) [] []) algebraSample =
      some (.ok ⟨4, 4, 4⟩) ∧
    toyCount ⟨false, none⟩ (withLists (toyOpts 80 false none (some "003@.0 != '5'")) [bs "l.csv"] []) algebraSample =
      some (.ok ⟨2, 2, 2⟩) ∧
    toyCount ⟨false, none⟩ (withLists (toyOpts 80 false none (some "003@.0 != '5'")) [] [bs "l.csv"]) algebraSample =
      some (.ok ⟨2, 2, 2⟩) := by decide +kernel

/-- the hypotheses of `C95_count_lists` hold for them -/
example (st0 st1 st2 : CountState)
    (h0 : toyCount ⟨false, none⟩ (withLists (toyOpts 80 false none none) [] []) algebraSample = some (.ok st0))
    (h1 : toyCount ⟨false, none⟩ (withLists (toyOpts 80 false none none) [bs "l.csv"] []) algebraSample = some (.ok st1))
    (h2 : toyCount ⟨false, none⟩ (withLists (toyOpts 80 false none none) [] [bs "l.csv"]) algebraSample = some (.ok st2)) :
    st1.records + st2.records = st0.records :=
  (C95_count_lists toyWorld ⟨false, none⟩ ⟨false, false, false, false, false, false, toyOpts 80 false none none⟩
    (toyOpts 80 false none none) ⟨by decide, by decide, by decide⟩
    ⟨⟨fun _ _ => rfl, fun _ _ => rfl⟩, ⟨fun _ _ => rfl, fun _ _ => rfl⟩⟩ [bs "l.csv"] (by simp) _ st0 st1 st2
    (counts_of h0) (counts_of h1) (counts_of h2)).1

/-- the four expressions of `C95_count_or` and the third of `C95_count_not` -/
example :
    toyCount ⟨false, none⟩ (withTexts (toyOpts 80 false none none) (bs "003@.0 != '5'") [] [] []) algebraSample =
      some (.ok ⟨4, 4, 4⟩) ∧
    toyCount ⟨false, none⟩ (withTexts (toyOpts 80 false none none) (bs "003@.0 in ['4', '5']") [] [] []) algebraSample =
      some (.ok ⟨2, 2, 2⟩) ∧
    toyCount ⟨false, none⟩ (withTexts (toyOpts 80 false none none) (bs "003@.0 != '5'") []
      [bs "003@.0 in ['4', '5']"] []) algebraSample = some (.ok ⟨5, 5, 5⟩) ∧
    toyCount ⟨false, none⟩ (withTexts (toyOpts 80 false none none) (bs "003@.0 != '5'")
      [bs "003@.0 in ['4', '5']"] [] []) algebraSample = some (.ok ⟨1, 1, 1⟩) ∧
    toyCount ⟨false, none⟩ (withTexts (toyOpts 80 false none none) (bs "003@.0 != '5'") [] []
      [bs "003@.0 in ['4', '5']"]) algebraSample = some (.ok ⟨3, 3, 3⟩) := by decide +kernel

/-- with no names the two lists do not divide the records: each lets all of them pass -/
example : toyCount ⟨false, none⟩ (withLists (toyOpts 80 false none none) [] []) algebraSample =
    some (.ok ⟨5, 5, 5⟩) := by decide +kernel

/-- the options of `C95_divide` and `C95_lists` can be prepared -/
example : ((withLists (toyOpts 80 false none none) [bs "l.csv"] []).select toyWorld ⟨false, none⟩
    Levels.zero).1.isSome = true := by decide +kernel

end Pica.Props
