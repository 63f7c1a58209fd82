import Verif.Spec.Query
import Verif.Lemmas.Format
import Verif.Base.List

/-! Queries. -/

namespace Pica
open Spec Parser

namespace Outcome

theorem mul_nil_left (b : Outcome) : mul [] b = b := rfl

theorem mul_nil_right (a : Outcome) : mul a [] = a := by
  unfold mul; cases a <;> simp

theorem mul_of_ne {a b : Outcome} (ha : a ≠ []) (hb : b ≠ []) :
    mul a b = a.flatMap (fun x => b.map (fun y => x ++ y)) := by
  unfold mul; cases a <;> cases b <;> simp_all

theorem mul_ne {a b : Outcome} (ha : a ≠ []) : mul a b ≠ [] := by
  by_cases hb : b = []
  · subst hb; rwa [mul_nil_right]
  · rw [mul_of_ne ha hb]
    cases a with
    | nil => exact absurd rfl ha
    | cons x xs => cases b with
      | nil => exact absurd rfl hb
      | cons y ys => simp

theorem mul_assoc (a b c : Outcome) : mul (mul a b) c = mul a (mul b c) := by
  by_cases ha : a = []
  · subst ha; rfl
  by_cases hb : b = []
  · subst hb; rw [mul_nil_right, mul_nil_left]
  by_cases hc : c = []
  · subst hc; rw [mul_nil_right, mul_nil_right]
  rw [mul_of_ne (mul_ne ha) hc, mul_of_ne ha (mul_ne hb), mul_of_ne ha hb, mul_of_ne hb hc]
  simp only [List.flatMap_assoc, List.map_flatMap, List.flatMap_map, List.map_map, Function.comp_def,
    List.append_assoc]

theorem mul_width {a b : Outcome} {m n : Nat} (ha : Rect m a) (hb : Rect n b) :
    Rect (m + n) (mul a b) := by
  refine ⟨mul_ne ha.1, ?_⟩
  rw [mul_of_ne ha.1 hb.1]
  intro row hrow
  simp only [List.mem_flatMap, List.mem_map] at hrow
  obtain ⟨x, hx, y, hy, rfl⟩ := hrow
  rw [List.length_append, ha.2 x hx, hb.2 y hy]

end Outcome

theorem product_ne {Rs : List (List (List Bytes))} (h : ∀ R ∈ Rs, R ≠ []) : product Rs ≠ [] := by
  induction Rs with
  | nil => simp [product]
  | cons R Rs ih =>
    rw [product]
    have := ih (fun R hR => h R (by simp [hR]))
    cases hR : R with
    | nil => exact absurd hR (h R (by simp))
    | cons x xs =>
      cases hp : product Rs with
      | nil => exact absurd hp this
      | cons y ys => simp

theorem foldl_mul (Rs : List Outcome) (h : ∀ R ∈ Rs, R ≠ []) (a : Outcome) (ha : a ≠ []) :
    Rs.foldl Outcome.mul a = a.flatMap (fun x => (product Rs).map (fun y => x ++ y)) := by
  induction Rs generalizing a with
  | nil => simp [product]
  | cons R Rs ih =>
    have hR := h R (by simp)
    rw [List.foldl_cons, ih (fun R hR => h R (by simp [hR])) _ (Outcome.mul_ne ha),
      Outcome.mul_of_ne ha hR, product]
    simp only [List.flatMap_assoc, List.map_flatMap, List.flatMap_map, List.map_map,
      Function.comp_def, List.append_assoc]

theorem foldl_mul_cons (R : Outcome) (Rs : List Outcome) (h : ∀ S ∈ R :: Rs, S ≠ []) :
    Rs.foldl Outcome.mul R = product (R :: Rs) := by
  rw [foldl_mul Rs (fun S hS => h S (by simp [hS])) R (h R (by simp)), product]

theorem foldl_mul_nil (Rs : List Outcome) (hne : Rs ≠ []) (h : ∀ R ∈ Rs, R ≠ []) :
    Rs.foldl Outcome.mul [] = product Rs := by
  cases Rs with
  | nil => exact absurd rfl hne
  | cons R Rs => rw [List.foldl_cons, Outcome.mul_nil_left, foldl_mul_cons R Rs h]

theorem product_rect {Rs : List (List (List Bytes))} {ns : List Nat} (h : All2 Rect ns Rs) :
    Rect ns.sum (product Rs) := by
  induction h with
  | nil => simp [Rect, product]
  | @cons n R ns Rs hR _ ih =>
    have := Outcome.mul_width hR ih
    rw [Outcome.mul_of_ne hR.1 ih.1] at this
    simpa [product] using this

theorem joinLoop_eq (sep : Bytes) : ∀ (xs : List Bytes) (i : Nat) (acc : Bytes), 0 < i →
    Outcome.joinLoop sep i acc xs = acc ++ (xs.flatMap (fun x => sep ++ x)) := by
  intro xs
  induction xs with
  | nil => intro i acc _; simp [Outcome.joinLoop]
  | cons x xs ih =>
    intro i acc hi
    rw [Outcome.joinLoop, ih (i + 1) _ (by omega)]
    simp [hi]

theorem join_cons (sep x : Bytes) (xs : List Bytes) :
    join sep (x :: xs) = x ++ xs.flatMap (fun y => sep ++ y) := by
  induction xs generalizing x with
  | nil => simp [join]
  | cons y ys ih => rw [join, ih]; simp

theorem joinLoop_join (sep : Bytes) (xs : List Bytes) : Outcome.joinLoop sep 0 [] xs = join sep xs := by
  cases xs with
  | nil => rfl
  | cons x xs =>
    rw [Outcome.joinLoop, joinLoop_eq sep xs 1 _ (by omega), join_cons]; simp

theorem join_snoc (sep : Bytes) (xs : List Bytes) (hne : xs ≠ []) (y : Bytes) :
    join sep (xs ++ [y]) = join sep xs ++ sep ++ y := by
  cases xs with
  | nil => exact absurd rfl hne
  | cons x xs => rw [List.cons_append, join_cons, join_cons]; simp

/-! ## merge -/

theorem mergeRow_eq (sep : Bytes) : ∀ (a e : List Bytes), a.length ≤ e.length →
    Outcome.mergeRow sep a e = some (List.zipWith (fun x y => x ++ sep ++ y) a e) := by
  intro a
  induction a with
  | nil => intro e _; simp [Outcome.mergeRow]
  | cons x a ih =>
    intro e h
    cases e with
    | nil => simp at h
    | cons y e => simp [Outcome.mergeRow, ih e (by simpa using h)]

theorem mergeRows_eq (sep : Bytes) (n : Nat) : ∀ (rs : List (List Bytes)) (acc : List Bytes),
    acc.length = n → (∀ r ∈ rs, r.length = n) →
    ∃ row, Outcome.mergeRows sep acc rs = some row ∧ row.length = n ∧
      ∀ j, j < n → row[j]? = some ((acc.getD j []) ++ rs.flatMap (fun r => sep ++ r.getD j [])) := by
  intro rs
  induction rs with
  | nil =>
    intro acc h _
    refine ⟨acc, rfl, h, fun j hj => ?_⟩
    simp [List.getD, List.getElem?_eq_getElem (h ▸ hj)]
  | cons r rs ih =>
    intro acc h hr
    have hl := hr r (by simp)
    rw [Outcome.mergeRows, mergeRow_eq sep acc r (by omega)]
    obtain ⟨row, h1, h2, h3⟩ := ih (List.zipWith (fun x y => x ++ sep ++ y) acc r) (by simp [h, hl])
      (fun r hr' => hr r (by simp [hr']))
    refine ⟨row, h1, h2, fun j hj => ?_⟩
    rw [h3 j hj]
    have ha : acc[j]? = some acc[j] := List.getElem?_eq_getElem (h ▸ hj)
    have hb : r[j]? = some r[j] := List.getElem?_eq_getElem (hl ▸ hj)
    simp [List.getD, List.getElem?_zipWith, ha, hb]

theorem merge_rect {sep : Bytes} {n : Nat} {rows : Outcome} (h : Rect n rows) :
    ∃ row, Outcome.merge sep rows = some [row] ∧ row.length = n ∧
      ∀ j, j < n → row[j]? = some (join sep (rows.map (fun r => r.getD j []))) := by
  cases rows with
  | nil => exact absurd rfl h.1
  | cons r rs =>
    obtain ⟨row, h1, h2, h3⟩ := mergeRows_eq sep n rs r (h.2 r (by simp)) (fun r hr => h.2 r (by simp [hr]))
    refine ⟨row, by simp [Outcome.merge, h1], h2, fun j hj => ?_⟩
    rw [h3 j hj, List.map_cons, join_cons, List.flatMap_map]

/-! ## Fragments -/

theorem column_eq (f : Field) (cs : Bytes) : QFragment.column f cs = columnValues f cs := by
  unfold QFragment.column columnValues
  congr 1
  apply List.filter_congr
  intro s _
  simp

theorem columnOutcome_plain {o : QueryOpts} (h : o.squash = false) (f : Field) (cs : Bytes) :
    QFragment.columnOutcome o f cs = (cells f cs).map (fun v => [v]) := by
  unfold QFragment.columnOutcome cells
  rw [column_eq]
  simp only [h, Bool.false_eq_true, if_false]
  by_cases hc : columnValues f cs = [] <;> simp [hc]

theorem flatten_single (l : List Bytes) : (l.map (fun v => [v])).flatten = l := by
  induction l with
  | nil => rfl
  | cons x xs ih => simp [ih]

theorem columnOutcome_squash {o : QueryOpts} (h : o.squash = true) (f : Field) (cs : Bytes) :
    QFragment.columnOutcome o f cs = [[join o.separator (columnValues f cs)]] := by
  unfold QFragment.columnOutcome
  rw [column_eq]
  simp only [h, if_true, Outcome.squash, joinLoop_join]
  by_cases hc : columnValues f cs = []
  · simp [hc, join]
  · simp [hc, flatten_single]

theorem columnOutcome_rect (o : QueryOpts) (f : Field) (cs : Bytes) :
    Rect 1 (QFragment.columnOutcome o f cs) := by
  cases hs : o.squash with
  | true => rw [columnOutcome_squash hs]; simp [Rect]
  | false =>
    rw [columnOutcome_plain hs]
    refine ⟨?_, by simp [List.mem_map]⟩
    unfold cells; split <;> simp_all

theorem all2_map {α β γ : Type} {R : β → γ → Prop} (f : α → β) (g : α → γ) (l : List α)
    (h : ∀ x ∈ l, R (f x) (g x)) : All2 R (l.map f) (l.map g) := by
  induction l with
  | nil => exact .nil
  | cons x xs ih => exact .cons (h x (by simp)) (ih (fun x hx => h x (by simp [hx])))

theorem fieldOutcome_product {p : Path} (hne : p.codes ≠ []) (o : QueryOpts) (f : Field) :
    QFragment.fieldOutcome o p f = product (p.codes.map (QFragment.columnOutcome o f)) := by
  unfold QFragment.fieldOutcome
  refine foldl_mul_nil _ (by simpa using hne) ?_
  intro R hR
  obtain ⟨cs, _, rfl⟩ := List.mem_map.1 hR
  exact (columnOutcome_rect o f cs).1

theorem sum_ones {α : Type} (l : List α) : (l.map (fun _ => 1)).sum = l.length := by
  induction l with
  | nil => rfl
  | cons x xs ih => rw [List.map_cons, List.sum_cons, ih, List.length_cons]; omega

theorem fieldOutcome_rect {p : Path} (hne : p.codes ≠ []) (o : QueryOpts) (f : Field) :
    Rect p.codes.length (QFragment.fieldOutcome o p f) := by
  rw [fieldOutcome_product hne]
  have := product_rect (all2_map (R := Rect) (fun _ => 1) (QFragment.columnOutcome o f) p.codes
    (fun cs _ => columnOutcome_rect o f cs))
  rwa [show (p.codes.map (fun _ => 1)).sum = p.codes.length from sum_ones _] at this

theorem fieldOutcome_nil {p : Path} (h : p.codes = []) (o : QueryOpts) (f : Field) :
    QFragment.fieldOutcome o p f = [] := by
  simp [QFragment.fieldOutcome, h]

theorem foldl_add (l : List Outcome) (a : Outcome) : l.foldl Outcome.add a = a ++ l.flatten := by
  induction l generalizing a with
  | nil => simp
  | cons x xs ih => rw [List.foldl_cons, ih]; simp [Outcome.add]

theorem hits_eq (E : Env) (o : Opts) (p : Path) (r : Record) :
    r.filter (fun f => fieldTest E o p.tag p.occ p.sub f == some true) =
      hits (selOf p.tag p.occ) (subDen E o p.sub) r := by
  unfold hits
  apply List.filter_congr
  intro f _
  rw [Bool.eq_iff_iff]
  simp only [beq_iff_eq, fieldTest_eq_true, decide_eq_true_eq]

theorem filterP_hits {E : Env} {o : Opts} {p : Path} {r : Record} {fs : List Field}
    (h : filterP (fieldTest E o p.tag p.occ p.sub) r = some fs) :
    fs = hits (selOf p.tag p.occ) (subDen E o p.sub) r := by
  rw [(filterP_eq_some.1 h).2, hits_eq]

/-- rows of a path fragment -/
theorem path_rows {E : FmtEnv} {o : QueryOpts} {p : Path} {r : Record} {rows : Outcome}
    (h : (QFragment.path p).run E o r = some rows) :
    rows = if ((hits (selOf p.tag p.occ) (subDen E.toEnv o.opts p.sub) r).map (QFragment.fieldOutcome o p)).flatten = []
      then [List.replicate p.codes.length []]
      else ((hits (selOf p.tag p.occ) (subDen E.toEnv o.opts p.sub) r).map (QFragment.fieldOutcome o p)).flatten := by
  simp only [QFragment.run] at h
  split at h
  · simp at h
  · rename_i fs hfs
    rw [filterP_hits hfs] at h
    simp only [Option.some.injEq] at h
    rw [← h, foldl_add]
    simp

theorem run_rect {E : FmtEnv} {o : QueryOpts} {fr : QFragment} {r : Record} {rows : Outcome}
    (h : fr.run E o r = some rows) : Rect (columns fr) rows := by
  cases fr with
  | literal s => simp [QFragment.run] at h; subst h; simp [Rect, columns]
  | format fm =>
    simp only [QFragment.run] at h
    split at h
    · simp at h
    · rename_i vs hvs
      simp only [Option.some.injEq] at h
      subst h
      cases vs with
      | nil => simp [Rect, columns]
      | cons v vs => simp [Rect, columns]
  | path p =>
    rw [path_rows h]
    split
    · refine ⟨by simp, ?_⟩
      intro row hrow
      simp at hrow; subst hrow; simp [columns]
    · rename_i hne
      refine ⟨hne, ?_⟩
      intro row hrow
      by_cases hc : p.codes = []
      · exfalso
        apply hne
        simp [List.flatten_eq_nil_iff, fieldOutcome_nil hc]
      · simp only [List.mem_flatten, List.mem_map] at hrow
        obtain ⟨_, ⟨f, _, rfl⟩, hrow⟩ := hrow
        exact (fieldOutcome_rect hc o f).2 row hrow

/-- rows of a fragment after the optional merge -/
theorem part_rect {E : FmtEnv} {o : QueryOpts} {fr : QFragment} {r : Record} {rows : Outcome}
    (h : Query.part E o r fr = some rows) :
    Rect (columns fr) rows ∧ (o.merge = true → rows.length = 1) := by
  unfold Query.part at h
  split at h
  · simp at h
  · rename_i out hout
    have hr := run_rect hout
    split at h
    · obtain ⟨row, h1, h2, _⟩ := merge_rect (sep := o.separator) hr
      rw [h1] at h
      simp only [Option.some.injEq] at h
      subst h
      exact ⟨⟨by simp, by simpa using h2⟩, fun _ => rfl⟩
    · rename_i hm
      simp only [Option.some.injEq] at h
      subst h
      exact ⟨hr, fun h => absurd h hm⟩

theorem mapP_all2 {α β : Type} {f : α → Option β} {l : List α} {ys : List β}
    (h : mapP f l = some ys) : All2 (fun x y => f x = some y) l ys := by
  induction l generalizing ys with
  | nil => simp [mapP] at h; subst h; exact .nil
  | cons x xs ih =>
    rw [mapP] at h
    split at h
    · simp at h
    · rename_i y hy
      rw [Option.map_eq_some_iff] at h
      obtain ⟨zs, hz, rfl⟩ := h
      exact .cons hy (ih hz)

theorem All2.imp {α β : Type} {R S : α → β → Prop} (h : ∀ a b, R a b → S a b) {l : List α} {l' : List β}
    (hl : All2 R l l') : All2 S l l' := by
  induction hl with
  | nil => exact .nil
  | cons h1 _ ih => exact .cons (h _ _ h1) ih

/-- The rows of a query are the product of the parts. -/
theorem run_product {E : FmtEnv} {o : QueryOpts} {q : Query} {r : Record} {rows : Outcome}
    (hne : q.fragments ≠ []) (h : q.run E o r = some rows) :
    ∃ parts, All2 (fun fr part => Query.part E o r fr = some part) q.fragments parts ∧
      rows = product parts := by
  unfold Query.run at h
  rw [Option.map_eq_some_iff] at h
  obtain ⟨outs, houts, rfl⟩ := h
  have h2 := mapP_all2 houts
  refine ⟨outs, h2, ?_⟩
  cases outs with
  | nil =>
    have := h2.length
    simp at this; exact absurd this hne
  | cons x xs =>
    refine foldl_mul_cons x xs (fun S hS => ?_)
    obtain ⟨fr, _, hfr⟩ := h2.mem_right S hS
    exact (part_rect hfr).1.1

theorem All2.map_left {α β γ : Type} {R : β → γ → Prop} {f : α → β} {l : List α} {l' : List γ}
    (h : All2 (fun a c => R (f a) c) l l') : All2 R (l.map f) l' := by
  induction h with
  | nil => exact .nil
  | cons h1 _ ih => exact .cons h1 ih

theorem product_single {Rs : List (List (List Bytes))} (h : ∀ R ∈ Rs, R.length = 1) :
    (product Rs).length = 1 := by
  induction Rs with
  | nil => rfl
  | cons R Rs ih =>
    have h1 := h R (by simp)
    have h2 := ih (fun R hR => h R (by simp [hR]))
    obtain ⟨x, rfl⟩ := List.length_eq_one_iff.1 h1
    simpa [product] using h2

theorem product_singletons (l : List (List Bytes)) : product (l.map (fun x => [x])) = [l.flatten] := by
  induction l with
  | nil => rfl
  | cons x xs ih => simp [product, ih]

theorem path_rows_spec {E : FmtEnv} {o : QueryOpts} {p : Path} {r : Record} {rows : Outcome}
    (hne : p.codes ≠ []) (h : (QFragment.path p).run E o r = some rows) :
    rows = pathRows o (selOf p.tag p.occ) (subDen E.toEnv o.opts p.sub) p.codes r := by
  rw [path_rows h]
  unfold pathRows
  generalize hits (selOf p.tag p.occ) (subDen E.toEnv o.opts p.sub) r = fs
  have hflat : (fs.map (QFragment.fieldOutcome o p)).flatten = [] ↔ fs = [] := by
    constructor
    · intro h
      cases fs with
      | nil => rfl
      | cons f fs =>
        simp only [List.map_cons, List.flatten_cons, List.append_eq_nil_iff] at h
        exact absurd h.1 (fieldOutcome_rect hne o f).1
    · rintro rfl; rfl
  by_cases hfs : fs = []
  · rw [if_pos (hflat.2 hfs), if_pos hfs]
    simp [List.map_const']
  · rw [if_neg (fun h => hfs (hflat.1 h)), if_neg hfs]
    cases hs : o.squash with
    | true =>
      rw [if_pos rfl]
      clear hflat hfs
      induction fs with
      | nil => rfl
      | cons f fs ih =>
        rw [List.map_cons, List.flatten_cons, ih, List.map_cons, fieldOutcome_product hne]
        have : p.codes.map (QFragment.columnOutcome o f) =
            (p.codes.map (fun cs => [join o.separator (columnValues f cs)])).map (fun x => [x]) := by
          rw [List.map_map]
          exact List.map_congr_left (fun cs _ => columnOutcome_squash hs f cs)
        have e : (p.codes.map (fun cs => [join o.separator (columnValues f cs)])).flatten =
            p.codes.map (fun cs => join o.separator (columnValues f cs)) := by
          have := flatten_single (p.codes.map (fun cs => join o.separator (columnValues f cs)))
          rwa [List.map_map] at this
        rw [this, product_singletons, e]
        rfl
    | false =>
      rw [if_neg (by simp), List.flatMap_def]
      congr 1
      apply List.map_congr_left
      intro f _
      rw [fieldOutcome_product hne]
      congr 1
      exact List.map_congr_left (fun cs _ => columnOutcome_plain hs f cs)

theorem merge_spec {sep : Bytes} {n : Nat} {rows : Outcome} (h : Rect n rows) :
    Outcome.merge sep rows = some (merged sep n rows) := by
  obtain ⟨row, h1, h2, h3⟩ := merge_rect (sep := sep) h
  rw [h1]
  unfold merged
  congr 2
  apply List.ext_getElem?
  intro j
  by_cases hj : j < n
  · rw [h3 j hj]; simp [hj]
  · rw [List.getElem?_eq_none (by omega), List.getElem?_eq_none (by simp; omega)]

section
variable (rx : Bytes → Bool) (E : FmtEnv) (o : QueryOpts)

/-- the text of a fragment, its width and its rows -/
def FragOk (fr : QFragment) (t : Bytes) : Prop :=
  ∃ m, FragText rx E o t (columns fr) m ∧ (RegexOk rx E.toEnv o.opts → ∀ r, fr.run E o r = some (m r))

theorem itemsText_ne {R : Bytes → Bytes → Prop} {t xs} (h : ItemsText R t xs) : xs ≠ [] := by
  cases h <;> simp

theorem pathText_codes_ne {rx E o t sel v css} (h : PathText rx E o t sel v css) : css ≠ [] := by
  cases h with
  | dot => simp
  | braces _ _ _ h => cases h with
    | bare h => exact itemsText_ne h
    | parens _ h => exact itemsText_ne h

theorem path_ok {p : Path} {t : Bytes}
    (h : PathText rx E.toEnv o.opts t (selOf p.tag p.occ) (subDen E.toEnv o.opts p.sub) p.codes) :
    FragOk rx E o (.path p) t := by
  refine ⟨_, .path h (pathText_codes_ne h), fun hr r => ?_⟩
  have : ∃ rows, (QFragment.path p).run E o r = some rows := by
    simp only [QFragment.run]
    rw [filterP_of_total (f := fieldTest E.toEnv o.opts p.tag p.occ p.sub)
      (fun f _ => fieldTest_total.2 (fun _ => pathText_total hr h _))]
    exact ⟨_, rfl⟩
  obtain ⟨rows, hrows⟩ := this
  rw [hrows, path_rows_spec (pathText_codes_ne h) hrows]

theorem formatText_total {rx E o} (hr : RegexOk rx E.toEnv o.opts) {t sel v g}
    (h : FormatText rx E o t sel v g) : DTotal v := by
  cases h with
  | mk _ _ _ h => exact filterText_total hr h

theorem format_ok {fm : Format} {t : Bytes} {g : Field → Bytes}
    (h : FormatText rx E o.fmtOpts t (selOf fm.tag fm.occ) (subDen E.toEnv o.fmtOpts.opts fm.sub) g)
    (hg : RunsTo E o.fmtOpts fm.fragments g) : FragOk rx E o (.format fm) t := by
  refine ⟨_, .format h, fun hr r => ?_⟩
  simp only [QFragment.run]
  rw [format_run hg (fun f _ => fieldTest_total.2 (fun _ => formatText_total hr h _))]
  simp only
  unfold stringRows
  by_cases hv : rendered (selOf fm.tag fm.occ) (subDen E.toEnv o.fmtOpts.opts fm.sub) g r = []
  · simp [hv]
  · rw [if_neg hv, if_neg (by simpa using hv)]

theorem pQFragment_sound : TParser.Sound (pQFragment rx) (fun fr t => FragOk rx E o fr t) := by
  unfold pQFragment
  refine (((pPath_sound rx E.toEnv o.opts).map _).mono ?_).alt
    ((TParser.Sound.lift ((pString_reads.map _).mono ?_)).alt
      (((pFormat_sound E o.fmtOpts rx).map _).mono ?_))
  · rintro fr t ⟨p, rfl, h, _⟩
    exact path_ok rx E o h
  · rintro fr t ⟨s, rfl, h⟩
    exact ⟨_, .literal h, fun _ _ => rfl⟩
  · rintro fr t ⟨fm, rfl, g, h, hg⟩
    exact format_ok rx E o h hg

theorem sepItems_query {frs : List QFragment} {t : Bytes}
    (h : SepItems (FragOk rx E o) Sep frs t) : ∃ ms, QueryText rx E o t ms ∧
      All2 (fun fr m => m.1 = columns fr ∧ (RegexOk rx E.toEnv o.opts → ∀ r, fr.run E o r = some (m.2 r))) frs ms := by
  induction h with
  | one h => obtain ⟨m, h1, h2⟩ := h; exact ⟨[(_, m)], .one h1, .cons ⟨rfl, h2⟩ .nil⟩
  | more h hs _ ih =>
    obtain ⟨m, h1, h2⟩ := h
    obtain ⟨ms, h3, h4⟩ := ih
    exact ⟨(_, m) :: ms, .more h1 hs h3, .cons ⟨rfl, h2⟩ h4⟩

theorem sep_reads : Reads (ws (byte 0x2C)) (fun _ t => Sep t) :=
  (wsByte_reads 0x2C).mono (by
    rintro _ t ⟨w, _, w', rfl, h1, rfl, h2⟩
    exact ⟨w, w', rfl, h1, h2⟩)

theorem query_new_sound {s s' text q} (h : Query.new rx s text = (some q, s')) :
    q.fragments ≠ [] ∧ q.raw = text ∧ ∃ ms, QueryText rx E o text ms ∧
      All2 (fun fr m => m.1 = columns fr ∧ (RegexOk rx E.toEnv o.opts → ∀ r, fr.run E o r = some (m.2 r)))
        q.fragments ms := by
  unfold Query.new pQuery at h
  obtain ⟨t, he, ⟨⟨frs, raw⟩, rfl, ⟨h1, h2⟩, h3⟩⟩ :=
    (((TParser.Sound.separated 1 (pQFragment_sound rx E o) sep_reads).withTaken).map _) _ _ _ _ _
      (TParser.parseAll_eq_some.1 h)
  rw [List.append_nil] at he
  subst he
  refine ⟨?_, h3, sepItems_query rx E o h1⟩
  rintro hq
  simp only at hq
  subst hq
  simp at h2

end

end Pica
