import Verif.Lemmas.Query
import Verif.Props.Format

/-! C24–C26: queries. -/

namespace Pica.Props
open Pica Pica.Spec Parser

/-! ## C24 -/

/-- **C24** Any query with at least one fragment: if evaluation does not panic in a
filter, the table has at least one row, each row has one cell per column, and
with merge there is exactly one row. -/
theorem C24_rect (E : FmtEnv) (o : QueryOpts) (q : Query) (r : Record) (rows : List (List Bytes))
    (hne : q.fragments ≠ []) (h : q.run E o r = some rows) :
    rows ≠ [] ∧ (∀ row ∈ rows, row.length = (q.fragments.map columns).sum) ∧
      (o.merge = true → rows.length = 1) := by
  obtain ⟨parts, h1, rfl⟩ := run_product hne h
  have h2 : All2 Rect (q.fragments.map columns) parts :=
    All2.map_left (h1.imp (fun _ _ h => (part_rect h).1))
  obtain ⟨h3, h4⟩ := product_rect h2
  refine ⟨h3, h4, fun hm => product_single (fun R hR => ?_)⟩
  obtain ⟨fr, _, hfr⟩ := h1.mem_right R hR
  exact (part_rect hfr).2 hm

/-- **C24** The only panics are those of filters: merge never indexes out of bounds
or unwraps a missing row. -/
theorem C24_panic (E : FmtEnv) (o : QueryOpts) (q : Query) (r : Record) :
    q.run E o r = none ↔ ∃ fr ∈ q.fragments, fr.run E o r = none := by
  have hp : ∀ fr, Query.part E o r fr = none ↔ fr.run E o r = none := by
    intro fr
    unfold Query.part
    cases hfr : fr.run E o r with
    | none => simp
    | some out =>
      simp only [reduceCtorEq, iff_false]
      split
      · rw [merge_spec (run_rect hfr)]; simp
      · simp
  have hm : ∀ l, mapP (Query.part E o r) l = none ↔ ∃ fr ∈ l, fr.run E o r = none := by
    intro l
    induction l with
    | nil => simp [mapP]
    | cons x xs ih =>
      rw [mapP]
      cases hx : Query.part E o r x with
      | none => simp [(hp x).1 hx]
      | some y =>
        have hx' : ¬ x.run E o r = none := fun h => by rw [(hp x).2 h] at hx; simp at hx
        simp only [Option.map_eq_none_iff, ih, List.mem_cons, exists_eq_or_imp]
        exact ⟨.inr, fun h => h.resolve_left hx'⟩
  unfold Query.run
  rw [Option.map_eq_none_iff, hm]

/-- **C24** Every parsed query whose regular expressions compile evaluates on every
record to a non-empty rectangular table. -/
theorem C24_parsed (rx : Bytes → Bool) (s s' : Levels) (text : Bytes) (q : Query)
    (h : Query.new rx s text = (some q, s')) (E : FmtEnv) (o : QueryOpts)
    (hr : RegexOk rx E.toEnv o.opts) (r : Record) :
    ∃ rows, q.run E o r = some rows ∧ rows ≠ [] ∧
      (∀ row ∈ rows, row.length = (q.fragments.map columns).sum) ∧
      (o.merge = true → rows.length = 1) := by
  obtain ⟨hne, _, ms, _, h2⟩ := query_new_sound rx E o h
  cases hq : q.run E o r with
  | none =>
    obtain ⟨fr, hfr, hn⟩ := (C24_panic E o q r).1 hq
    obtain ⟨m, _, _, hm⟩ := h2.mem_left fr hfr
    rw [hm hr r] at hn; simp at hn
  | some rows => exact ⟨rows, rfl, C24_rect E o q r rows hne hq⟩

/-! ## C25 -/

/-- **C25** Without merge the rows of a query are the product of the rows of its
fragments. -/
theorem C25_product (E : FmtEnv) (o : QueryOpts) (q : Query) (r : Record) (rows : List (List Bytes))
    (hne : q.fragments ≠ []) (hm : o.merge = false) (h : q.run E o r = some rows) :
    ∃ parts, All2 (fun fr part => fr.run E o r = some part) q.fragments parts ∧
      rows = product parts := by
  obtain ⟨parts, h1, h2⟩ := run_product hne h
  refine ⟨parts, h1.imp (fun fr part hp => ?_), h2⟩
  unfold Query.part at hp
  split at hp
  · simp at hp
  · rename_i out hout
    rw [hm] at hp
    simp at hp
    rw [hout, hp]

/-- **C25** The rows of a product are the concatenations of one row per table. -/
theorem C25_rows (parts : List (List (List Bytes))) (row : List Bytes) :
    row ∈ product parts ↔ ∃ choice, All2 (fun part x => x ∈ part) parts choice ∧ row = choice.flatten := by
  induction parts generalizing row with
  | nil =>
    simp only [product, List.mem_singleton]
    constructor
    · rintro rfl; exact ⟨[], .nil, rfl⟩
    · rintro ⟨c, hc, rfl⟩; cases hc; rfl
  | cons R Rs ih =>
    simp only [product, List.mem_flatMap, List.mem_map]
    constructor
    · rintro ⟨x, hx, y, hy, rfl⟩
      obtain ⟨c, hc, rfl⟩ := (ih y).1 hy
      exact ⟨x :: c, .cons hx hc, rfl⟩
    · rintro ⟨c, hc, rfl⟩
      cases hc with
      | cons hx hc => exact ⟨_, hx, _, (ih _).2 ⟨_, hc, rfl⟩, rfl⟩

/-- **C25** The number of rows is the product of the numbers of rows. -/
theorem C25_count (parts : List (List (List Bytes))) :
    (product parts).length = (parts.map List.length).foldr (· * ·) 1 := by
  induction parts with
  | nil => rfl
  | cons R Rs ih =>
    rw [product, List.map_cons, List.foldr_cons, ← ih]
    induction R with
    | nil => simp
    | cons x xs ihx =>
      rw [List.flatMap_cons, List.length_append, ihx, List.length_map, List.length_cons, Nat.succ_mul]
      omega

/-- **C25** The order is lexicographic: the row with number `i·n + j`, where `n` is
the number of rows of the other tables, joins row `i` of the first table and row
`j` of the product of the others. -/
theorem C25_order (R : List (List Bytes)) (Rs : List (List (List Bytes))) (i j : Nat)
    (hi : i < R.length) (hj : j < (product Rs).length) :
    (product (R :: Rs))[i * (product Rs).length + j]? = some (R[i] ++ (product Rs)[j]) := by
  rw [product]
  generalize product Rs = P at hj
  induction R generalizing i with
  | nil => simp at hi
  | cons x xs ih =>
    rw [List.flatMap_cons]
    cases i with
    | zero =>
      rw [Nat.zero_mul, Nat.zero_add, List.getElem?_append_left (by simpa using hj)]
      simp [hj]
    | succ i =>
      have e : (i + 1) * P.length + j = P.length + (i * P.length + j) := by
        rw [Nat.succ_mul]; omega
      rw [e, List.getElem?_append_right (by simp)]
      simp only [List.length_map, Nat.add_sub_cancel_left, List.getElem_cons_succ]
      exact ih i (by simpa using hi)

/-- **C25** Combining outcomes is associative, and the empty outcome is neutral. -/
theorem C25_assoc (a b c : Outcome) :
    (a.mul b).mul c = a.mul (b.mul c) ∧ Outcome.mul [] a = a ∧ a.mul [] = a :=
  ⟨Outcome.mul_assoc a b c, rfl, Outcome.mul_nil_right a⟩

/-- **C24–C26** A parsed query means what its text says: the product over its
fragments of the rows `pathRows`, of the literal, or of the formatted strings;
with merge each fragment is first reduced to one row by `merged`. -/
theorem C25_text (rx : Bytes → Bool) (s s' : Levels) (text : Bytes) (q : Query)
    (h : Query.new rx s text = (some q, s')) (E : FmtEnv) (o : QueryOpts)
    (hr : RegexOk rx E.toEnv o.opts) :
    ∃ ms, QueryText rx E o text ms ∧ ∀ r, q.run E o r = some (product (ms.map (fun m =>
      if o.merge then merged o.separator m.1 (m.2 r) else m.2 r))) := by
  obtain ⟨hne, _, ms, h1, h2⟩ := query_new_sound rx E o h
  refine ⟨ms, h1, fun r => ?_⟩
  obtain ⟨rows, hrows, hrest⟩ := C24_parsed rx s s' text q h E o hr r
  clear hrest
  obtain ⟨parts, h3, rfl⟩ := run_product hne hrows
  rw [hrows]
  congr 2
  clear hrows h1 hne h
  generalize q.fragments = frs at h2 h3
  induction h2 generalizing parts with
  | nil => cases h3; rfl
  | @cons fr m frs ms h4 _ ih =>
    cases h3 with
    | @cons _ part _ parts h5 h6 =>
      rw [List.map_cons, ih _ h6]
      congr 1
      unfold Query.part at h5
      have hrun := h4.2 hr r
      rw [hrun] at h5
      simp only at h5
      by_cases hm : o.merge = true
      · rw [if_pos hm, merge_spec (run_rect hrun), Option.some.injEq] at h5
        rw [if_pos hm, ← h5, h4.1]
      · rw [if_neg hm, Option.some.injEq] at h5
        rw [if_neg hm, h5]

/-! ## C26 -/

/-- **C26** With squash a path contributes one row per selected field (one empty row
if there is none); each cell joins the values of its column. -/
theorem C26_squash (E : FmtEnv) (o : QueryOpts) (p : Path) (r : Record) (rows : List (List Bytes))
    (hs : o.squash = true) (hne : p.codes ≠ []) (h : (QFragment.path p).run E o r = some rows) :
    ∃ fs : List Field, fs = hits (fun f => p.tag.isMatch f.tag = true ∧ p.occ.isMatch f.occ = true)
        (fun sf => match p.sub with | none => some true | some m => m.eval E.toEnv o.opts sf) r ∧
      (fs = [] → rows = [p.codes.map (fun _ => [])]) ∧
      (fs ≠ [] → rows = fs.map (fun f => p.codes.map (fun cs =>
        join o.separator ((f.subfields.filter (fun s => decide (s.code ∈ cs))).map Subfield.value)))) := by
  have e : (fun sf => match p.sub with | none => some true | some m => m.eval E.toEnv o.opts sf)
      = subDen E.toEnv o.opts p.sub := by cases p.sub <;> rfl
  rw [e, show (fun f : Field => p.tag.isMatch f.tag = true ∧ p.occ.isMatch f.occ = true)
    = selOf p.tag p.occ from rfl]
  refine ⟨_, rfl, fun hfs => ?_, fun hfs => ?_⟩
  · rw [path_rows_spec hne h, pathRows, if_pos hfs]
  · rw [path_rows_spec hne h, pathRows, if_neg hfs, if_pos hs]; rfl

/-- **C26** With merge a fragment contributes a single row; each cell joins its
column over all rows, in order. -/
theorem C26_merge (E : FmtEnv) (o : QueryOpts) (fr : QFragment) (r : Record) (rows : List (List Bytes))
    (hm : o.merge = true) (h : fr.run E o r = some rows) :
    ∃ row, Query.part E o r fr = some [row] ∧ row.length = columns fr ∧
      ∀ j, j < columns fr → row[j]? = some (join o.separator (rows.map (fun x => x.getD j []))) := by
  obtain ⟨row, h1, h2, h3⟩ := merge_rect (sep := o.separator) (run_rect h)
  refine ⟨row, ?_, h2, h3⟩
  unfold Query.part
  rw [h]; simp [hm, h1]

/-- **C26** No value is lost by joining: the length of the join is the sum of the
lengths and separators, and each value occurs in it at its place. -/
theorem C26_join (sep : Bytes) (xs ys : List Bytes) (x : Bytes) :
    ∃ a b, join sep (xs ++ x :: ys) = a ++ x ++ b ∧
      a = xs.flatMap (fun y => y ++ sep) ∧ b = ys.flatMap (fun y => sep ++ y) := by
  refine ⟨_, _, ?_, rfl, rfl⟩
  induction xs with
  | nil => simp [join_cons]
  | cons y xs ih =>
    rw [List.cons_append, join_cons]
    have e : ∀ zs : List Bytes, zs ≠ [] → zs.flatMap (fun z => sep ++ z) = sep ++ join sep zs := by
      intro zs hz
      cases zs with
      | nil => exact absurd rfl hz
      | cons z zs => rw [join_cons]; simp
    rw [e _ (by simp), ih]; simp

/-! ## Examples -/

/-- text to query, for the examples -/
def queryM (t : String) : Option Query := (Query.new (fun _ => true) Levels.zero (bs t)).1

/-- two repeated fields with repeated subfields -/
def querySample : Record :=
  [⟨bs "003@", none, [⟨0x30, bs "1"⟩]⟩,
   ⟨bs "045E", none, [⟨0x65, bs "x"⟩, ⟨0x65, bs "y"⟩, ⟨0x66, bs "F"⟩]⟩,
   ⟨bs "045E", none, [⟨0x65, bs "z"⟩]⟩]

example : (queryM "003@.0, 045E{e,f}, 'L'").bind (fun q => q.run toyFmt ⟨false, bs "|", false, false⟩ querySample)
    = some [[bs "1", bs "x", bs "F", bs "L"], [bs "1", bs "y", bs "F", bs "L"],
            [bs "1", bs "z", [], bs "L"]] := by decide +kernel
example : (queryM "003@.0, 045E{e,f}").bind (fun q => q.run toyFmt ⟨false, bs "|", true, false⟩ querySample)
    = some [[bs "1", bs "x|y", bs "F"], [bs "1", bs "z", []]] := by decide +kernel
example : (queryM "003@.0, 045E{e,f}").bind (fun q => q.run toyFmt ⟨false, bs "|", false, true⟩ querySample)
    = some [[bs "1", bs "x|y|z", bs "F|F|"]] := by decide +kernel
example : (queryM "012A{a,b}, 045E{e <*> '-' f}").bind (fun q => q.run toyFmt ⟨false, bs "|", false, false⟩ querySample)
    = some [[[], [], bs "x-F"], [[], [], bs "z"]] := by decide +kernel

end Pica.Props
