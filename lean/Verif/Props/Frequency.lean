import Verif.Model.Frequency
import Verif.Props.Query
import Verif.Props.Split

/-! # C36: frequency -/

namespace Pica.Props
open Pica Spec

/-- a row with a non-empty cell -/
def Useful (row : Row) : Prop := ∃ cell ∈ row, cell ≠ []

/-- how often a row occurs in the query results of the records; with `--unique`,
in how many of them -/
def occurrences (unique : Bool) (results : List (List Row)) (row : Row) : Nat :=
  if unique then (results.filter (fun rows => decide (row ∈ rows))).length
  else (results.flatten.filter (fun x => decide (x = row))).length

/-- the documented order: by frequency, descending (with `--reverse` ascending),
then lexicographically -/
def Before (reverse : Bool) (a b : Row × Nat) : Prop :=
  (if reverse then a.2 < b.2 else b.2 < a.2) ∨
  (a.2 = b.2 ∧ a.1 ≠ b.1 ∧ LexLe (fun x y => LexLe (· < ·) x y ∧ x ≠ y) a.1 b.1)

/-- the complete listing -/
structure Listing (unique reverse : Bool) (results : List (List Row)) (full : List (Row × Nat)) : Prop where
  exact : ∀ row n, (row, n) ∈ full ↔ Useful row ∧ 0 < n ∧ n = occurrences unique results row
  ordered : full.Pairwise (Before reverse)

/-- there is only one listing -/
theorem listing_unique {unique reverse results full full'}
    (h : Listing unique reverse results full) (h' : Listing unique reverse results full') : full = full' := by
  have hirr : ∀ a, ¬ Before reverse a a := by
    rintro a (h | h)
    · split at h <;> omega
    · exact h.2.1 rfl
  have hasym : ∀ a b, Before reverse a b → ¬ Before reverse b a := by
    rintro a b (h1 | h1) (h2 | h2)
    · split at h1 <;> simp_all <;> omega
    · split at h1 <;> omega
    · split at h2 <;> omega
    · obtain ⟨_, h1, h3⟩ := h1
      obtain ⟨_, _, h4⟩ := h2
      rw [← rowLe_iff] at h3 h4
      exact h1 (rowLe_antisymm h3 h4)
  have hperm : full.Perm full' := by
    have hn : ∀ {l : List (Row × Nat)}, l.Pairwise (Before reverse) → l.Nodup :=
      fun {l} hl => List.Pairwise.imp (R := Before reverse) (S := (· ≠ ·))
        (fun {a b} hab e => hirr a (by rw [← e] at hab; exact hab)) hl
    rw [List.perm_ext_iff_of_nodup (hn h.ordered) (hn h'.ordered)]
    rintro ⟨row, n⟩
    rw [h.exact, h'.exact]
  exact hperm.eq_of_pairwise (fun a b _ _ h1 h2 => absurd h2 (hasym a b h1)) h.ordered h'.ordered

/-! ## the table -/

/-- the rows that are counted in one result -/
def counted (unique : Bool) : List Row → List Row → List Row
  | _, [] => []
  | seen, key :: rows =>
    if key.any (fun e => !e.isEmpty) then
      if unique && seen.contains key then counted unique seen rows
      else key :: counted unique (if unique then key :: seen else seen) rows
    else counted unique seen rows

theorem addRows_eq (unique : Bool) (rows : List Row) : ∀ (seen : List Row) (t : List (Row × Nat)),
    FreqCmd.addRows unique rows seen t = (counted unique seen rows).foldl FreqCmd.bump t := by
  induction rows with
  | nil => intro seen t; rfl
  | cons key rows ih =>
    intro seen t
    rw [FreqCmd.addRows, counted]
    split
    · split
      · exact ih _ _
      · rw [List.foldl_cons]; exact ih _ _
    · exact ih _ _

theorem useful_iff (row : Row) : row.any (fun e => !e.isEmpty) = true ↔ Useful row := by
  unfold Useful
  rw [List.any_eq_true]
  constructor
  · rintro ⟨c, h1, h2⟩; exact ⟨c, h1, by simpa using h2⟩
  · rintro ⟨c, h1, h2⟩; exact ⟨c, h1, by simpa using h2⟩

theorem counted_count (unique : Bool) (row : Row) (hu : Useful row) (rows : List Row) : ∀ seen,
    ((counted unique seen rows).filter (fun x => decide (x = row))).length =
      if unique then (if row ∈ seen then 0 else if row ∈ rows then 1 else 0)
      else (rows.filter (fun x => decide (x = row))).length := by
  induction rows with
  | nil => intro seen; cases unique <;> simp [counted]
  | cons key rows ih =>
    intro seen
    rw [counted]
    by_cases hk : key.any (fun e => !e.isEmpty) = true
    · rw [if_pos hk]
      cases unique with
      | false =>
        simp only [Bool.false_and, Bool.false_eq_true, if_false]
        have := ih seen
        simp only [Bool.false_eq_true, if_false] at this
        rw [List.filter_cons, List.filter_cons]
        split <;> simp [this]
      | true =>
        simp only [Bool.true_and, if_true]
        by_cases hs : key ∈ seen
        · rw [if_pos (by simpa using hs), ih seen]
          simp only [if_true]
          by_cases hr : row ∈ seen
          · simp [hr]
          · have hne : ¬ row = key := fun e => hr (e ▸ hs)
            simp [hr, hne]
        · rw [if_neg (by simpa using hs), List.filter_cons]
          by_cases he : key = row
          · subst he
            simp only [decide_true, if_true, List.length_cons, ih, List.mem_cons, true_or]
            simp [hs]
          · have he' : ¬ row = key := fun e => he e.symm
            simp only [he, decide_false, Bool.false_eq_true, if_false, ih, if_true, List.mem_cons, he', false_or]
    · rw [if_neg hk, ih seen]
      have hne : ¬ row = key := fun e => hk (e ▸ (useful_iff row).2 hu)
      have hne' : ¬ key = row := fun e => hne e.symm
      simp [hne, hne']

theorem counted_useful (unique : Bool) (rows : List Row) : ∀ seen, ∀ x ∈ counted unique seen rows, Useful x := by
  induction rows with
  | nil => intro seen x hx; simp [counted] at hx
  | cons key rows ih =>
    intro seen x hx
    rw [counted] at hx
    split at hx
    · rename_i hk
      split at hx
      · exact ih _ x hx
      · rcases List.mem_cons.1 hx with rfl | hx
        · exact (useful_iff _).1 hk
        · exact ih _ x hx
    · exact ih _ x hx

/-- the table counts the keys that have been added -/
structure TableInv (keys : List Row) (t : List (Row × Nat)) : Prop where
  nodup : (t.map Prod.fst).Nodup
  exact : ∀ row n, (row, n) ∈ t ↔ 0 < n ∧ n = (keys.filter (fun x => decide (x = row))).length

theorem tableInv_bump {keys t} (h : TableInv keys t) (key : Row) :
    TableInv (keys ++ [key]) (FreqCmd.bump t key) := by
  unfold FreqCmd.bump
  have hcount : ∀ row, ((keys ++ [key]).filter (fun x => decide (x = row))).length =
      (keys.filter (fun x => decide (x = row))).length + if key = row then 1 else 0 := by
    intro row
    rw [List.filter_append, List.length_append]
    by_cases hk : key = row <;> simp [hk]
  by_cases hm : key ∈ t.map Prod.fst
  · obtain ⟨⟨key', m⟩, hmem, he⟩ := List.mem_map.1 hm
    dsimp only at he
    subst he
    have hany : t.any (fun x => x.1 == key') = true := List.any_eq_true.2 ⟨_, hmem, by simp⟩
    rw [if_pos hany]
    have hk : (t.map (fun x => if x.1 == key' then (x.1, x.2 + 1) else x)).map Prod.fst = t.map Prod.fst := by
      rw [List.map_map]
      refine List.map_congr_left (fun x _ => ?_)
      simp only [Function.comp]; split <;> rfl
    refine ⟨by rw [hk]; exact h.nodup, fun row n => ?_⟩
    rw [hcount]
    constructor
    · intro hx
      obtain ⟨⟨r0, n0⟩, h0, he⟩ := List.mem_map.1 hx
      have := (h.exact r0 n0).1 h0
      by_cases hr : r0 = key'
      · subst hr
        simp only [beq_self_eq_true, if_true, Prod.mk.injEq] at he
        obtain ⟨rfl, rfl⟩ := he
        rw [if_pos rfl]; omega
      · have hr' : ¬ key' = r0 := fun e => hr e.symm
        have : (r0 == key') = false := by simpa using hr
        simp only [this, Bool.false_eq_true, if_false, Prod.mk.injEq] at he
        obtain ⟨rfl, rfl⟩ := he
        rw [if_neg hr']; omega
    · rintro ⟨hn, he⟩
      by_cases hr : key' = row
      · subst hr
        rw [if_pos rfl] at he
        have hm' := (h.exact key' m).1 hmem
        refine List.mem_map.2 ⟨(key', m), hmem, ?_⟩
        simp only [beq_self_eq_true, if_true]
        rw [he, ← hm'.2]
      · rw [if_neg hr] at he
        have hr' : ¬ row = key' := fun e => hr e.symm
        refine List.mem_map.2 ⟨(row, n), (h.exact row n).2 ⟨hn, by omega⟩, ?_⟩
        simp [hr']
  · have hany : ¬ t.any (fun x => x.1 == key) = true := by
      intro ha
      obtain ⟨x, hx, he⟩ := List.any_eq_true.1 ha
      exact hm (List.mem_map.2 ⟨x, hx, by simpa using he⟩)
    rw [if_neg hany]
    have hzero : (keys.filter (fun x => decide (x = key))).length = 0 := by
      rcases Nat.eq_zero_or_pos (keys.filter (fun x => decide (x = key))).length with h0 | h0
      · exact h0
      · exact absurd (List.mem_map.2 ⟨_, (h.exact key _).2 ⟨h0, rfl⟩, rfl⟩) hm
    refine ⟨?_, fun row n => ?_⟩
    · rw [List.map_append, List.nodup_append]
      refine ⟨h.nodup, by simp, ?_⟩
      intro a ha b hb
      simp only [List.map_cons, List.map_nil, List.mem_singleton] at hb
      subst hb
      exact fun e => hm (e ▸ ha)
    · rw [hcount, List.mem_append, h.exact, List.mem_singleton, Prod.mk.injEq]
      constructor
      · rintro (⟨h1, h2⟩ | ⟨rfl, rfl⟩)
        · have hne : ¬ key = row := by
            rintro rfl
            omega
          rw [if_neg hne]; omega
        · rw [if_pos rfl]; omega
      · rintro ⟨h1, h2⟩
        by_cases he : key = row
        · subst he
          rw [if_pos rfl] at h2
          exact .inr ⟨rfl, by omega⟩
        · rw [if_neg he] at h2
          exact .inl ⟨h1, by omega⟩

theorem tableInv_foldl (ks : List Row) : ∀ {keys t}, TableInv keys t →
    TableInv (keys ++ ks) (ks.foldl FreqCmd.bump t) := by
  induction ks with
  | nil => intro keys t h; simpa using h
  | cons k ks ih =>
    intro keys t h
    have := ih (tableInv_bump h k)
    rw [List.append_assoc] at this
    exact this

theorem step_fold (c : FreqCmd) (results : List (List Row)) : ∀ (keys : List Row) (s : FreqState),
    TableInv keys s.table →
    TableInv (keys ++ results.flatMap (counted c.unique [])) (results.foldl c.step s).table := by
  induction results with
  | nil => intro keys s h; simpa using h
  | cons rows results ih =>
    intro keys s h
    rw [List.foldl_cons, List.flatMap_cons, ← List.append_assoc]
    apply ih
    rw [FreqCmd.step, addRows_eq]
    exact tableInv_foldl _ h

theorem counted_occurrences (unique : Bool) (results : List (List Row)) (row : Row) (hu : Useful row) :
    ((results.flatMap (counted unique [])).filter (fun x => decide (x = row))).length =
      occurrences unique results row := by
  unfold occurrences
  induction results with
  | nil => cases unique <;> simp
  | cons rows results ih =>
    rw [List.flatMap_cons, List.filter_append, List.length_append, ih, counted_count unique row hu]
    cases unique with
    | false => simp
    | true =>
      simp only [if_true, List.not_mem_nil, if_false, List.filter_cons]
      by_cases h : row ∈ rows
      · simp [h]; omega
      · simp [h]

theorem table_exact {c : FreqCmd} {results : List (List Row)} {row : Row} {n : Nat} :
    (row, n) ∈ (results.foldl c.step ⟨[], 0⟩).table ↔
      Useful row ∧ 0 < n ∧ n = occurrences c.unique results row := by
  have hinv := step_fold c results [] ⟨[], 0⟩ ⟨by simp, by intro row n; simp; omega⟩
  rw [List.nil_append] at hinv
  rw [hinv.exact]
  constructor
  · rintro ⟨h1, h2⟩
    have hu : Useful row := by
      have : 0 < ((results.flatMap (counted c.unique [])).filter (fun x => decide (x = row))).length := by omega
      obtain ⟨x, hx⟩ := List.exists_mem_of_length_pos this
      obtain ⟨hx1, hx2⟩ := List.mem_filter.1 hx
      obtain ⟨rows, _, hx3⟩ := List.mem_flatMap.1 hx1
      have := counted_useful c.unique rows [] x hx3
      simp only [decide_eq_true_eq] at hx2
      exact hx2 ▸ this
    exact ⟨hu, h1, by rw [h2, counted_occurrences _ _ _ hu]⟩
  · rintro ⟨hu, h1, h2⟩
    exact ⟨h1, by rw [h2, counted_occurrences _ _ _ hu]⟩

/-! ## the order -/

theorem le_total (reverse : Bool) (a b : Row × Nat) :
    FreqCmd.le reverse a b = true ∨ FreqCmd.le reverse b a = true := by
  unfold FreqCmd.le
  have := rowLe_total a.1 b.1
  rcases Nat.lt_trichotomy a.2 b.2 with h | h | h
  · cases reverse <;> simp [h]
  · cases reverse <;> simp [h, this]
  · cases reverse <;> simp [h]

theorem le_trans' (reverse : Bool) (a b c : Row × Nat) (h1 : FreqCmd.le reverse a b = true)
    (h2 : FreqCmd.le reverse b c = true) : FreqCmd.le reverse a c = true := by
  unfold FreqCmd.le at *
  cases reverse
  · simp only [Bool.false_eq_true, if_false, Bool.or_eq_true, decide_eq_true_eq, Bool.and_eq_true, beq_iff_eq] at *
    rcases h1 with h1 | ⟨h1, h1'⟩ <;> rcases h2 with h2 | ⟨h2, h2'⟩
    · left; omega
    · left; omega
    · left; omega
    · right; exact ⟨by omega, rowLe_trans h1' h2'⟩
  · simp only [if_true, Bool.or_eq_true, decide_eq_true_eq, Bool.and_eq_true, beq_iff_eq] at *
    rcases h1 with h1 | ⟨h1, h1'⟩ <;> rcases h2 with h2 | ⟨h2, h2'⟩
    · left; omega
    · left; omega
    · left; omega
    · right; exact ⟨by omega, rowLe_trans h1' h2'⟩

theorem le_before {reverse : Bool} {a b : Row × Nat} (hne : a.1 ≠ b.1)
    (h : FreqCmd.le reverse a b = true) : Before reverse a b := by
  unfold FreqCmd.le at h
  unfold Before
  rw [← rowLe_iff]
  cases reverse
  · simp only [Bool.false_eq_true, if_false, Bool.or_eq_true, decide_eq_true_eq, Bool.and_eq_true, beq_iff_eq] at *
    rcases h with h | h
    · exact .inl h
    · exact .inr ⟨h.1, hne, h.2⟩
  · simp only [if_true, Bool.or_eq_true, decide_eq_true_eq, Bool.and_eq_true, beq_iff_eq] at *
    rcases h with h | h
    · exact .inl h
    · exact .inr ⟨h.1, hne, h.2⟩

theorem listing_of_table (c : FreqCmd) (hiter : ∀ t, (c.iter t).Perm t) (results : List (List Row)) :
    Listing c.unique c.reverse results
      (sortBy (FreqCmd.le c.reverse) (c.iter (results.foldl c.step ⟨[], 0⟩).table)) := by
  have hp := (sortBy_perm (FreqCmd.le c.reverse) (c.iter (results.foldl c.step ⟨[], 0⟩).table)).trans
    (hiter (results.foldl c.step ⟨[], 0⟩).table)
  refine ⟨fun row n => ?_, ?_⟩
  · rw [hp.mem_iff]; exact table_exact
  · have hs := sortBy_sorted (le_total c.reverse) (le_trans' c.reverse)
      (c.iter (results.foldl c.step ⟨[], 0⟩).table)
    have hinv := step_fold c results [] ⟨[], 0⟩ ⟨by simp, by intro row n; simp; omega⟩
    have hnd : ((sortBy (FreqCmd.le c.reverse) (c.iter (results.foldl c.step ⟨[], 0⟩).table)).map Prod.fst).Nodup :=
      (hp.map Prod.fst).nodup_iff.2 hinv.nodup
    have hnd' := List.pairwise_map.1 hnd
    exact (hs.and hnd').imp (fun h => le_before h.2 h.1)

/-! ## the output -/

theorem freq_emit_zero (c : FreqCmd) : ∀ (l : List (Row × Nat)) (i : Nat), c.num = 0 ∨ i ≤ c.num →
    c.emit i l = ((if c.num = 0 then l else l.take (c.num - i)).takeWhile
      (fun x => decide (c.threshold ≤ x.2))).map (fun x => (x.1.map c.text, x.2)) := by
  intro l
  induction l with
  | nil => intro i _; simp [FreqCmd.emit]
  | cons x l ih =>
    intro i hi
    obtain ⟨values, freq⟩ := x
    rw [FreqCmd.emit]
    by_cases h1 : c.num > 0 ∧ i ≥ c.num
    · rw [if_pos (by simpa using h1), if_neg (by omega), show c.num - i = 0 by omega]; simp
    · rw [if_neg (by simpa using h1)]
      have hlist : (if c.num = 0 then (values, freq) :: l else ((values, freq) :: l).take (c.num - i)) =
          (values, freq) :: (if c.num = 0 then l else l.take (c.num - (i + 1))) := by
        by_cases h0 : c.num = 0
        · rw [if_pos h0, if_pos h0]
        · rw [if_neg h0, if_neg h0, show c.num - i = (c.num - (i + 1)) + 1 by omega, List.take_succ_cons]
      rw [hlist, List.takeWhile_cons]
      by_cases h2 : freq < c.threshold
      · rw [if_pos h2, if_neg (by simpa using h2)]; rfl
      · rw [if_neg h2, if_pos (by simpa using h2), ih (i + 1) (by omega), List.map_cons]

/-- the results of the query on the counted records -/
def Results (c : FreqCmd) (rs : List ByteRecord) (results : List (List Row)) : Prop :=
  All2 (fun r rows => c.query.run c.E c.qo r.record = some rows) (limited c.limit (picked c.sel rs)) results

/-- everything about a finished run -/
theorem freq_run (c : FreqCmd) (hiter : ∀ t, (c.iter t).Perm t) (files : List (String × Bytes))
    (rs : List ByteRecord) (hi : Input files rs) (out : List (Row × Nat)) (h : c.run files = .ok out) :
    ∃ results full, Results c rs results ∧ Listing c.unique c.reverse results full ∧
      out = ((limited c.num full).takeWhile (fun x => decide (c.threshold ≤ x.2))).map
        (fun x => (x.1.map c.text, x.2)) := by
  unfold FreqCmd.run at h
  cases hl : c.loop files with
  | err e s => rw [hl] at h; simp at h
  | panic => rw [hl] at h; simp at h
  | ok s =>
    rw [hl] at h
    simp only [LoopResult.ok.injEq] at h
    obtain ⟨results, h1, h2⟩ := result_ok (cnt := FreqState.count) (g := c.step) (fun _ _ => rfl) hi rfl hl
    rw [chosen_eq_picked] at h1
    refine ⟨results, _, h1, listing_of_table c hiter results, ?_⟩
    rw [← h, freq_emit_zero c _ 0 (by omega), h2]
    rfl

/-- **C36** the output lists the rows with a frequency of at least the threshold,
with their exact number of occurrences, in the documented order, and of these the
first `num`.  The order of the hash map is irrelevant.
Missing: `--reverse` together with `--threshold` (see below). -/
theorem C36_descending_partial (c : FreqCmd) (hiter : ∀ t, (c.iter t).Perm t) (hr : c.reverse = false)
    (files : List (String × Bytes)) (rs : List ByteRecord) (hi : Input files rs)
    (out : List (Row × Nat)) (h : c.run files = .ok out) :
    ∃ results full, Results c rs results ∧ Listing c.unique false results full ∧
      out = (limited c.num (full.filter (fun x => decide (c.threshold ≤ x.2)))).map
        (fun x => (x.1.map c.text, x.2)) := by
  obtain ⟨results, full, h1, h2, h3⟩ := freq_run c hiter files rs hi out h
  rw [hr] at h2
  refine ⟨results, full, h1, h2, ?_⟩
  rw [h3]
  congr 1
  have key : ∀ (n : Nat) (l : List (Row × Nat)), l.Pairwise (Before false) →
      (l.take n).takeWhile (fun x => decide (c.threshold ≤ x.2)) =
        (l.filter (fun x => decide (c.threshold ≤ x.2))).take n := by
    intro n l hl
    induction l generalizing n with
    | nil => simp
    | cons x l ih =>
      rw [List.pairwise_cons] at hl
      cases n with
      | zero => simp
      | succ n =>
        rw [List.take_succ_cons, List.takeWhile_cons, List.filter_cons]
        by_cases hx : c.threshold ≤ x.2
        · rw [if_pos (by simpa using hx), if_pos (by simpa using hx), List.take_succ_cons, ih n hl.2]
        · rw [if_neg (by simpa using hx), if_neg (by simpa using hx)]
          have : l.filter (fun x => decide (c.threshold ≤ x.2)) = [] := by
            rw [List.filter_eq_nil_iff]
            intro y hy
            have hb := hl.1 y hy
            unfold Before at hb
            simp only [Bool.false_eq_true, if_false] at hb
            simp only [decide_eq_true_eq]
            omega
          rw [this]; simp
  unfold limited
  split
  · have := key full.length full h2.ordered
    rw [List.take_of_length_le (Nat.le_refl _), List.take_of_length_le (List.length_filter_le _ _)] at this
    exact this
  · exact key _ _ h2.ordered

/-- **C36** the same with `--reverse` and without threshold. -/
theorem C36_ascending_partial (c : FreqCmd) (hiter : ∀ t, (c.iter t).Perm t) (hr : c.reverse = true)
    (ht : c.threshold = 0) (files : List (String × Bytes)) (rs : List ByteRecord) (hi : Input files rs)
    (out : List (Row × Nat)) (h : c.run files = .ok out) :
    ∃ results full, Results c rs results ∧ Listing c.unique true results full ∧
      out = (limited c.num full).map (fun x => (x.1.map c.text, x.2)) := by
  obtain ⟨results, full, h1, h2, h3⟩ := freq_run c hiter files rs hi out h
  rw [hr] at h2
  refine ⟨results, full, h1, h2, ?_⟩
  rw [h3]
  congr 1
  have : (fun x : Row × Nat => decide (c.threshold ≤ x.2)) = fun _ => true := by
    funext x; simp [ht]
  rw [this]
  generalize limited c.num full = l
  induction l with
  | nil => rfl
  | cons x l ih => rw [List.takeWhile_cons, if_pos rfl, ih]

/-- **C36** is false with `--reverse` and a threshold: as soon as one row is rarer
than the threshold, nothing at all is written. -/
theorem C36_reverse_false (c : FreqCmd) (hiter : ∀ t, (c.iter t).Perm t) (hr : c.reverse = true)
    (files : List (String × Bytes)) (rs : List ByteRecord) (hi : Input files rs)
    (out : List (Row × Nat)) (h : c.run files = .ok out) (results : List (List Row))
    (hres : Results c rs results) (row : Row) (hu : Useful row) (h0 : 0 < occurrences c.unique results row)
    (hlow : occurrences c.unique results row < c.threshold) : out = [] := by
  obtain ⟨results', full, h1, h2, h3⟩ := freq_run c hiter files rs hi out h
  have he : results' = results := by
    unfold Results at h1 hres
    generalize limited c.limit (picked c.sel rs) = l at h1 hres
    clear h3 h2 h0 hlow
    induction h1 generalizing results with
    | nil => cases hres; rfl
    | cons ha _ ih =>
      cases hres with
      | cons hb hres =>
        rw [ha] at hb
        cases hb
        rw [ih _ hres]
  subst he
  have hmem : (row, occurrences c.unique results' row) ∈ full := (h2.exact _ _).2 ⟨hu, h0, rfl⟩
  rw [h3]
  cases hf : full with
  | nil => rw [hf] at hmem; simp at hmem
  | cons x l =>
    have hx : x.2 < c.threshold := by
      rw [hf] at hmem
      rcases List.mem_cons.1 hmem with hm | hm
      · rw [← hm]; exact hlow
      · have hb := (List.pairwise_cons.1 (hf ▸ h2.ordered)).1 _ hm
        unfold Before at hb
        rw [hr] at hb
        simp only [if_true] at hb
        omega
    have htw : ∀ n, ((x :: l).take n).takeWhile (fun x => decide (c.threshold ≤ x.2)) = [] := by
      intro n
      cases n with
      | zero => rfl
      | succ n => rw [List.take_succ_cons, List.takeWhile_cons, if_neg (by simpa using hx)]
    unfold limited
    split
    · have := htw (x :: l).length
      rw [List.take_of_length_le (Nat.le_refl _)] at this
      rw [this]; rfl
    · rw [htw]; rfl

/-- **C36** otherwise, if no row is rarer than the threshold, `--reverse` writes the whole
table in ascending order, and of it the first `num` rows: together with the theorem before,
this is all that `--reverse` does. -/
theorem C36_reverse_all_partial (c : FreqCmd) (hiter : ∀ t, (c.iter t).Perm t) (hr : c.reverse = true)
    (files : List (String × Bytes)) (rs : List ByteRecord) (hi : Input files rs)
    (out : List (Row × Nat)) (h : c.run files = .ok out) :
    ∃ results full, Results c rs results ∧ Listing c.unique true results full ∧
      ((∀ row, Useful row → 0 < occurrences c.unique results row → c.threshold ≤ occurrences c.unique results row) →
        out = (limited c.num full).map (fun x => (x.1.map c.text, x.2))) := by
  obtain ⟨results, full, h1, h2, h3⟩ := freq_run c hiter files rs hi out h
  rw [hr] at h2
  refine ⟨results, full, h1, h2, ?_⟩
  intro hall
  rw [h3]
  congr 1
  refine takeWhile_eq_self ?_
  intro x hx
  have hx' : x ∈ full := by
    unfold limited at hx
    split at hx
    · exact hx
    · exact List.mem_of_mem_take hx
  obtain ⟨h4, h5, h6⟩ := (h2.exact x.1 x.2).1 hx'
  have := hall x.1 h4 (by omega)
  simp only [decide_eq_true_eq]
  omega

/-- **C36** the command finishes when the invalid lines are skipped or absent and
lists, matcher and query do not panic. -/
theorem C36_finishes (c : FreqCmd) (files : List (String × Bytes)) (rs : List ByteRecord)
    (hi : Input files rs) (hc : c.skip = true ∨ AllValid files)
    (hp : ∀ r ∈ rs, NoPanic c.sel r.record)
    (hq : ∀ r ∈ rs, (c.query.run c.E c.qo r.record).isSome) : ∃ out, c.run files = .ok out := by
  obtain ⟨s, hs⟩ := result_clean (limit := c.limit) (cnt := FreqState.count) (g := c.step)
    (f := fun r => c.query.run c.E c.qo r.record)
    (fun _ _ => rfl) hi hc (fun r hr => test_total (hp r hr)) hq ⟨[], 0⟩ rfl
  unfold FreqCmd.run FreqCmd.loop
  rw [hs]; exact ⟨_, rfl⟩

/-- a frequency command on `003@.0`; the hash map is iterated backwards -/
def freqSample (unique reverse : Bool) (num threshold : Nat) : Option FreqCmd :=
  (queryM "003@.0").map (fun q => ⟨false, unique, reverse, num, threshold, 0, q, toyFmt,
    ⟨false, bs "|", false, false⟩, List.reverse, id, noSelection⟩)

/-- a record with the values 2, 1, 2 and an empty one -/
def freqLine : Bytes := bs "003@ " ++ [0x1F] ++ bs "02" ++ [0x1F] ++ bs "01" ++ [0x1F] ++ bs "02" ++ [0x1F] ++ bs "0" ++ [0x1E, 0x0A]

example : (freqSample false false 0 0).map (·.run [("a", recLine "3" ++ freqLine), ("b", recLine "1")]) =
    some (.ok [([bs "1"], 2), ([bs "2"], 2), ([bs "3"], 1)]) := by decide +kernel
example : (freqSample true false 0 0).map (·.run [("a", recLine "3" ++ freqLine), ("b", recLine "1")]) =
    some (.ok [([bs "1"], 2), ([bs "2"], 1), ([bs "3"], 1)]) := by decide +kernel
example : (freqSample false false 1 2).map (·.run [("a", recLine "3" ++ freqLine), ("b", recLine "1")]) =
    some (.ok [([bs "1"], 2)]) := by decide +kernel
example : (freqSample false true 2 0).map (·.run [("a", recLine "3" ++ freqLine), ("b", recLine "1")]) =
    some (.ok [([bs "3"], 1), ([bs "1"], 2)]) := by decide +kernel
/-- `--reverse --threshold 2`: nothing, although two rows occur twice -/
example : (freqSample false true 0 2).map (·.run [("a", recLine "3" ++ freqLine), ("b", recLine "1")]) =
    some (.ok []) := by decide +kernel

/-! ## the theorems on concrete files -/

/-- the values 3, 2, 1, 2, an empty one and 1 -/
def freqFiles : List (String × Bytes) := [("a", recLine "3" ++ freqLine), ("b", recLine "1")]

theorem freqSample_iter {unique reverse : Bool} {num threshold : Nat} (h : (freqSample unique reverse num threshold).isSome)
    (t : List (Row × Nat)) : (((freqSample unique reverse num threshold).get h).iter t).Perm t := by
  have : ((freqSample unique reverse num threshold).get h).iter = List.reverse := by
    simp [freqSample, Option.get_map]
  rw [this]; exact List.reverse_perm t

example := C36_descending_partial ((freqSample false false 1 2).get (by decide +kernel))
  (freqSample_iter _) (by decide +kernel) freqFiles _ (input_of _) [([bs "1"], 2)] (by decide +kernel)
example := C36_ascending_partial ((freqSample false true 2 0).get (by decide +kernel))
  (freqSample_iter _) (by decide +kernel) (by decide +kernel) freqFiles _ (input_of _)
  [([bs "3"], 1), ([bs "1"], 2)] (by decide +kernel)
example := C36_reverse_false ((freqSample false true 0 2).get (by decide +kernel))
  (freqSample_iter _) (by decide +kernel) freqFiles _ (input_of _) [] (by decide +kernel)
example := C36_reverse_all_partial ((freqSample false true 0 1).get (by decide +kernel))
  (freqSample_iter _) (by decide +kernel) freqFiles _ (input_of _)
  [([bs "3"], 1), ([bs "1"], 2), ([bs "2"], 2)] (by decide +kernel)
example := C36_finishes ((freqSample false true 0 1).get (by decide +kernel)) freqFiles _ (input_of _)
  (.inr (allValid_of (by decide +kernel))) (noPanic_of (by decide +kernel)) (by decide +kernel)

end Pica.Props
