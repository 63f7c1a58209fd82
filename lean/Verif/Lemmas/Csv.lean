import Verif.Model.Csv
import Verif.Spec.Csv

/-! # Lemmas on CSV texts: the grammar is unambiguous, and the writer follows it -/

namespace Pica

open Spec

/-- texts in which quotes are doubled end at the first single quote -/
theorem doubled_unique {t v t' v' x y : Bytes} (h : Doubled t v) (h' : Doubled t' v')
    (hx : x.head? ≠ some 0x22) (hy : y.head? ≠ some 0x22)
    (e : t ++ 0x22 :: x = t' ++ 0x22 :: y) : v = v' ∧ x = y := by
  induction h generalizing t' v' with
  | nil =>
    cases h' with
    | nil => simpa using e
    | quote h' =>
      simp only [List.nil_append, List.cons_append, List.cons.injEq, true_and] at e
      rw [e] at hx; simp at hx
    | char hc h' =>
      simp only [List.nil_append, List.cons_append, List.cons.injEq] at e
      exact absurd e.1.symm hc
  | quote h ih =>
    cases h' with
    | nil =>
      simp only [List.nil_append, List.cons_append, List.cons.injEq, true_and] at e
      rw [← e] at hy; simp at hy
    | quote h' =>
      simp only [List.cons_append, List.cons.injEq, true_and] at e
      obtain ⟨rfl, rfl⟩ := ih h' e
      exact ⟨rfl, rfl⟩
    | char hc h' =>
      simp only [List.cons_append, List.cons.injEq] at e
      exact absurd e.1.symm hc
  | char hc h ih =>
    cases h' with
    | nil =>
      simp only [List.nil_append, List.cons_append, List.cons.injEq] at e
      exact absurd e.1 hc
    | quote h' =>
      simp only [List.cons_append, List.cons.injEq] at e
      exact absurd e.1 hc
    | char hc' h' =>
      simp only [List.cons_append, List.cons.injEq] at e
      obtain ⟨rfl, e⟩ := e
      obtain ⟨rfl, rfl⟩ := ih h' e
      exact ⟨rfl, rfl⟩

/-- texts without special characters end at the first delimiter or line feed -/
theorem plain_unique {d : Byte} {v v' x y : Bytes}
    (h : ∀ c ∈ v, c ≠ d ∧ c ≠ 0x22 ∧ c ≠ 0x0D ∧ c ≠ LF)
    (h' : ∀ c ∈ v', c ≠ d ∧ c ≠ 0x22 ∧ c ≠ 0x0D ∧ c ≠ LF)
    {a b : Byte} (ha : a = d ∨ a = LF) (hb : b = d ∨ b = LF)
    (e : v ++ a :: x = v' ++ b :: y) : v = v' ∧ a = b ∧ x = y := by
  induction v generalizing v' with
  | nil =>
    cases v' with
    | nil => simpa using e
    | cons c v' =>
      simp only [List.nil_append, List.cons_append, List.cons.injEq] at e
      have := h' c List.mem_cons_self
      rcases ha with ha | ha
      · exact absurd (e.1 ▸ ha) this.1
      · exact absurd (e.1 ▸ ha) this.2.2.2
  | cons c v ih =>
    cases v' with
    | nil =>
      simp only [List.nil_append, List.cons_append, List.cons.injEq] at e
      have := h c List.mem_cons_self
      rcases hb with hb | hb
      · exact absurd (e.1.trans hb) this.1
      · exact absurd (e.1.trans hb) this.2.2.2
    | cons c' v' =>
      simp only [List.cons_append, List.cons.injEq] at e
      obtain ⟨rfl, e⟩ := e
      obtain ⟨rfl, h1, h2⟩ := ih (fun c hc => h c (List.mem_cons_of_mem _ hc))
        (fun c hc => h' c (List.mem_cons_of_mem _ hc)) e
      exact ⟨rfl, h1, h2⟩

theorem cell_unique {d : Byte} (hd : Delimiter d) {t v t' v' x y : Bytes} (h : CsvCell d t v)
    (h' : CsvCell d t' v') {a b : Byte} (ha : a = d ∨ a = LF) (hb : b = d ∨ b = LF)
    (e : t ++ a :: x = t' ++ b :: y) : v = v' ∧ a = b ∧ x = y := by
  have hq : ∀ c : Byte, c = d ∨ c = LF → c ≠ 0x22 := by
    rintro c (rfl | rfl)
    · exact hd.1
    · decide
  cases h with
  | plain h =>
    cases h' with
    | plain h' => exact plain_unique h h' ha hb e
    | quoted h' =>
      exfalso
      cases t with
      | nil =>
        simp only [List.nil_append, List.cons_append, List.cons.injEq] at e
        exact hq a ha e.1
      | cons c t =>
        simp only [List.cons_append, List.cons.injEq] at e
        exact (h c List.mem_cons_self).2.1 e.1
  | quoted h =>
    cases h' with
    | plain h' =>
      exfalso
      cases t' with
      | nil =>
        simp only [List.nil_append, List.cons_append, List.cons.injEq] at e
        exact hq b hb e.1.symm
      | cons c t =>
        simp only [List.cons_append, List.cons.injEq] at e
        exact (h' c List.mem_cons_self).2.1 e.1.symm
    | quoted h' =>
      simp only [List.cons_append, List.append_assoc, List.nil_append, List.cons.injEq, true_and] at e
      obtain ⟨rfl, h2⟩ := doubled_unique h h' (by simpa using hq a ha) (by simpa using hq b hb) e
      simp only [List.cons.injEq] at h2
      exact ⟨rfl, h2⟩

theorem row_unique {d : Byte} (hd : Delimiter d) {t t' x y : Bytes} {vs vs' : List Bytes}
    (h : CsvRow d t vs) (h' : CsvRow d t' vs') (e : t ++ LF :: x = t' ++ LF :: y) :
    vs = vs' ∧ x = y := by
  induction h generalizing t' vs' with
  | last h =>
    cases h' with
    | last h' =>
      obtain ⟨rfl, _, rfl⟩ := cell_unique hd h h' (.inr rfl) (.inr rfl) e
      exact ⟨rfl, rfl⟩
    | cons h' hs' =>
      rw [List.append_assoc, List.cons_append] at e
      obtain ⟨_, hb, _⟩ := cell_unique hd h h' (.inr rfl) (.inl rfl) e
      exact absurd hb.symm hd.2.2
  | cons h hs ih =>
    cases h' with
    | last h' =>
      rw [List.append_assoc, List.cons_append] at e
      obtain ⟨_, hb, _⟩ := cell_unique hd h h' (.inl rfl) (.inr rfl) e
      exact absurd hb hd.2.2
    | cons h' hs' =>
      rw [List.append_assoc, List.cons_append, List.append_assoc, List.cons_append] at e
      obtain ⟨rfl, _, e⟩ := cell_unique hd h h' (.inl rfl) (.inl rfl) e
      obtain ⟨rfl, rfl⟩ := ih hs' e
      exact ⟨rfl, rfl⟩

/-- a text has the rows of at most one table -/
theorem csvText_unique {d : Byte} (hd : Delimiter d) {t : Bytes} {rows rows' : List (List Bytes)}
    (h : CsvText d t rows) (h' : CsvText d t rows') : rows = rows' := by
  induction h generalizing rows' with
  | nil =>
    generalize ht : ([] : Bytes) = t at h'
    cases h' with
    | nil => rfl
    | cons h hs => simp at ht
  | cons h hs ih =>
    rename_i t0 row ts rows
    generalize ht : t0 ++ LF :: ts = t at h'
    cases h' with
    | nil => simp at ht
    | cons h' hs' =>
      obtain ⟨rfl, rfl⟩ := row_unique hd h h' ht
      rw [ih hs']

theorem doubled_text (v : Bytes) :
    Doubled (v.flatMap (fun c => if c = QUOTE then [QUOTE, QUOTE] else [c])) v := by
  induction v with
  | nil => exact .nil
  | cons c v ih =>
    rw [List.flatMap_cons]
    by_cases hc : c = QUOTE
    · subst hc
      exact .quote ih
    · rw [if_neg hc]
      exact .char hc ih

theorem quoted_cell (d : Byte) (v : Bytes) : CsvCell d (csvQuoted v) v :=
  .quoted (doubled_text v)

/-- cells that the settings leave without quotes have no special characters -/
def CsvOpts.Safe (o : CsvOpts) (cell : Bytes) : Prop :=
  o.shouldQuote cell = true ∨ ∀ c ∈ cell, c ≠ o.delimiter ∧ c ≠ 0x22 ∧ c ≠ 0x0D ∧ c ≠ LF

theorem cell_text {o : CsvOpts} {v : Bytes} (h : o.Safe v) : CsvCell o.delimiter (o.cell v) v := by
  unfold CsvOpts.cell
  split
  · exact quoted_cell _ _
  · rename_i hq
    rcases h with h | h
    · exact absurd h hq
    · exact .plain h

theorem cells_text {o : CsvOpts} {row : List Bytes} (hne : row ≠ []) (h : ∀ v ∈ row, o.Safe v) :
    CsvRow o.delimiter (o.cells row) row := by
  induction row with
  | nil => exact absurd rfl hne
  | cons v row ih =>
    cases row with
    | nil => exact .last (cell_text (h v List.mem_cons_self))
    | cons w row =>
      exact .cons (cell_text (h v List.mem_cons_self))
        (ih (by simp) (fun x hx => h x (List.mem_cons_of_mem _ hx)))

/-- only a row of one empty cell has an empty text -/
theorem cells_empty {o : CsvOpts} {row : List Bytes} (hne : row ≠ []) (h : o.cells row = []) :
    row = [[]] := by
  cases row with
  | nil => exact absurd rfl hne
  | cons v row =>
    cases row with
    | nil =>
      simp only [CsvOpts.cells, CsvOpts.cell] at h
      split at h
      · simp [csvQuoted] at h
      · rw [h]
    | cons w row => simp [CsvOpts.cells] at h

theorem csvRow_text {o : CsvOpts} {row : List Bytes} (hne : row ≠ []) (h : ∀ v ∈ row, o.Safe v) :
    ∃ t, o.row row = t ++ [LF] ∧ CsvRow o.delimiter t row := by
  unfold CsvOpts.row
  by_cases he : o.cells row = []
  · refine ⟨[QUOTE, QUOTE], by rw [he]; rfl, ?_⟩
    rw [cells_empty hne he]
    exact .last (quoted_cell _ [])
  · refine ⟨o.cells row, ?_, cells_text hne h⟩
    rw [if_neg (by simpa using he)]

/-- rows of one width are written, and their text belongs to the grammar -/
theorem csvRows_text {o : CsvOpts} {rows : List (List Bytes)} {w : Option Nat} {n : Nat} (hw : w.getD n = n)
    (hn : 0 < n) (hr : ∀ row ∈ rows, row.length = n) (h : ∀ row ∈ rows, ∀ v ∈ row, o.Safe v) :
    (o.rows w rows).1 = true ∧ CsvText o.delimiter (o.rows w rows).2 rows := by
  induction rows generalizing w with
  | nil => exact ⟨rfl, .nil⟩
  | cons row rows ih =>
    have hl := hr row List.mem_cons_self
    rw [CsvOpts.rows, if_pos (by rw [hl]; exact hw)]
    obtain ⟨i1, i2⟩ := ih (w := some row.length) (by simpa using hl)
      (fun x hx => hr x (List.mem_cons_of_mem _ hx)) (fun x hx => h x (List.mem_cons_of_mem _ hx))
    refine ⟨i1, ?_⟩
    obtain ⟨t, h1, h2⟩ := csvRow_text (o := o) (row := row) (by intro he; rw [he] at hl; simp at hl; omega)
      (h row List.mem_cons_self)
    rw [h1, List.append_assoc]
    exact .cons h2 i2

/-- the writer succeeds iff all rows have the width of the first one -/
theorem csvRows_ok_iff {o : CsvOpts} {rows : List (List Bytes)} {w : Option Nat} :
    (o.rows w rows).1 = true ↔
      ∀ row ∈ rows, row.length = w.getD ((rows.head?.map List.length).getD 0) := by
  induction rows generalizing w with
  | nil => simp [CsvOpts.rows]
  | cons row rows ih =>
    rw [CsvOpts.rows]
    simp only [List.head?_cons, Option.map_some, Option.getD_some]
    by_cases hw : w.getD row.length = row.length
    · rw [if_pos hw]
      simp only
      rw [ih]
      simp [hw]
    · rw [if_neg hw]
      simp only [Bool.false_eq_true, List.mem_cons, forall_eq_or_imp, false_iff, not_and]
      intro h
      exact absurd h.symm hw

end Pica
