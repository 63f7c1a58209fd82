import Verif.Lemmas.Csv
import Verif.Lemmas.IndepFmt
import Verif.Props.Query
import Verif.Props.Select
import Verif.Props.Frequency
import Verif.Props.Print
import Verif.Props.CheckOutput

/-!
# C75: the tables that are written can be read back

The grammar `CsvText` of Spec/Csv is unambiguous (`C75_unique`); each table that a
command writes belongs to it, with the header and the rows of the command.
-/

namespace Pica.Props

open Pica Spec

/-- **C75** a text is a table in at most one way -/
theorem C75_unique {d : Byte} (hd : Delimiter d) {t : Bytes} {rows rows' : List (List Bytes)}
    (h : CsvText d t rows) (h' : CsvText d t rows') : rows = rows' :=
  csvText_unique hd h h'

/-- **C75** the tables of `--append`: the rows of the new table follow those of the old one -/
theorem C75_append {d : Byte} {t t' : Bytes} {rows rows' : List (List Bytes)}
    (h : CsvText d t rows) (h' : CsvText d t' rows') : CsvText d (t ++ t') (rows ++ rows') := by
  induction h with
  | nil => exact h'
  | cons h hs ih =>
    rw [List.append_assoc, List.cons_append]
    exact .cons h ih

/-- the settings of the commands, except for `--quote-style never`: the delimiter can be told
from the rest, and what the csv crate takes for a number has no special characters -/
def Quoting (o : CsvOpts) : Prop :=
  Delimiter o.delimiter ∧ o.quotes ≠ .never ∧
    ∀ v, o.numeric v = true → ∀ c ∈ v, csvSpecial o.delimiter c = false

theorem quoting_safe {o : CsvOpts} (h : Quoting o) (v : Bytes) : o.Safe v := by
  have hs : ∀ c, csvSpecial o.delimiter c = false → c ≠ o.delimiter ∧ c ≠ 0x22 ∧ c ≠ 0x0D ∧ c ≠ LF := by
    intro c hc
    simpa [csvSpecial, and_assoc] using hc
  unfold CsvOpts.Safe CsvOpts.shouldQuote
  cases hq : o.quotes with
  | always => exact .inl rfl
  | never => exact absurd hq h.2.1
  | necessary =>
    by_cases ha : v.any (csvSpecial o.delimiter) = true
    · exact .inl ha
    · refine .inr fun c hc => hs c ?_
      cases hcs : csvSpecial o.delimiter c with
      | false => rfl
      | true => exact absurd (List.any_eq_true.2 ⟨c, hc, hcs⟩) ha
  | nonNumeric =>
    cases hn : o.numeric v with
    | false => exact .inl rfl
    | true => exact .inr fun c hc => hs c (h.2.2 v hn c hc)

/-- **C75** rows of one width, however quoted, can be read back from their text -/
theorem C75_rows {o : CsvOpts} (h : Quoting o) {n : Nat} (hn : 0 < n) {rows : List (List Bytes)}
    (hr : ∀ row ∈ rows, row.length = n) :
    (o.rows none rows).1 = true ∧
      ∀ rows', CsvText o.delimiter (o.rows none rows).2 rows' ↔ rows' = rows := by
  obtain ⟨h1, h2⟩ := csvRows_text (o := o) (w := none) rfl hn hr (fun _ _ v _ => quoting_safe h v)
  exact ⟨h1, fun rows' => ⟨fun h' => csvText_unique h.1 h' h2, fun e => e ▸ h2⟩⟩

/-- a table of `n` columns under an optional header -/
theorem tableEnd_ok {o : CsvOpts} (h : Quoting o) {n : Nat} (hn : 0 < n) {header : Option (List Bytes)}
    (hh : ∀ x, header = some x → x.length = n) {rows : List (List Bytes)}
    (hr : ∀ row ∈ rows, row.length = n) (e : TableEnd) :
    (tableEnd o (header.toList ++ rows) e).1 = e ∧
      ∀ rows', CsvText o.delimiter (tableEnd o (header.toList ++ rows) e).2 rows' ↔
        rows' = header.toList ++ rows := by
  have hall : ∀ row ∈ header.toList ++ rows, row.length = n := by
    intro row hrow
    rw [List.mem_append, Option.mem_toList] at hrow
    rcases hrow with hrow | hrow
    · exact hh row hrow
    · exact hr row hrow
  obtain ⟨h1, h2⟩ := C75_rows h hn hall
  refine ⟨?_, h2⟩
  unfold tableEnd
  rw [h1]
  rfl

/-- a header of another width: an error as soon as there is a row -/
theorem tableEnd_header {o : CsvOpts} {n : Nat} {header : List Bytes} (hh : header.length ≠ n)
    {rows : List (List Bytes)} (hr : ∀ row ∈ rows, row.length = n) (e : TableEnd) :
    (tableEnd o (header :: rows) e).1 = if rows = [] then e else .csv := by
  have : (o.rows none (header :: rows)).1 = true ↔ rows = [] := by
    rw [csvRows_ok_iff]
    constructor
    · intro h
      cases rows with
      | nil => rfl
      | cons row rows =>
        have h1 := h row (by simp)
        simp only [List.head?_cons, Option.map_some, Option.getD_some, Option.getD_none] at h1
        exact absurd (h1.symm.trans (hr row List.mem_cons_self)) hh
    · rintro rfl
      simp
  unfold tableEnd
  by_cases hr' : rows = []
  · rw [if_pos (this.2 hr'), if_pos hr']
  · rw [if_neg (fun h => hr' (this.1 h)), if_neg hr']

/-- the number of columns of a query -/
def width (q : Query) : Nat := (q.fragments.map columns).sum

/-- a parsed query has columns -/
theorem width_pos {rx : Bytes → Bool} {s s' : Levels} {text : Bytes} {q : Query}
    (h : Query.new rx s text = (some q, s')) : q.fragments ≠ [] ∧ 0 < width q := by
  obtain ⟨hne, _, ms, h1, h2⟩ := query_new_sound rx anyFmt ⟨false, [], false, false⟩ h
  refine ⟨hne, ?_⟩
  have key : ∀ {t ms}, QueryText rx anyFmt ⟨false, [], false, false⟩ t ms → ∀ m ∈ ms, 0 < m.1 := by
    have hf : ∀ {t n m}, FragText rx anyFmt ⟨false, [], false, false⟩ t n m → 0 < n := by
      intro t n m hf
      cases hf with
      | path _ hc => exact List.length_pos_iff.2 hc
      | literal _ => exact Nat.one_pos
      | format _ => exact Nat.one_pos
    intro t ms hq
    induction hq with
    | one hfr => intro m hm; rw [List.mem_singleton.1 hm]; exact hf hfr
    | more hfr _ _ ih =>
      intro m hm
      rcases List.mem_cons.1 hm with rfl | hm
      · exact hf hfr
      · exact ih m hm
  obtain ⟨fr, frs, hfrs⟩ := List.exists_cons_of_ne_nil hne
  obtain ⟨m, hm, he, _⟩ := h2.mem_left fr (by rw [hfrs]; exact List.mem_cons_self)
  have := key h1 m hm
  unfold width
  rw [hfrs, List.map_cons, List.sum_cons]
  omega

/-- a property of the state that every step keeps -/
theorem filesLoop_keeps {S : Type} {skip : Bool} {body : S → ByteRecord → Step S} {P : S → Prop}
    (hb : ∀ s r s', P s → body s r = .next s' ∨ body s r = .stop s' → P s')
    (files : List (String × Bytes)) (s s' : S) (hs : P s)
    (h : filesLoop skip id body files s = .ok s' ∨ ∃ e, filesLoop skip id body files s = .err e s') : P s' := by
  have key : ∀ (is : List Item) (s : S), P s →
      (∀ s', fileLoop skip id body is s = .eof s' → P s') ∧
      (∀ s', fileLoop skip id body is s = .done (.ok s') → P s') ∧
      (∀ e s', fileLoop skip id body is s = .done (.err e s') → P s') := by
    intro is
    induction is with
    | nil =>
      intro s hs
      refine ⟨fun s' h => ?_, fun s' h => ?_, fun e s' h => ?_⟩
      · simp only [fileLoop, FileEnd.eof.injEq] at h; exact h ▸ hs
      · simp [fileLoop] at h
      · simp [fileLoop] at h
    | cons i is ih =>
      intro s hs
      cases i with
      | error e =>
        simp only [fileLoop]
        split
        · exact ih _ hs
        · refine ⟨fun s' h => ?_, fun s' h => ?_, fun e s' h => ?_⟩
          · simp at h
          · simp at h
          · simp only [FileEnd.done.injEq, LoopResult.err.injEq] at h; exact h.2 ▸ hs
      | ok r =>
        simp only [fileLoop]
        cases hbr : body s r with
        | next s1 => exact ih _ (hb s r s1 hs (.inl hbr))
        | stop s1 =>
          refine ⟨fun s' h => ?_, fun s' h => ?_, fun e s' h => ?_⟩
          · simp at h
          · simp only [FileEnd.done.injEq, LoopResult.ok.injEq] at h; exact h ▸ hb s r s1 hs (.inr hbr)
          · simp at h
        | panic =>
          refine ⟨fun s' h => ?_, fun s' h => ?_, fun e s' h => ?_⟩ <;> simp at h
  induction files generalizing s with
  | nil =>
    simp only [filesLoop, LoopResult.ok.injEq, reduceCtorEq, exists_false, or_false] at h
    exact h ▸ hs
  | cons f fs ih =>
    obtain ⟨name, content⟩ := f
    simp only [filesLoop] at h
    obtain ⟨k1, k2, k3⟩ := key (readAll content (some name)) s hs
    cases hf : fileLoop skip id body (readAll content (some name)) s with
    | eof s1 => rw [hf] at h; exact ih s1 (k1 s1 hf) h
    | done r =>
      rw [hf] at h
      rcases h with h | ⟨e, h⟩
      · exact k2 s' (hf.trans (congrArg FileEnd.done h))
      · exact k3 e s' (hf.trans (congrArg FileEnd.done h))

/-- the rows of `select` have the width of the query -/
theorem select_width {c : SelectCmd} (hq : c.query.fragments ≠ []) {files : List (String × Bytes)}
    {s : SelectState} (h : c.run files = .ok s ∨ ∃ e, c.run files = .err e s) :
    ∀ row ∈ s.out, row.length = width c.query := by
  refine filesLoop_keeps (P := fun s : SelectState => ∀ row ∈ s.out, row.length = width c.query)
    ?_ files ⟨[], [], 0⟩ s (by simp) h
  intro s r s' hs hb
  have hstep : ∀ (rows : List (List Bytes)) (s : SelectState), (∀ row ∈ s.out, row.length = width c.query) →
      (∀ row ∈ rows, row.length = width c.query) →
      ∀ row ∈ (rows.foldl c.row s).out, row.length = width c.query := by
    intro rows
    induction rows with
    | nil => intro s hs _; exact hs
    | cons x rows ih =>
      intro s hs hr
      rw [List.foldl_cons]
      refine ih _ ?_ (fun row h => hr row (List.mem_cons_of_mem _ h))
      unfold SelectCmd.row
      split
      · exact hs
      · split
        · exact hs
        · have hx := hr x List.mem_cons_self
          have : (if c.unique = true then { s with seen := c.hash x :: s.seen } else s : SelectState).out
              = s.out := by
            split <;> rfl
          dsimp only
          split
          · simp only [this, List.mem_append, List.mem_singleton]
            rintro row (h | rfl)
            · exact hs row h
            · rw [List.length_map]; exact hx
          · rw [this]; exact hs
  unfold selBody at hb
  cases ht : c.sel.test r with
  | none => rw [ht] at hb; simp at hb
  | some b =>
    rw [ht] at hb
    cases b with
    | false =>
      simp only [Step.next.injEq, reduceCtorEq, or_false] at hb
      exact hb ▸ hs
    | true =>
      simp only [resultBody] at hb
      cases hrun : c.query.run c.E c.qo r.record with
      | none => rw [hrun] at hb; simp at hb
      | some rows =>
        rw [hrun] at hb
        have hw := (C24_rect c.E c.qo c.query r.record rows hq hrun).2.1
        have hs' : s' = c.step s rows := by
          simp only [limitStep] at hb
          split at hb
          · simpa [eq_comm] using hb
          · simpa [eq_comm] using hb
        rw [hs']
        exact hstep rows s hs hw

/-- **C75** `select`: without a header, or with one that has a name for each column, the
command does not fail in writing, and its text has exactly the header and the rows. -/
theorem C75_select (c : SelectCmd) (o : CsvOpts) (ho : Quoting o) {rx : Bytes → Bool} {l l' : Levels} {text : Bytes}
    (hq : Query.new rx l text = (some c.query, l')) (header : Option (List Bytes))
    (hh : ∀ x, header = some x → x.length = width c.query) (files : List (String × Bytes))
    (e : TableEnd) (t : Bytes) (h : c.table o header files = some (e, t)) :
    e ≠ .csv ∧ ∃ s, (c.run files = .ok s ∧ e = .ok ∨ ∃ er, c.run files = .err er s ∧ e = .read er) ∧
      ∀ rows, CsvText o.delimiter t rows ↔ rows = header.toList ++ s.out := by
  obtain ⟨hne, hn⟩ := width_pos hq
  unfold SelectCmd.table at h
  cases hr : c.run files with
  | panic => rw [hr] at h; simp at h
  | ok s =>
    obtain ⟨h1, h2⟩ := tableEnd_ok ho hn hh (select_width hne (.inl hr)) .ok
    rw [hr] at h
    simp only [Option.some.injEq] at h
    rw [h] at h1 h2
    simp only at h1 h2
    subst h1
    exact ⟨by simp, s, .inl ⟨rfl, rfl⟩, h2⟩
  | err er s =>
    obtain ⟨h1, h2⟩ := tableEnd_ok ho hn hh (select_width hne (.inr ⟨er, hr⟩)) (.read er)
    rw [hr] at h
    simp only [Option.some.injEq] at h
    rw [h] at h1 h2
    simp only at h1 h2
    subst h1
    exact ⟨by simp, s, .inr ⟨er, rfl, rfl⟩, h2⟩

/-- **C75** `select` with a header that does not have a name for each column fails as soon as there is a
row; before the run nothing is checked. -/
theorem C75_select_header (c : SelectCmd) (o : CsvOpts) (hq : c.query.fragments ≠ []) (header : List Bytes)
    (hh : header.length ≠ width c.query) (files : List (String × Bytes)) (s : SelectState) :
    (c.run files = .ok s →
      ∃ t, c.table o (some header) files = some (if s.out = [] then .ok else .csv, t)) ∧
    ∀ er, c.run files = .err er s →
      ∃ t, c.table o (some header) files = some (if s.out = [] then .read er else .csv, t) := by
  unfold SelectCmd.table
  constructor
  · intro h
    rw [h]
    refine ⟨(tableEnd o (header :: s.out) .ok).2, ?_⟩
    simp only [Option.toList_some, List.singleton_append]
    rw [← tableEnd_header (o := o) hh (select_width hq (.inl h)) .ok]
  · intro er h
    rw [h]
    refine ⟨(tableEnd o (header :: s.out) (.read er)).2, ?_⟩
    simp only [Option.toList_some, List.singleton_append]
    rw [← tableEnd_header (o := o) hh (select_width hq (.inr ⟨er, h⟩)) (.read er)]

/-- **C75** The status tells whether the table is complete: it is 0 if the command has ended
well, and 2 if the input or the header was bad. -/
theorem C75_status (e : TableEnd) : (e.status = 0 ↔ e = .ok) ∧ (e.status = 2 ↔ e ≠ .ok) := by
  cases e <;> simp [TableEnd.status, exitStatus]

/-- the rows of `frequency` have one more column than the query -/
theorem freq_width {c : FreqCmd} (hiter : ∀ t, (c.iter t).Perm t) (hq : c.query.fragments ≠ [])
    {files : List (String × Bytes)} {rs : List ByteRecord} (hi : Input files rs)
    {out : List (Row × Nat)} (h : c.run files = .ok out) :
    ∀ row ∈ out.map freqRow, row.length = width c.query + 1 := by
  obtain ⟨results, full, h1, h2, h3⟩ := freq_run c hiter files rs hi out h
  intro row hrow
  obtain ⟨x, hx, rfl⟩ := List.mem_map.1 hrow
  rw [h3] at hx
  obtain ⟨y, hy, rfl⟩ := List.mem_map.1 hx
  have hy' : y ∈ full := by
    have hl := (List.takeWhile_prefix _).subset hy
    unfold limited at hl
    split at hl
    · exact hl
    · exact List.mem_of_mem_take hl
  obtain ⟨row, n⟩ := y
  obtain ⟨_, h0, hocc⟩ := (h2.exact row n).1 hy'
  have hmem : row ∈ results.flatten := by
    unfold occurrences at hocc
    split at hocc
    · have : 0 < (results.filter (fun rows => decide (row ∈ rows))).length := by omega
      obtain ⟨rows, hrows⟩ := List.exists_mem_of_length_pos this
      rw [List.mem_filter, decide_eq_true_eq] at hrows
      exact List.mem_flatten.2 ⟨rows, hrows.1, hrows.2⟩
    · have : 0 < (results.flatten.filter (fun x => decide (x = row))).length := by omega
      obtain ⟨x, hx⟩ := List.exists_mem_of_length_pos this
      rw [List.mem_filter, decide_eq_true_eq] at hx
      exact hx.2 ▸ hx.1
  obtain ⟨rows, hrows, hr⟩ := List.mem_flatten.1 hmem
  obtain ⟨r, _, hrun⟩ := h1.mem_right rows hrows
  have := (C24_rect c.E c.qo c.query r.record rows hq hrun).2.1 row hr
  simp [freqRow, this, width]

/-- **C75** `frequency`: the header must have a name for each column and one for the
frequencies. -/
theorem C75_frequency (c : FreqCmd) (hiter : ∀ t, (c.iter t).Perm t) (o : CsvOpts) (ho : Quoting o)
    (hq : c.query.fragments ≠ []) (header : Option (List Bytes)) (files : List (String × Bytes))
    (rs : List ByteRecord) (hi : Input files rs) (out : List (Row × Nat)) (h : c.run files = .ok out) :
    ∃ e t, c.tableText o header files = some (e, t) ∧
      ((∀ x, header = some x → x.length = width c.query + 1) → e = .ok ∧
        ∀ rows, CsvText o.delimiter t rows ↔ rows = header.toList ++ out.map freqRow) ∧
      (∀ x, header = some x → x.length ≠ width c.query + 1 → e = if out = [] then .ok else .csv) := by
  have hw := freq_width hiter hq hi h
  unfold FreqCmd.tableText
  rw [h]
  refine ⟨_, _, rfl, fun hh => tableEnd_ok ho (Nat.succ_pos _) hh hw .ok, ?_⟩
  rintro x rfl hx
  have := tableEnd_header (o := o) hx hw .ok
  refine Eq.trans this ?_
  simp

/-- **C75** `frequency` writes nothing if a record of the input is bad -/
theorem C75_frequency_err (c : FreqCmd) (o : CsvOpts) (header : Option (List Bytes)) (files : List (String × Bytes))
    (e : ReadErr) (out : List (Row × Nat)) (h : c.run files = .err e out) :
    c.tableText o header files = some (.read e, []) := by
  unfold FreqCmd.tableText
  rw [h]

/-- **C75** `hash`: the header must have two names. -/
theorem C75_hash (c : HashCmd) (o : CsvOpts) (ho : Quoting o) (header : List Bytes)
    (files : List (String × Bytes)) (st : HashState) (fin : TableEnd)
    (h : c.run files = .ok st ∧ fin = .ok ∨ ∃ er, c.run files = .err er st ∧ fin = .read er) :
    ∃ e t, c.table o header files = some (e, t) ∧
      (header.length = 2 → e = fin ∧
        ∀ rows, CsvText o.delimiter t rows ↔ rows = header :: st.out.map (fun x => [x.1, x.2])) ∧
      (header.length ≠ 2 → e = if st.out = [] then fin else .csv) := by
  have hw : ∀ row ∈ st.out.map (fun x => [x.1, x.2]), row.length = 2 := by
    intro row hrow
    obtain ⟨x, _, rfl⟩ := List.mem_map.1 hrow
    rfl
  have ht : c.table o header files = some (tableEnd o (header :: st.out.map (fun x => [x.1, x.2])) fin) := by
    unfold HashCmd.table
    rcases h with ⟨h, rfl⟩ | ⟨er, h, rfl⟩ <;> rw [h]
  rw [ht]
  refine ⟨_, _, rfl, fun hh => ?_, ?_⟩
  · exact tableEnd_ok ho (n := 2) (by omega) (header := some header) (fun x e => by cases e; exact hh) hw fin
  · intro hx
    have := tableEnd_header (o := o) hx hw fin
    refine Eq.trans this ?_
    simp

/-- **C75** the delimiter of the reports: a tab if the name of the file ends in `.tsv`, else a comma -/
theorem C75_check_delimiter (numeric : Bytes → Bool) (path : Option Bytes) :
    (((ReportFormat.ofPath path).opts numeric).delimiter = 0x09 ↔
      ∃ stem, path = some (stem ++ bs ".tsv") ∧ utf8Valid (stem ++ bs ".tsv") = true) ∧
    (((ReportFormat.ofPath path).opts numeric).delimiter = 0x09 ∨
      ((ReportFormat.ofPath path).opts numeric).delimiter = 0x2C) := by
  rw [← (C68_format path).2.1]
  rcases (C68_format path).2.2 with h | h | h <;> rw [h] <;> simp [ReportFormat.opts]

/-- **C75** the reports of `check`, as a table with commas or tabs or as a list of PPNs, can be read
back -/
theorem C75_check (numeric : Bytes → Bool) (hnum : ∀ d v, numeric v = true → ∀ c ∈ v, csvSpecial d c = false)
    (path : Option Bytes) (reports : List Report) :
    ((writeReports path reports).text numeric).1 = true ∧
      ∀ rows, CsvText ((writeReports path reports).format.opts numeric).delimiter
        ((writeReports path reports).text numeric).2 rows ↔ rows = (writeReports path reports).rows := by
  have hf : ∀ (reports : List Report) (w : ReportWriter),
      (reports.foldl ReportWriter.write w).format = w.format := by
    intro reports
    induction reports with
    | nil => intro w; rfl
    | cons r reports ih =>
      intro w
      rw [List.foldl_cons, ih]
      unfold ReportWriter.write
      split
      · split <;> rfl
      · rfl
  have hfmt : (writeReports path reports).format = ReportFormat.ofPath path := hf _ _
  have ho : Quoting ((ReportFormat.ofPath path).opts numeric) := by
    rcases (C68_format path).2.2 with h | h | h
    · rw [h]; exact ⟨by simp [Delimiter, ReportFormat.opts, LF], by simp [ReportFormat.opts], hnum _⟩
    · rw [h]; exact ⟨by simp [Delimiter, ReportFormat.opts, LF], by simp [ReportFormat.opts], hnum _⟩
    · rw [h]; exact ⟨by simp [Delimiter, ReportFormat.opts, LF], by simp [ReportFormat.opts], hnum _⟩
  have hrow : ∀ (n : Nat) (w : ReportWriter), (w.format = .txt → n = 1) → (w.format ≠ .txt → n = 4) →
      ∀ (reports : List Report), (∀ row ∈ w.rows, row.length = n) →
      ∀ row ∈ (reports.foldl ReportWriter.write w).rows, row.length = n := by
    intro n w h1 h4 reports
    induction reports generalizing w with
    | nil => intro hw; exact hw
    | cons r reports ih =>
      intro hw
      rw [List.foldl_cons]
      have hfm := hf [r] w
      simp only [List.foldl_cons, List.foldl_nil] at hfm
      refine ih _ (by rw [hfm]; exact h1) (by rw [hfm]; exact h4) ?_
      unfold ReportWriter.write
      split
      · have h4' : n = 4 := h4 (by simp [*])
        split
        · simp only [List.mem_append, List.mem_singleton]
          rintro row (h | rfl)
          · exact hw row h
          · rw [h4']; rfl
        · simp only [List.mem_append, List.mem_cons, List.not_mem_nil, or_false]
          rintro row (h | rfl | rfl)
          · exact hw row h
          · rw [h4']; rfl
          · rw [h4']; rfl
      · have h1' : n = 1 := h1 (by simp [*])
        simp only [List.mem_append, List.mem_singleton]
        rintro row (h | rfl)
        · exact hw row h
        · rw [h1']; rfl
  unfold ReportWriter.text
  rw [hfmt]
  by_cases hx : ReportFormat.ofPath path = .txt
  · exact C75_rows ho (n := 1) (by omega)
      (hrow 1 ⟨ReportFormat.ofPath path, false, []⟩ (fun _ => rfl) (fun h => absurd hx h) reports (by simp))
  · exact C75_rows ho (n := 4) (by omega)
      (hrow 4 ⟨ReportFormat.ofPath path, false, []⟩ (fun h => absurd h hx) (fun _ => rfl) reports (by simp))

/-- **C75** is false with `--quote-style never`: different rows of the same width have the same text. -/
theorem C75_never_false (numeric : Bytes → Bool) :
    ∃ rows rows' : List (List Bytes), rows ≠ rows' ∧ (∀ row ∈ rows ++ rows', row.length = 2) ∧
      (CsvOpts.mk 0x2C .never numeric).rows none rows = (CsvOpts.mk 0x2C .never numeric).rows none rows' :=
  ⟨[[bs "a,b", bs "c"]], [[bs "a", bs "b,c"]], by decide +kernel, by decide +kernel, by
    have h1 : bs "a,b" = [0x61, 0x2C, 0x62] := by decide +kernel
    have h2 : bs "b,c" = [0x62, 0x2C, 0x63] := by decide +kernel
    have h3 : bs "a" = [0x61] := by decide +kernel
    have h4 : bs "c" = [0x63] := by decide +kernel
    simp [CsvOpts.rows, CsvOpts.row, CsvOpts.cells, CsvOpts.cell, CsvOpts.shouldQuote, h1, h2, h3, h4]⟩

/-- **C75** with `--quote-style never` rows whose cells have no special characters can be read back. -/
theorem C75_never_partial (o : CsvOpts) (hd : Delimiter o.delimiter) {n : Nat} (hn : 0 < n)
    {rows : List (List Bytes)} (hr : ∀ row ∈ rows, row.length = n)
    (hs : ∀ row ∈ rows, ∀ v ∈ row, ∀ c ∈ v, c ≠ o.delimiter ∧ c ≠ 0x22 ∧ c ≠ 0x0D ∧ c ≠ LF) :
    (o.rows none rows).1 = true ∧
      ∀ rows', CsvText o.delimiter (o.rows none rows).2 rows' ↔ rows' = rows := by
  obtain ⟨h1, h2⟩ := csvRows_text (o := o) (w := none) rfl hn hr (fun row h v hv => .inr (hs row h v hv))
  exact ⟨h1, fun rows' => ⟨fun h' => csvText_unique hd h' h2, fun e => e ▸ h2⟩⟩

/-- **C75** the delimiters of the commands: tabs with `--tsv`, commas without -/
theorem C75_delimiter : Delimiter (tableDelimiter true) ∧ Delimiter (tableDelimiter false) ∧
    [tableDelimiter true] = bs "\t" ∧ [tableDelimiter false] = bs "," :=
  ⟨⟨by decide, by decide, by decide⟩, ⟨by decide, by decide, by decide⟩, by decide +kernel, by decide +kernel⟩

/-! ## Examples -/

/-- settings with commas; digits are numbers -/
def csvSample (q : Quotes) : CsvOpts := ⟨0x2C, q, fun v => !v.isEmpty && v.all (fun c => 0x30 ≤ c && c ≤ 0x39)⟩

/-- the settings meet the hypothesis -/
example : Quoting (csvSample .nonNumeric) := by
  refine ⟨C75_delimiter.2.1, by simp [csvSample], fun v hv c hc => ?_⟩
  simp only [csvSample, Bool.and_eq_true, List.all_eq_true, decide_eq_true_eq] at hv
  obtain ⟨h1, h2⟩ := hv.2 c hc
  have h1 := UInt8.le_iff_toNat_le.1 h1
  have h2 := UInt8.le_iff_toNat_le.1 h2
  simp only [csvSpecial, csvSample, Bool.or_eq_false_iff, beq_eq_false_iff_ne]
  refine ⟨⟨⟨?_, ?_⟩, ?_⟩, ?_⟩ <;> · rintro rfl; revert h1 h2; decide

/-- quotes where they are needed, and a line feed in a cell -/
example : (csvSample .necessary).rows none [[bs "a,b", bs "1"], [bs "c\"d", bs "x\ny"]] =
    (true, bs "\"a,b\",1\n\"c\"\"d\",\"x\ny\"\n") := by decide +kernel
example : ((csvSample .nonNumeric).rows none [[bs "a", bs "1"]]).2 = bs "\"a\",1\n" := by decide +kernel
example : ((csvSample .always).rows none [[bs "a", bs "1"]]).2 = bs "\"a\",\"1\"\n" := by decide +kernel

/-- a row of one empty cell, and an empty table -/
example : (csvSample .necessary).rows none [[[]], [[]]] = (true, bs "\"\"\n\"\"\n") := by decide +kernel
example : (csvSample .never).rows none [] = (true, []) := by decide +kernel

/-- `select` with a header of the right width, -/
example : ((selectSample false false toyHash).bind (fun c => c.table (csvSample .necessary)
      (some (headerRow id (bs "a,b"))) [("a", selectLine "y" ++ selectLine "\"")])) =
    some (.ok, bs "a,b\nx,y\nx,\nx,\"\"\"\"\nx,\n") := by decide +kernel

/-- and with one of another width: the first row is written without its end, and the
status is 2 -/
example : ((selectSample false false toyHash).bind (fun c => c.table (csvSample .necessary)
      (some (headerRow id (bs "a,b,c"))) [("a", selectLine "y" ++ selectLine "z")])) =
    some (.csv, bs "a,b,c\nx,y") := by decide +kernel
example : TableEnd.csv.status = 2 := rfl
example : TableEnd.ok.status = 0 := rfl

/-- `frequency` -/
example : ((freqSample false false 0 0).bind (fun c => c.tableText (csvSample .necessary)
      (some (headerRow id (bs "id,n"))) [("a", freqLine)])) =
    some (.ok, bs "id,n\n2,2\n1,1\n") := by decide +kernel

/-- `hash` -/
example : (hashSample.table (csvSample .necessary) (headerRow id (bs "idn,hash")) [("a", recLine "1")]) =
    some (.ok, bs "idn,hash\n1,3030\n") := by decide +kernel

end Pica.Props
