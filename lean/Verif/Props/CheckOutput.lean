import Verif.Model.CheckOutput
import Verif.Props.Checks
import Verif.Props.CheckMessages
import Verif.Props.Args

/-! C68: how rule sets are initialised and how the reports are written. -/

namespace Pica.Props

open Pica Spec

/-- **C68** the format is chosen by the end of the name: `.txt` is a list of PPNs, `.tsv`
is separated by tabs, everything else, standard output and names that are not UTF-8 by
commas. -/
theorem C68_format (path : Option Bytes) :
    (ReportFormat.ofPath path = .txt ↔ ∃ stem, path = some (stem ++ bs ".txt") ∧ utf8Valid (stem ++ bs ".txt") = true) ∧
    (ReportFormat.ofPath path = .csv 0x09 ↔
      ∃ stem, path = some (stem ++ bs ".tsv") ∧ utf8Valid (stem ++ bs ".tsv") = true) ∧
    (ReportFormat.ofPath path = .txt ∨ ReportFormat.ofPath path = .csv 0x09 ∨ ReportFormat.ofPath path = .csv 0x2C) := by
  have hx : ∀ e s : Bytes, e ≠ [] → (e.isSuffixOf s = true ↔ ∃ stem, s = stem ++ e) := by
    intro e s _
    rw [List.isSuffixOf_iff_suffix]
    constructor
    · rintro ⟨t, h⟩; exact ⟨t, h.symm⟩
    · rintro ⟨t, h⟩; exact ⟨t, h.symm⟩
  have hdiff : ∀ a b : Bytes, a ++ bs ".txt" ≠ b ++ bs ".tsv" := by
    intro a b h
    have h1 : bs ".txt" = bs ".t" ++ [0x78, 0x74] := by decide +kernel
    have h2 : bs ".tsv" = bs ".t" ++ [0x73, 0x76] := by decide +kernel
    rw [h1, h2, ← List.append_assoc, ← List.append_assoc] at h
    have := (List.append_inj' h rfl).2
    revert this
    decide
  have ht : bs ".txt" ≠ [] := by decide +kernel
  have hv : bs ".tsv" ≠ [] := by decide +kernel
  have key : ∀ s : Bytes,
      ((if (bs ".txt").isSuffixOf s = true then ReportFormat.txt
        else if (bs ".tsv").isSuffixOf s = true then ReportFormat.csv 0x09 else ReportFormat.csv 0x2C) = .txt ↔
          ∃ stem, s = stem ++ bs ".txt") ∧
      ((if (bs ".txt").isSuffixOf s = true then ReportFormat.txt
        else if (bs ".tsv").isSuffixOf s = true then ReportFormat.csv 0x09 else ReportFormat.csv 0x2C) = .csv 0x09 ↔
          ∃ stem, s = stem ++ bs ".tsv") ∧
      ((if (bs ".txt").isSuffixOf s = true then ReportFormat.txt
        else if (bs ".tsv").isSuffixOf s = true then ReportFormat.csv 0x09 else ReportFormat.csv 0x2C) = .txt ∨
       (if (bs ".txt").isSuffixOf s = true then ReportFormat.txt
        else if (bs ".tsv").isSuffixOf s = true then ReportFormat.csv 0x09 else ReportFormat.csv 0x2C) = .csv 0x09 ∨
       (if (bs ".txt").isSuffixOf s = true then ReportFormat.txt
        else if (bs ".tsv").isSuffixOf s = true then ReportFormat.csv 0x09 else ReportFormat.csv 0x2C) = .csv 0x2C) := by
    intro s
    by_cases h1 : (bs ".txt").isSuffixOf s = true
    · rw [if_pos h1]
      obtain ⟨a, rfl⟩ := (hx _ _ ht).1 h1
      refine ⟨⟨fun _ => ⟨a, rfl⟩, fun _ => rfl⟩, ⟨by simp, ?_⟩, .inl rfl⟩
      rintro ⟨b, h⟩
      exact absurd h (hdiff a b)
    · rw [if_neg h1]
      have h1' : ¬ ∃ stem, s = stem ++ bs ".txt" := fun h => h1 ((hx _ _ ht).2 h)
      by_cases h2 : (bs ".tsv").isSuffixOf s = true
      · rw [if_pos h2]
        exact ⟨⟨by simp, fun h => absurd h h1'⟩, ⟨fun _ => (hx _ _ hv).1 h2, fun _ => rfl⟩, .inr (.inl rfl)⟩
      · rw [if_neg h2]
        exact ⟨⟨by simp, fun h => absurd h h1'⟩, ⟨by simp, fun h => absurd ((hx _ _ hv).2 h) h2⟩, .inr (.inr rfl)⟩
  unfold ReportFormat.ofPath
  cases path with
  | none =>
    dsimp only
    obtain ⟨k1, k2, k3⟩ := key []
    have hn : ∀ e : Bytes, e ≠ [] → ¬ ∃ stem : Bytes, [] = stem ++ e := by
      rintro e he ⟨a, h⟩
      exact he (List.append_eq_nil_iff.1 h.symm).2
    refine ⟨?_, ?_, k3⟩
    · rw [k1]
      exact ⟨fun h => absurd h (hn _ ht), by simp⟩
    · rw [k2]
      exact ⟨fun h => absurd h (hn _ hv), by simp⟩
  | some p =>
    dsimp only
    by_cases hu : utf8Valid p = true
    · rw [if_pos hu]
      obtain ⟨k1, k2, k3⟩ := key p
      refine ⟨?_, ?_, k3⟩
      · rw [k1]
        constructor
        · rintro ⟨a, rfl⟩; exact ⟨a, rfl, hu⟩
        · rintro ⟨a, h, _⟩; injection h with h; exact ⟨a, h⟩
      · rw [k2]
        constructor
        · rintro ⟨a, rfl⟩; exact ⟨a, rfl, hu⟩
        · rintro ⟨a, h, _⟩; injection h with h; exact ⟨a, h⟩
    · rw [if_neg hu]
      obtain ⟨k1, k2, k3⟩ := key []
      have hn : ∀ e : Bytes, e ≠ [] → ¬ ∃ stem : Bytes, [] = stem ++ e := by
        rintro e he ⟨a, h⟩
        exact he (List.append_eq_nil_iff.1 h.symm).2
      refine ⟨?_, ?_, k3⟩
      · rw [k1]
        refine ⟨fun h => absurd h (hn _ ht), ?_⟩
        rintro ⟨a, h, h'⟩
        injection h with h
        exact absurd (h ▸ h') hu
      · rw [k2]
        refine ⟨fun h => absurd h (hn _ hv), ?_⟩
        rintro ⟨a, h, h'⟩
        injection h with h
        exact absurd (h ▸ h') hu

example : ReportFormat.ofPath (some (bs "out.txt")) = .txt ∧ ReportFormat.ofPath (some (bs "out.tsv")) = .csv 0x09 ∧
    ReportFormat.ofPath (some (bs "out.txt.gz")) = .csv 0x2C ∧ ReportFormat.ofPath none = .csv 0x2C := by decide +kernel

/-- the cells of a row: PPN, rule, level and message, in this order -/
structure ReportRow (r : Report) (row : List Bytes) : Prop where
  four : row.length = 4
  ppn : row[0]? = some (r.ppn.getD [])
  rule : row[1]? = some r.rule
  level : row[2]? = some (match r.level with | .error => bs "error" | .warning => bs "warning" | .info => bs "info")
  message : row[3]? = some (r.message.getD [])

theorem report_row (r : Report) : ReportRow r r.row := by
  refine ⟨rfl, rfl, rfl, ?_, rfl⟩
  show some r.level.text = _
  cases r.level <;> rfl

theorem writeReports_csv (d : Byte) (reports : List Report) : ∀ w : ReportWriter, w.format = .csv d →
    (reports.foldl ReportWriter.write w).rows =
      w.rows ++ (if w.header = false ∧ reports ≠ [] then [reportHeader] else []) ++ reports.map Report.row := by
  induction reports with
  | nil => intro w _; simp
  | cons r reports ih =>
    intro w hw
    rw [List.foldl_cons]
    obtain ⟨f, h, rows⟩ := w
    dsimp only at hw
    subst hw
    cases h with
    | true =>
      rw [show ReportWriter.write ⟨.csv d, true, rows⟩ r = ⟨.csv d, true, rows ++ [r.row]⟩ from rfl, ih _ rfl]
      simp
    | false =>
      rw [show ReportWriter.write ⟨.csv d, false, rows⟩ r = ⟨.csv d, true, rows ++ [reportHeader, r.row]⟩ from rfl, ih _ rfl]
      simp

/-- **C68** a table has one row for each report, in their order, with PPN, rule, level and
message, below the names of the columns.  Missing: a run without reports, see below. -/
theorem C68_table_partial (path : Option Bytes) (hp : ReportFormat.ofPath path ≠ .txt) (reports : List Report)
    (hne : reports ≠ []) :
    ∃ rows, (writeReports path reports).rows = [bs "ppn", bs "rule", bs "level", bs "message"] :: rows ∧
      All2 ReportRow reports rows := by
  obtain ⟨d, hd⟩ : ∃ d, ReportFormat.ofPath path = .csv d := by
    cases h : ReportFormat.ofPath path with
    | csv d => exact ⟨d, rfl⟩
    | txt => exact absurd h hp
  refine ⟨reports.map Report.row, ?_, ?_⟩
  · unfold writeReports
    rw [writeReports_csv d reports _ hd]
    simp [hne, reportHeader]
  · clear hne
    induction reports with
    | nil => exact .nil
    | cons r reports ih => exact .cons (report_row r) ih

/-- **C68** a text file has one line for each report: its PPN, or an empty one. -/
theorem C68_text (path : Option Bytes) (hp : ReportFormat.ofPath path = .txt) (reports : List Report) :
    (writeReports path reports).rows = reports.map (fun r => [r.ppn.getD []]) := by
  have key : ∀ w : ReportWriter, w.format = .txt →
      (reports.foldl ReportWriter.write w).rows = w.rows ++ reports.map (fun r => [r.ppn.getD []]) := by
    induction reports with
    | nil => intro w _; simp
    | cons r reports ih =>
      intro w hw
      rw [List.foldl_cons]
      obtain ⟨f, h, rows⟩ := w
      dsimp only at hw
      subst hw
      rw [show ReportWriter.write ⟨.txt, h, rows⟩ r = ⟨.txt, h, rows ++ [[r.ppn.getD []]]⟩ from rfl, ih _ rfl]
      simp
  unfold writeReports
  rw [key _ hp]
  rfl

/-- **C68** is false without reports: the table does not even have the names of the
columns. -/
theorem C68_header_false (path : Option Bytes) : (writeReports path []).rows = [] := rfl

example : (writeReports (some (bs "a.csv")) [⟨some (bs "1"), bs "R", .warning, none⟩, ⟨none, bs "S", .error, some (bs "x")⟩]).rows =
    [[bs "ppn", bs "rule", bs "level", bs "message"], [bs "1", bs "R", bs "warning", []], [[], bs "S", bs "error", bs "x"]] := by
  decide +kernel
example : (writeReports (some (bs "a.txt")) [⟨some (bs "1"), bs "R", .warning, none⟩, ⟨none, bs "S", .error, some (bs "x")⟩]).rows =
    [[bs "1"], [[]]] := by decide +kernel

/-- the rule that a rule of the file becomes -/
inductive Loaded (tables : Bytes → Option Table) : Bytes × RawRule → CheckRule → Prop
  | allow {id tags level E o path filename column t cells values} (ht : tables filename = some t)
      (hc : UsedColumn (some column) t cells) (hv : ∀ v, v ∈ values ↔ some v ∈ cells) :
      Loaded tables (id, ⟨tags, level, .allow E o path filename column⟩) ⟨id, tags, level, .allow E o path values⟩
  | other {id tags level c} : Loaded tables (id, ⟨tags, level, .other c⟩) ⟨id, tags, level, c⟩

/-- the list of a rule can be read -/
def Readable (tables : Bytes → Option Table) (r : RawRule) : Prop :=
  ∀ E o path filename column, r.check = .allow E o path filename column →
    ∃ t cells, tables filename = some t ∧ UsedColumn (some column) t cells

theorem usedColumn_unique {column : Bytes} {t : Table} {a b : List (Option Bytes)} (ha : UsedColumn (some column) t a)
    (hb : UsedColumn (some column) t b) : a = b := by
  have h1 := listColumn_iff.2 ha
  rw [listColumn_iff.2 hb] at h1
  injection h1 with h1
  exact h1.symm

theorem initialize_spec (tables : Bytes → Option Table) (id : Bytes) (r : RawRule) :
    (∀ c, r.check.initialize tables = some c → Loaded tables (id, r) ⟨id, r.tags, r.level, c⟩) ∧
    ((r.check.initialize tables).isSome = true ↔ Readable tables r) := by
  obtain ⟨tags, level, check⟩ := r
  cases check with
  | other c =>
    constructor
    · intro c' h
      injection h with h
      subst h
      exact .other
    · refine ⟨fun _ _ _ _ _ _ h => by simp at h, fun _ => rfl⟩
  | allow E o path filename column =>
    unfold RawCheck.initialize
    dsimp only
    cases ht : tables filename with
    | none =>
      dsimp only
      refine ⟨by simp, by simp, ?_⟩
      intro h
      obtain ⟨t, _, h1, _⟩ := h E o path filename column rfl
      rw [ht] at h1
      simp at h1
    | some t =>
      obtain ⟨s1, s2⟩ := readFilterList_spec (some column) [t]
      dsimp only
      cases hr : readFilterList (some column) [t] with
      | none =>
        dsimp only
        refine ⟨by simp, by simp, ?_⟩
        intro h
        obtain ⟨t', cells, h1, h2⟩ := h E o path filename column rfl
        rw [ht] at h1
        injection h1 with h1
        subst h1
        obtain ⟨t'', h3, h4⟩ := s2 hr
        rw [List.mem_singleton.1 h3] at h4
        exact absurd h2 (h4 cells)
      | some l =>
        obtain ⟨h1, h2⟩ := s1 l hr
        obtain ⟨cells, hc⟩ := h2 t (by simp)
        rcases h1 with ⟨h1, _⟩ | ⟨vs, _, rfl, hvs⟩
        · simp at h1
        · dsimp only
          refine ⟨?_, ?_⟩
          · intro c h
            injection h with h
            subst h
            refine .allow ht hc ?_
            intro v
            rw [hvs]
            constructor
            · rintro ⟨t', ht', cells', h3, h4⟩
              rw [List.mem_singleton.1 ht'] at h3
              rw [usedColumn_unique hc h3]
              exact h4
            · intro h3
              exact ⟨t, by simp, cells, hc, h3⟩
          · refine ⟨fun _ E' o' p' f' c' he => ?_, fun _ => rfl⟩
            injection he with _ _ _ hf hcol
            subst hf hcol
            exact ⟨t, cells, ht, hc⟩

/-- **C68** a rule set is loaded iff the list of each `allow` rule can be read and has the
column; the rules are then those of the file, each with its name as `id`, and the list of
an `allow` rule are the cells of the column that are not null. -/
theorem C68_load (tables : Bytes → Option Table) (scope : Option RecordMatcher) (fast : Bool)
    (rules : List (Bytes × RawRule)) :
    (∀ s, RuleSet.load tables scope fast rules = some s →
      s.scope = scope ∧ s.fast = fast ∧ All2 (Loaded tables) rules s.rules) ∧
    ((RuleSet.load tables scope fast rules).isSome = true ↔ ∀ x ∈ rules, Readable tables x.2) := by
  have key : (∀ l, initRules tables rules = some l → All2 (Loaded tables) rules l) ∧
      ((initRules tables rules).isSome = true ↔ ∀ x ∈ rules, Readable tables x.2) := by
    induction rules with
    | nil =>
      refine ⟨?_, by simp [initRules]⟩
      intro l h
      injection h with h
      subst h
      exact .nil
    | cons x rules ih =>
      obtain ⟨id, r⟩ := x
      obtain ⟨ih1, ih2⟩ := ih
      obtain ⟨s1, s2⟩ := initialize_spec tables id r
      unfold initRules
      cases hc : r.check.initialize tables with
      | none =>
        rw [hc] at s2
        refine ⟨by simp, ?_⟩
        simp only [Option.isSome_none, Bool.false_eq_true, false_iff] at s2 ⊢
        intro h
        exact s2 (h _ (List.mem_cons_self ..))
      | some c =>
        rw [hc] at s2
        dsimp only
        constructor
        · intro l h
          obtain ⟨l', h1, h2⟩ := Option.map_eq_some_iff.1 h
          subst h2
          exact .cons (s1 c hc) (ih1 l' h1)
        · rw [Option.isSome_map, ih2, List.forall_mem_cons]
          exact ⟨fun h => ⟨s2.1 rfl, h⟩, fun h => h.2⟩
  unfold RuleSet.load
  constructor
  · intro s h
    obtain ⟨l, h1, h2⟩ := Option.map_eq_some_iff.1 h
    subst h2
    exact ⟨rfl, rfl, key.1 l h1⟩
  · rw [Option.isSome_map, key.2]

/-- **C68** an `allow` rule that has been loaded fires on a record without empty values
iff one of the selected values is not a cell of the column. -/
theorem C68_allow (tables : Bytes → Option Table) (C : CheckEnv) (hl : IsLossy C.lossy) (id : Bytes)
    (tags : Option (List Bytes)) (level : CheckLevel) (E : Env) (o : Opts) (path : Path) (filename column : Bytes)
    (rule : CheckRule) (h : Loaded tables (id, ⟨tags, level, .allow E o path filename column⟩) rule)
    (r : Record) (vs : List Bytes) (hv : path.values E o r = some vs) (hne : [] ∉ vs) :
    ∃ t cells b msg, tables filename = some t ∧ UsedColumn (some column) t cells ∧
      rule.check.check C r = some (rule.check, b, msg) ∧ (b = true ↔ ∃ v ∈ vs, some v ∉ cells) := by
  cases h with
  | allow ht hc hvs =>
    obtain ⟨b, msg, h1, h2⟩ := C42_fires_partial C hl _ E o path _ .allow r vs hv hne
    refine ⟨_, _, b, msg, ht, hc, h1, ?_⟩
    rw [h2]
    constructor
    · rintro ⟨v, h3, h4⟩
      exact ⟨v, h3, fun h5 => h4 ((hvs v).2 h5)⟩
    · rintro ⟨v, h3, h4⟩
      exact ⟨v, h3, fun h5 => h4 ((hvs v).1 h5)⟩

/-- one file with the column `code` -/
def codeTables (filename : Bytes) : Option Table :=
  if filename = bs "codes.csv" then some [(bs "name", [some (bs "German"), none]), (bs "code", [some (bs "ger"), none])]
  else none

example : Readable codeTables ⟨none, .error, .allow toyEnv ⟨false⟩ langPath (bs "codes.csv") (bs "code")⟩ := by
  intro E o path f c h
  injection h with _ _ _ hf hc
  subst hf hc
  exact ⟨_, [some (bs "ger"), none], if_pos rfl, _, [(bs "name", [some (bs "German"), none])], [], rfl,
    by decide +kernel, .inl rfl⟩
example : (RuleSet.load codeTables none true
      [(bs "L", ⟨none, .warning, .allow toyEnv ⟨false⟩ langPath (bs "codes.csv") (bs "code")⟩)]).map
      (fun s => s.rules.map (fun x => (x.run checkEnv (langRecord ["ger", "xxx"])).map (fun y => y.2.1))) =
    some [some [⟨none, bs "L", .warning, some (bs "xxx")⟩]] := by decide +kernel
example : (RuleSet.load codeTables none true
      [(bs "L", ⟨none, .warning, .allow toyEnv ⟨false⟩ langPath (bs "codes.csv") (bs "lang")⟩)]).isNone = true := by decide +kernel

end Pica.Props
