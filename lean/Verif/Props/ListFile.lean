import Verif.Model.ListFile
import Verif.Props.Args
import Verif.Props.Csv
import Verif.Props.CheckOutput
import Verif.Props.Print
import Verif.Props.Filter

/-! C80: tables that are written by a command and read as lists by another one. -/

namespace Pica.Props
open Pica Spec

/-! ## the reader -/

/-- a cell as polars reads it: an empty one may be null -/
def Cell (v : Bytes) (x : Option Bytes) : Prop := x = some v ∨ (v = [] ∧ x = none)

/-- what is assumed of the CSV reader of polars: it reads tables that the csv crate has
written.  The names of the columns are distinct and not empty, and all cells are UTF-8. -/
structure Faithful (R : ListReader) : Prop where
  header : ∀ (o : CsvOpts) (h : List Bytes) (rows : List (List Bytes)), Quoting o →
    (o.delimiter = 0x2C ∨ o.delimiter = 0x09) → h ≠ [] → h.Nodup → (∀ n ∈ h, n ≠ []) →
    (∀ row ∈ rows, row.length = h.length) → (∀ row ∈ h :: rows, ∀ v ∈ row, utf8Valid v = true) →
    ∃ t, R.csv o.delimiter true (o.rows none (h :: rows)).2 = some t ∧ t.map (·.1) = h ∧
      ∀ (j : Nat) name cells, t[j]? = some (name, cells) → All2 (fun row x => ∃ v, row[j]? = some v ∧ Cell v x) rows cells
  list : ∀ (o : CsvOpts) (vs : List Bytes), Quoting o → o.delimiter = 0x2C → vs ≠ [] →
    (∀ v ∈ vs, utf8Valid v = true) →
    ∃ cells, R.csv 0x2C false (o.rows none (vs.map (fun v => [v]))).2 = some [(bs "column_1", cells)] ∧ All2 Cell vs cells

/-- the option `--filter-set-column` chooses the column with this name -/
def Chooses (column : Option Bytes) (h : List Bytes) (name : Bytes) : Prop :=
  column = some name ∨ (column = none ∧ (name = bs "ppn" ∨ (name = bs "idn" ∧ bs "ppn" ∉ h)))

/-- the separator of a format -/
def ListKind.Separates : ListKind → Byte → Prop
  | .tsv, d => d = 0x09
  | .csv, d => d = 0x2C
  | _, _ => False

theorem cells_mem {rows : List (List Bytes)} {cells : List (Option Bytes)} {j : Nat}
    (h : All2 (fun row x => ∃ v, row[j]? = some v ∧ Cell v x) rows cells) {v : Bytes} (hv : v ≠ []) :
    some v ∈ cells ↔ ∃ row ∈ rows, row[j]? = some v := by
  constructor
  · intro hm
    obtain ⟨row, h1, w, h2, h3⟩ := h.mem_right _ hm
    rcases h3 with h3 | ⟨-, h3⟩
    · rw [Option.some.inj h3]; exact ⟨row, h1, h2⟩
    · simp at h3
  · rintro ⟨row, h1, h2⟩
    obtain ⟨x, h3, w, h4, h5⟩ := h.mem_left _ h1
    rw [h2] at h4
    obtain rfl := Option.some.inj h4
    rcases h5 with rfl | ⟨h5, -⟩
    · exact h3
    · exact absurd h5 hv

/-- **C80** (tables) A table that was written with the csv crate, below the names of its
columns, is read under every name that stands for its separator, and the list has exactly
the values of the chosen column. -/
theorem C80_table (R : ListReader) (hR : Faithful R) (o : CsvOpts) (ho : Quoting o) (path : Bytes)
    (hk : ListKind.Separates (.ofPath path) o.delimiter) (h : List Bytes) (hd : h.Nodup) (hn : ∀ n ∈ h, n ≠ [])
    (rows : List (List Bytes)) (hw : ∀ row ∈ rows, row.length = h.length)
    (hu : ∀ row ∈ h :: rows, ∀ v ∈ row, utf8Valid v = true) (j : Nat) (name : Bytes) (hj : h[j]? = some name)
    (column : Option Bytes) (hc : Chooses column h name) :
    ∃ t cells, R.read path (o.rows none (h :: rows)).2 = some t ∧ UsedColumn column t cells ∧
      ∀ v, v ≠ [] → (some v ∈ cells ↔ ∃ row ∈ rows, row[j]? = some v) := by
  have hne : h ≠ [] := by rintro rfl; simp at hj
  have hcase : o.delimiter = 0x2C ∧ ListKind.ofPath path = .csv ∨ o.delimiter = 0x09 ∧ ListKind.ofPath path = .tsv := by
    cases hp : ListKind.ofPath path <;> rw [hp] at hk
    · exact hk.elim
    · exact .inr ⟨hk, rfl⟩
    · exact hk.elim
    · exact .inl ⟨hk, rfl⟩
  obtain ⟨t, ht, hm, hcol⟩ := hR.header o h rows ho (hcase.imp (·.1) (·.1)) hne hd hn hw hu
  have hread : R.read path (o.rows none (h :: rows)).2 = some t := by
    unfold ListReader.read
    rcases hcase with ⟨h1, h2⟩ | ⟨h1, h2⟩ <;> rw [h2] <;> dsimp only <;> rw [← h1, ht]
  have hjt : ∃ cells, t[j]? = some (name, cells) := by
    rw [← hm, List.getElem?_map, Option.map_eq_some_iff] at hj
    obtain ⟨⟨n, cells⟩, h1, rfl⟩ := hj
    exact ⟨cells, h1⟩
  obtain ⟨cells, hcells⟩ := hjt
  refine ⟨t, cells, hread, ?_, fun v hv => cells_mem (hcol j name cells hcells) hv⟩
  obtain ⟨hlt, hget⟩ := List.getElem?_eq_some_iff.1 hcells
  refine ⟨name, t.take j, t.drop (j + 1), ?_, ?_, ?_⟩
  · rw [← hget, List.getElem_cons_drop, List.take_append_drop]
  · intro x hx hxn
    obtain ⟨i, hi, rfl⟩ := List.getElem_of_mem hx
    rw [List.length_take] at hi
    have hij : i < j := by omega
    have hit : i < t.length := by omega
    rw [List.getElem_take] at hxn
    have h1 : h[i]? = some name := by
      rw [← hm, List.getElem?_map, List.getElem?_eq_getElem hit, Option.map_some, hxn]
    have h2 := (List.nodup_iff_getElem?_ne_getElem?.1 hd) i j hij (by
      rw [← hm, List.length_map]; exact hlt)
    exact h2 (h1.trans hj.symm)
  · rcases hc with hc | ⟨hc, h1 | ⟨h1, h2⟩⟩
    · exact .inl hc
    · exact .inr ⟨hc, .inl h1⟩
    · refine .inr ⟨hc, .inr ⟨h1, fun x hx hxn => h2 ?_⟩⟩
      rw [← hm, ← hxn]
      exact List.mem_map_of_mem hx

/-- **C80** (lists of one column) The same for files without a header that end with `txt`. -/
theorem C80_text (R : ListReader) (hR : Faithful R) (o : CsvOpts) (ho : Quoting o) (hd : o.delimiter = 0x2C)
    (path : Bytes) (hk : ListKind.ofPath path = .txt) (vs : List Bytes) (hne : vs ≠ [])
    (hu : ∀ v ∈ vs, utf8Valid v = true) (column : Option Bytes) (hc : column = none ∨ column = some (bs "ppn")) :
    ∃ t cells, R.read path (o.rows none (vs.map (fun v => [v]))).2 = some t ∧ UsedColumn column t cells ∧
      ∀ v, v ≠ [] → (some v ∈ cells ↔ v ∈ vs) := by
  obtain ⟨cells, h1, h2⟩ := hR.list o vs ho hd hne hu
  refine ⟨[(bs "ppn", cells)], cells, ?_, ?_, ?_⟩
  · unfold ListReader.read
    rw [hk]
    dsimp only
    rw [h1]
    simp [Table.rename]
  · refine ⟨bs "ppn", [], [], rfl, by simp, ?_⟩
    rcases hc with hc | hc
    · exact .inr ⟨hc, .inl rfl⟩
    · exact .inl hc
  · intro v hv
    constructor
    · intro hm
      obtain ⟨w, h3, h4 | ⟨-, h4⟩⟩ := h2.mem_right _ hm
      · rw [Option.some.inj h4]; exact h3
      · simp at h4
    · intro hm
      obtain ⟨x, h3, rfl | ⟨h4, -⟩⟩ := h2.mem_left _ hm
      · exact h3
      · exact absurd h4 hv

/-- **C80** (records) With a list, `--allow` admits exactly the records one of whose values
is in the list, `--deny` exactly the others. -/
theorem C80_records (E₀ : Env) (source : Option Path) (column : Option Bytes) (t : Table) (cells : List (Option Bytes))
    (ht : UsedColumn column t cells) (P : Bytes → Prop) (hP : ∀ v, v ≠ [] → (some v ∈ cells ↔ P v)) (r : Record)
    (vs : List Bytes) (hvs : (source.getD Path.ppnPath).values E₀ ⟨false⟩ r = some vs) (hne : ∀ v ∈ vs, v ≠ []) :
    (∃ fs, FilterSet.build source column [t] [] = some fs ∧ ∃ b, fs.check E₀ r = some b ∧ (b = true ↔ ∃ v ∈ vs, P v)) ∧
    (∃ fs, FilterSet.build source column [] [t] = some fs ∧ ∃ b, fs.check E₀ r = some b ∧ (b = true ↔ ∀ v ∈ vs, ¬ P v)) := by
  have huniq : ∀ c, UsedColumn column t c → c = cells := by
    intro c h
    rw [← listColumn_iff] at h ht
    rw [ht] at h
    exact (Option.some.inj h).symm
  have hpath : ∀ allow deny fs, FilterSet.build source column allow deny = some fs → fs.path = source.getD Path.ppnPath := by
    intro allow deny fs h
    unfold FilterSet.build at h
    split at h
    · simp at h
    · split at h
      · simp at h
      · rw [← Option.some.inj h]
  have hcheck : ∀ fs : FilterSet, fs.path = source.getD Path.ppnPath →
      ∃ b, fs.check E₀ r = some b ∧ (b = true ↔ Admitted fs.allow fs.deny vs) := by
    intro fs hf
    obtain ⟨h1, h2⟩ := C29_check E₀ fs r vs (by rw [hf]; exact hvs)
    by_cases h : Admitted fs.allow fs.deny vs
    · exact ⟨true, h1.2 h, by simp [h]⟩
    · exact ⟨false, h2.2 h, by simp [h]⟩
  constructor
  · have hs := (C62_lists source column [t] []).2.2 (by
      intro x hx
      simp only [List.append_nil, List.mem_singleton] at hx
      exact ⟨cells, hx ▸ ht⟩)
    obtain ⟨fs, hfs⟩ := Option.isSome_iff_exists.1 hs
    obtain ⟨b, hb, hiff⟩ := hcheck fs (hpath _ _ _ hfs)
    refine ⟨fs, hfs, b, hb, hiff.trans ?_⟩
    rw [C62_admitted source column [t] [] fs hfs vs]
    constructor
    · rintro ⟨-, h | ⟨v, hv, x, hx, c, hc, hm⟩⟩
      · simp at h
      · rw [List.mem_singleton.1 hx] at hc
        rw [huniq c hc] at hm
        exact ⟨v, hv, (hP v (hne v hv)).1 hm⟩
    · rintro ⟨v, hv, h⟩
      exact ⟨by simp, .inr ⟨v, hv, t, by simp, cells, ht, (hP v (hne v hv)).2 h⟩⟩
  · have hs := (C62_lists source column [] [t]).2.2 (by
      intro x hx
      simp only [List.nil_append, List.mem_singleton] at hx
      exact ⟨cells, hx ▸ ht⟩)
    obtain ⟨fs, hfs⟩ := Option.isSome_iff_exists.1 hs
    obtain ⟨b, hb, hiff⟩ := hcheck fs (hpath _ _ _ hfs)
    refine ⟨fs, hfs, b, hb, hiff.trans ?_⟩
    rw [C62_admitted source column [] [t] fs hfs vs]
    constructor
    · rintro ⟨h, -⟩ v hv hpv
      exact h v hv t (by simp) cells ht ((hP v (hne v hv)).2 hpv)
    · intro h
      refine ⟨fun v hv x hx c hc hm => ?_, .inl rfl⟩
      rw [List.mem_singleton.1 hx] at hc
      rw [huniq c hc] at hm
      exact h v hv ((hP v (hne v hv)).1 hm)

/-! ## the commands -/

theorem hexText_utf8 (d : Bytes) : utf8Valid (hexText d) = true := by
  apply utf8Valid_ascii
  intro x hx
  unfold hexText at hx
  obtain ⟨b, -, hb⟩ := List.mem_flatMap.1 hx
  have key : ∀ n : Fin 256, ∀ x ∈ hexByte (UInt8.ofNat n), x < 0x80 := by decide +kernel
  have := key ⟨b.toNat, b.toNat_lt⟩
  rw [show UInt8.ofNat (⟨b.toNat, b.toNat_lt⟩ : Fin 256).val = b from UInt8.ofNat_toNat] at this
  exact this x hb

/-- **C80** (hash) The table of `hash` is a list of the IDNs of the records that were hashed. -/
theorem C80_hash (R : ListReader) (hR : Faithful R) (c : HashCmd) (hl : ∀ v, utf8Valid (c.lossy v) = true)
    (o : CsvOpts) (ho : Quoting o) (path : Bytes) (hk : ListKind.Separates (.ofPath path) o.delimiter) (h₁ h₂ : Bytes)
    (hne : h₁ ≠ h₂ ∧ h₁ ≠ [] ∧ h₂ ≠ []) (hu : utf8Valid h₁ = true ∧ utf8Valid h₂ = true) (column : Option Bytes)
    (hc : Chooses column [h₁, h₂] h₁) (files : List (String × Bytes)) (rs : List ByteRecord) (hi : Input files rs)
    (st : HashState) (h : c.run files = .ok st) :
    ∃ text t cells, c.table o [h₁, h₂] files = some (.ok, text) ∧ R.read path text = some t ∧ UsedColumn column t cells ∧
      ∀ v, v ≠ [] → (some v ∈ cells ↔ ∃ r ∈ limited c.limit (picked c.sel rs), c.lossy (idnText r.record) = v) := by
  have hw : ∀ row ∈ st.out.map (fun x => [x.1, x.2]), row.length = 2 := by
    intro row hrow
    obtain ⟨x, -, rfl⟩ := List.mem_map.1 hrow
    rfl
  have hrows := C52_rows c files rs hi st h
  obtain ⟨t, cells, h1, h2, h3⟩ := C80_table R hR o ho path hk [h₁, h₂] (by simpa using hne.1)
    (by simpa using hne.2) (st.out.map (fun x => [x.1, x.2])) hw (by
      intro row hrow v hv
      rcases List.mem_cons.1 hrow with rfl | hrow
      · simp only [List.mem_cons, List.not_mem_nil, or_false] at hv
        rcases hv with rfl | rfl
        · exact hu.1
        · exact hu.2
      · obtain ⟨x, hx, rfl⟩ := List.mem_map.1 hrow
        rw [hrows] at hx
        obtain ⟨r, -, rfl⟩ := List.mem_map.1 hx
        simp only [List.mem_cons, List.not_mem_nil, or_false] at hv
        rcases hv with rfl | rfl
        · exact hl _
        · exact hexText_utf8 _) 0 h₁ rfl column hc
  refine ⟨_, t, cells, ?_, h1, h2, fun v hv => (h3 v hv).trans ?_⟩
  · unfold HashCmd.table
    rw [h]
    dsimp only
    rw [show tableEnd o ([h₁, h₂] :: st.out.map (fun x => [x.1, x.2])) .ok =
      (.ok, (o.rows none ([h₁, h₂] :: st.out.map (fun x => [x.1, x.2]))).2) from ?_]
    unfold tableEnd
    rw [(C75_rows ho (n := 2) (by omega) (rows := [h₁, h₂] :: st.out.map (fun x => [x.1, x.2])) (by
      intro row hrow
      rcases List.mem_cons.1 hrow with rfl | hrow
      · rfl
      · exact hw row hrow)).1]
    rfl
  · rw [hrows]
    simp

/-- **C80** (pipeline) `hash` with a filter and then a command with `--allow` and the table of
`hash` selects the records that the filter selects, if every record has one IDN of its own. -/
theorem C80_pipeline (R : ListReader) (hR : Faithful R) (c : HashCmd) (hl : ∀ v, utf8Valid (c.lossy v) = true)
    (hl' : ∀ v, utf8Valid v = true → c.lossy v = v) (hlim : c.limit = 0)
    (o : CsvOpts) (ho : Quoting o) (path : Bytes) (hk : ListKind.Separates (.ofPath path) o.delimiter) (h₁ h₂ : Bytes)
    (hne : h₁ ≠ h₂ ∧ h₁ ≠ [] ∧ h₂ ≠ []) (hu : utf8Valid h₁ = true ∧ utf8Valid h₂ = true) (column : Option Bytes)
    (hc : Chooses column [h₁, h₂] h₁) (files : List (String × Bytes)) (rs : List ByteRecord) (hi : Input files rs)
    (st : HashState) (h : c.run files = .ok st) (E₀ E : Env) (op : Opts)
    (hone : ∀ r ∈ rs, ∃ v, Path.ppnPath.values E₀ ⟨false⟩ r.record = some [v] ∧ v ≠ [] ∧ utf8Valid v = true)
    (hown : ∀ r ∈ rs, ∀ r' ∈ rs, idnText r.record = idnText r'.record → r = r') :
    ∃ text t fs, c.table o [h₁, h₂] files = some (.ok, text) ∧ R.read path text = some t ∧
      FilterSet.build none column [t] [] = some fs ∧ picked ⟨E₀, E, op, fs, none⟩ rs = picked c.sel rs := by
  obtain ⟨text, t, cells, h1, h2, h3, h4⟩ := C80_hash R hR c hl o ho path hk h₁ h₂ hne hu column hc files rs hi st h
  have hs := (C62_lists none column [t] []).2.2 (by
    intro x hx
    simp only [List.append_nil, List.mem_singleton] at hx
    exact ⟨cells, hx ▸ h3⟩)
  obtain ⟨fs, hfs⟩ := Option.isSome_iff_exists.1 hs
  refine ⟨text, t, fs, h1, h2, hfs, ?_⟩
  unfold picked
  apply List.filter_congr
  intro r hr
  obtain ⟨v, hv, hvne, hvu⟩ := hone r hr
  obtain ⟨⟨fs', hfs', b, hb, hiff⟩, -⟩ := C80_records E₀ none column t cells h3 _ h4 r.record [v] hv (by simpa using hvne)
  rw [hfs] at hfs'
  obtain rfl := Option.some.inj hfs'
  have hidn : ∀ r' ∈ rs, ∀ w, Path.ppnPath.values E₀ ⟨false⟩ r'.record = some [w] → idnText r'.record = w := by
    intro r' _ w hw
    have e1 := C23_first E₀ ⟨false⟩ Path.ppnPath r'.record [w] hw
    have e2 := (C23_ppn E₀ ⟨false⟩ r'.record).1
    unfold Record.ppn at e2
    rw [e1] at e2
    unfold idnText
    rw [← Option.some.inj e2]
    rfl
  rw [decide_eq_decide]
  rw [← picked_iff ⟨E₀, E, op, fs, none⟩ r]
  have htest : Selection.test ⟨E₀, E, op, fs, none⟩ r = some b := by
    unfold Selection.test
    rw [hb]
    cases b <;> rfl
  rw [htest, Option.some.injEq, hiff]
  simp only [List.mem_singleton, exists_eq_left]
  constructor
  · rintro ⟨r', hr', hw⟩
    rw [limited, if_pos hlim] at hr'
    obtain ⟨hm, hp⟩ := List.mem_filter.1 hr'
    obtain ⟨w, hw1, -, hw3⟩ := hone r' hm
    rw [hidn r' hm w hw1, hl' w hw3] at hw
    have : r' = r := hown r' hm r hr (by rw [hidn r' hm w hw1, hidn r hr v hv, hw])
    rw [← this]
    simpa using hp
  · intro hp
    refine ⟨r, ?_, by rw [hidn r hr v hv, hl' v hvu]⟩
    rw [limited, if_pos hlim]
    exact List.mem_filter.2 ⟨hr, by simpa using hp⟩

/-- **C80** (select) A column of the table of `select` is a list of its values. -/
theorem C80_select (R : ListReader) (hR : Faithful R) (c : SelectCmd) (o : CsvOpts) (ho : Quoting o) (path : Bytes)
    (hk : ListKind.Separates (.ofPath path) o.delimiter) (header : List Bytes) (hd : header.Nodup)
    (hn : ∀ n ∈ header, n ≠ []) {rx : Bytes → Bool} {l l' : Levels} {qtext : Bytes}
    (hq : Query.new rx l qtext = (some c.query, l')) (hw : header.length = width c.query) (j : Nat) (name : Bytes)
    (hj : header[j]? = some name) (column : Option Bytes) (hc : Chooses column header name)
    (files : List (String × Bytes)) (st : SelectState) (h : c.run files = .ok st)
    (hu : ∀ row ∈ header :: st.out, ∀ v ∈ row, utf8Valid v = true) :
    ∃ text t cells, c.table o (some header) files = some (.ok, text) ∧ R.read path text = some t ∧
      UsedColumn column t cells ∧ ∀ v, v ≠ [] → (some v ∈ cells ↔ ∃ row ∈ st.out, row[j]? = some v) := by
  obtain ⟨hne, hpos⟩ := width_pos hq
  have hwidth := select_width hne (.inl h)
  obtain ⟨t, cells, h1, h2, h3⟩ := C80_table R hR o ho path hk header hd hn st.out
    (fun row hrow => (hwidth row hrow).trans hw.symm) hu j name hj column hc
  refine ⟨_, t, cells, ?_, h1, h2, h3⟩
  unfold SelectCmd.table
  rw [h]
  dsimp only
  have h4 := (tableEnd_ok ho hpos (header := some header) (by rintro x hx; rw [← Option.some.inj hx]; exact hw) hwidth .ok).1
  exact congrArg some (Prod.ext h4 rfl)

/-! ## the reports of `check` -/

/-- the name of a file stands for the same format in `check` and in lists -/
def SameFormat (p : Bytes) : Prop :=
  match ReportFormat.ofPath (some p), ListKind.ofPath p with
  | .txt, .txt => True
  | .csv d, .tsv => d = 0x09
  | .csv d, .csv => d = 0x2C
  | _, _ => False

/-- **C80** (check) Under a name that stands for one format, the reports of `check`, if there are
any, are a list of the records with reports. -/
theorem C80_check_partial (R : ListReader) (hR : Faithful R) (numeric : Bytes → Bool)
    (hnum : ∀ d v, numeric v = true → ∀ c ∈ v, csvSpecial d c = false) (p : Bytes) (hp : SameFormat p)
    (reports : List Report) (hne : reports ≠ [])
    (hu : ∀ row ∈ (writeReports (some p) reports).rows, ∀ v ∈ row, utf8Valid v = true) :
    ∃ t cells, R.read p ((writeReports (some p) reports).text numeric).2 = some t ∧ UsedColumn none t cells ∧
      ∀ v, v ≠ [] → (some v ∈ cells ↔ ∃ x ∈ reports, x.ppn = some v) := by
  have hfmt : (writeReports (some p) reports).format = ReportFormat.ofPath (some p) := by
    have : ∀ (l : List Report) (w : ReportWriter), (l.foldl ReportWriter.write w).format = w.format := by
      intro l
      induction l with
      | nil => intro w; rfl
      | cons x l ih =>
        intro w
        rw [List.foldl_cons, ih]
        unfold ReportWriter.write
        split
        · split <;> rfl
        · rfl
    exact this _ _
  have hppn : ∀ v, v ≠ [] → ∀ x : Report, x.ppn.getD [] = v ↔ x.ppn = some v := by
    intro v hv x
    cases hx : x.ppn with
    | none => simp [Ne.symm hv]
    | some w => simp
  unfold ReportWriter.text
  rw [hfmt]
  unfold SameFormat at hp
  cases hf : ReportFormat.ofPath (some p) with
  | txt =>
    rw [hf] at hp
    have hk : ListKind.ofPath p = .txt := by
      revert hp
      cases ListKind.ofPath p <;> simp
    have hrows := C68_text (some p) hf reports
    rw [hrows] at hu ⊢
    have ho : Quoting (ReportFormat.opts numeric .txt) :=
      ⟨C75_delimiter.2.1, by simp [ReportFormat.opts], hnum _⟩
    obtain ⟨t, cells, h1, h2, h3⟩ := C80_text R hR _ ho rfl p hk (reports.map (fun x => x.ppn.getD [])) (by simpa using hne)
      (by
        intro v hv
        obtain ⟨x, hx, rfl⟩ := List.mem_map.1 hv
        exact hu _ (List.mem_map_of_mem hx) _ (by simp)) none (.inl rfl)
    rw [List.map_map] at h1
    refine ⟨t, cells, h1, h2, fun v hv => (h3 v hv).trans ?_⟩
    simp only [List.mem_map, hppn v hv]
  | csv d =>
    rw [hf] at hp
    have hk : ListKind.Separates (.ofPath p) d := by
      revert hp
      cases ListKind.ofPath p <;> simp [ListKind.Separates]
    have hd : d = 0x09 ∨ d = 0x2C := by
      revert hk
      cases ListKind.ofPath p <;> simp [ListKind.Separates] <;> intro h <;> simp [h]
    have ho : Quoting (ReportFormat.opts numeric (.csv d)) := by
      refine ⟨?_, by simp [ReportFormat.opts], hnum _⟩
      rcases hd with rfl | rfl
      · exact C75_delimiter.1
      · exact C75_delimiter.2.1
    have hrows : (writeReports (some p) reports).rows = reportHeader :: reports.map Report.row := by
      unfold writeReports
      rw [writeReports_csv d reports _ hf]
      simp [hne]
    rw [hrows] at hu ⊢
    obtain ⟨t, cells, h1, h2, h3⟩ := C80_table R hR _ ho p hk reportHeader (by decide +kernel) (by decide +kernel)
      (reports.map Report.row) (by
        intro row hrow
        obtain ⟨x, -, rfl⟩ := List.mem_map.1 hrow
        rfl) hu 0 (bs "ppn") rfl none (.inr ⟨rfl, .inl rfl⟩)
    refine ⟨t, cells, h1, h2, fun v hv => (h3 v hv).trans ?_⟩
    simp [Report.row, hppn v hv]

/-- **C80** (names) A name stands for the same format in `check` and in lists unless it ends with
`ipc`, `tsv.gz` or `txt.gz`, or with `tsv` or `txt` without a dot before. -/
theorem C80_names (p : Bytes) :
    SameFormat p ↔ utf8Valid p = true → ¬ (bs "ipc" <:+ p ∨ bs "tsv.gz" <:+ p ∨ bs "txt.gz" <:+ p ∨
      (bs "tsv" <:+ p ∧ ¬ bs ".tsv" <:+ p) ∨ (bs "txt" <:+ p ∧ ¬ bs ".txt" <:+ p)) := by
  have hx : ∀ a b : Bytes, a <:+ p → b <:+ p → a.length ≤ b.length → a.isSuffixOf b = true := by
    intro a b ha hb hl
    rw [List.isSuffixOf_iff_suffix]
    exact List.suffix_of_suffix_length_le ha hb hl
  have no : ∀ {a b : Bytes}, a.length ≤ b.length ∧ a.isSuffixOf b = false → a <:+ p → b <:+ p → False := by
    intro a b h ha hb
    have := hx a b ha hb h.1
    rw [h.2] at this
    simp at this
  have e1 : bs ".txt" <:+ p → bs "txt" <:+ p :=
    fun h => (show bs "txt" <:+ bs ".txt" from ⟨bs ".", by decide +kernel⟩).trans h
  have e2 : bs ".tsv" <:+ p → bs "tsv" <:+ p :=
    fun h => (show bs "tsv" <:+ bs ".tsv" from ⟨bs ".", by decide +kernel⟩).trans h
  have n1 : bs "ipc" <:+ p → ¬ bs "tsv" <:+ p := no (by decide +kernel)
  have n2 : bs "ipc" <:+ p → ¬ bs "txt" <:+ p := no (by decide +kernel)
  have n3 : bs "ipc" <:+ p → ¬ bs "tsv.gz" <:+ p := no (by decide +kernel)
  have n4 : bs "ipc" <:+ p → ¬ bs "txt.gz" <:+ p := no (by decide +kernel)
  have n5 : bs "tsv" <:+ p → ¬ bs "txt" <:+ p := no (by decide +kernel)
  have n6 : bs "tsv" <:+ p → ¬ bs "tsv.gz" <:+ p := no (by decide +kernel)
  have n7 : bs "tsv" <:+ p → ¬ bs "txt.gz" <:+ p := no (by decide +kernel)
  have n8 : bs "txt" <:+ p → ¬ bs "tsv.gz" <:+ p := no (by decide +kernel)
  have n9 : bs "txt" <:+ p → ¬ bs "txt.gz" <:+ p := no (by decide +kernel)
  have n10 : bs "tsv.gz" <:+ p → ¬ bs "txt.gz" <:+ p := no (by decide +kernel)
  unfold SameFormat ReportFormat.ofPath ListKind.ofPath
  by_cases hu : utf8Valid p = true
  · simp only [hu, if_true, List.isSuffixOf_iff_suffix, Bool.or_eq_true, true_implies]
    by_cases a3 : bs "ipc" <:+ p
    · have b1 : ¬ bs ".txt" <:+ p := fun h => n2 a3 (e1 h)
      have b2 : ¬ bs ".tsv" <:+ p := fun h => n1 a3 (e2 h)
      simp [a3, b1, b2]
    · by_cases a4 : bs "tsv" <:+ p
      · have b1 : ¬ bs ".txt" <:+ p := fun h => n5 a4 (e1 h)
        by_cases b2 : bs ".tsv" <:+ p
        · simp [a3, a4, b1, b2, n5 a4, n6 a4, n7 a4]
        · simp [a3, a4, b1, b2]
      · have b2 : ¬ bs ".tsv" <:+ p := fun h => a4 (e2 h)
        by_cases a6 : bs "txt" <:+ p
        · by_cases b1 : bs ".txt" <:+ p
          · simp [a3, a4, a6, b1, n8 a6, n9 a6]
          · simp [a3, a4, a6, b1, b2, n8 a6]
        · have b1 : ¬ bs ".txt" <:+ p := fun h => a6 (e1 h)
          by_cases a5 : bs "tsv.gz" <:+ p
          · simp [a3, a4, a5, b1, b2]
          · by_cases a7 : bs "txt.gz" <:+ p
            · simp [a3, a4, a5, a6, a7, b1, b2]
            · simp [a3, a4, a5, a6, a7, b1, b2]
  · have c1 : ∀ t : Bytes, t ≠ [] → t.isSuffixOf ([] : Bytes) = false := by
      intro t ht
      rw [← Bool.not_eq_true, List.isSuffixOf_iff_suffix, List.suffix_nil]
      exact ht
    simp only [hu, if_false, false_implies, c1 (bs ".txt") (by decide +kernel), c1 (bs ".tsv") (by decide +kernel),
      c1 (bs "ipc") (by decide +kernel), c1 (bs "tsv") (by decide +kernel), c1 (bs "tsv.gz") (by decide +kernel),
      c1 (bs "txt") (by decide +kernel), c1 (bs "txt.gz") (by decide +kernel), Bool.or_self, Bool.false_eq_true]

/-- **C80** (renaming) A column is renamed exactly if there is one with the name: of several the first
one, in its place, and nothing else changes. -/
theorem C80_rename (old new : Bytes) (t t' : Table) : Table.rename old new t = some t' ↔
    ∃ pre cells post, t = pre ++ (old, cells) :: post ∧ (∀ x ∈ pre, x.1 ≠ old) ∧
      t' = pre ++ (new, cells) :: post := by
  induction t generalizing t' with
  | nil =>
    refine ⟨fun h => by simp [Table.rename] at h, fun ⟨pre, cells, post, h, _⟩ => by simp at h⟩
  | cons c t ih =>
    unfold Table.rename
    by_cases hc : c.1 = old
    · rw [if_pos (by simp [hc])]
      obtain ⟨n, cs⟩ := c
      dsimp only at hc
      subst hc
      constructor
      · intro h
        cases h
        exact ⟨[], cs, t, rfl, by simp, rfl⟩
      · rintro ⟨pre, cells, post, h, hp, rfl⟩
        cases pre with
        | nil => simp only [List.nil_append, List.cons.injEq, Prod.mk.injEq, true_and] at h; simp [h]
        | cons x pre =>
          simp only [List.cons_append, List.cons.injEq] at h
          exact absurd (by rw [← h.1]) (hp x List.mem_cons_self)
    · rw [if_neg (by simp [hc])]
      constructor
      · intro h
        cases hr : Table.rename old new t with
        | none => rw [hr] at h; cases h
        | some t0 =>
          rw [hr] at h
          cases h
          obtain ⟨pre, cells, post, rfl, hp, rfl⟩ := (ih t0).1 hr
          exact ⟨c :: pre, cells, post, rfl, by simpa [hc] using hp, rfl⟩
      · rintro ⟨pre, cells, post, h, hp, rfl⟩
        cases pre with
        | nil =>
          simp only [List.nil_append, List.cons.injEq] at h
          exact absurd (by rw [h.1]) hc
        | cons x pre =>
          simp only [List.cons_append, List.cons.injEq] at h
          obtain ⟨rfl, rfl⟩ := h
          rw [(ih (pre ++ (new, cells) :: post)).2 ⟨pre, cells, post, rfl,
            fun y hy => hp y (List.mem_cons_of_mem _ hy), rfl⟩]
          rfl

/-- `C80_rename` with the column in the middle -/
example : ∃ pre post : Table, pre ≠ [] ∧ post ≠ [] ∧
    Table.rename (bs "column_1") (bs "ppn") (pre ++ (bs "column_1", [some (bs "1")]) :: post) =
      some (pre ++ (bs "ppn", [some (bs "1")]) :: post) :=
  ⟨[(bs "a", [none])], [(bs "column_1", [none])], by simp, by simp, by decide +kernel⟩

/-- **C80** (readers) Which reader reads a list: names in UTF-8 that end with `ipc` are read as IPC
files; those that end with `tsv` or `tsv.gz` as tables with tabs; those that end with `txt` or `txt.gz`
as lines without a header, the first column of which is called `ppn`; all others, and all names that are
not UTF-8, as tables with commas. -/
theorem C80_readers (R : ListReader) (p content : Bytes) :
    (utf8Valid p = true → bs "ipc" <:+ p → R.read p content = R.ipc content) ∧
    (utf8Valid p = true → bs "tsv" <:+ p ∨ bs "tsv.gz" <:+ p → R.read p content = R.csv 0x09 true content) ∧
    (utf8Valid p = true → bs "txt" <:+ p ∨ bs "txt.gz" <:+ p → R.read p content =
      (R.csv 0x2C false content).bind (Table.rename (bs "column_1") (bs "ppn"))) ∧
    (¬ (utf8Valid p = true ∧ (bs "ipc" <:+ p ∨ bs "tsv" <:+ p ∨ bs "tsv.gz" <:+ p ∨ bs "txt" <:+ p ∨
      bs "txt.gz" <:+ p)) → R.read p content = R.csv 0x2C true content) := by
  have no : ∀ {a b : Bytes}, a.length ≤ b.length ∧ a.isSuffixOf b = false → a <:+ p → ¬ b <:+ p := by
    intro a b h ha hb
    have : a.isSuffixOf b = true := by
      rw [List.isSuffixOf_iff_suffix]
      exact List.suffix_of_suffix_length_le ha hb h.1
    rw [h.2] at this
    simp at this
  have n1 : bs "ipc" <:+ p → ¬ bs "tsv" <:+ p := no (by decide +kernel)
  have n2 : bs "ipc" <:+ p → ¬ bs "txt" <:+ p := no (by decide +kernel)
  have n3 : bs "ipc" <:+ p → ¬ bs "tsv.gz" <:+ p := no (by decide +kernel)
  have n4 : bs "ipc" <:+ p → ¬ bs "txt.gz" <:+ p := no (by decide +kernel)
  have n5 : bs "tsv" <:+ p → ¬ bs "txt" <:+ p := no (by decide +kernel)
  have n7 : bs "tsv" <:+ p → ¬ bs "txt.gz" <:+ p := no (by decide +kernel)
  have n8 : bs "txt" <:+ p → ¬ bs "tsv.gz" <:+ p := no (by decide +kernel)
  have n10 : bs "tsv.gz" <:+ p → ¬ bs "txt.gz" <:+ p := no (by decide +kernel)
  have c1 : ∀ t : Bytes, t ≠ [] → t.isSuffixOf ([] : Bytes) = false := by
    intro t ht
    rw [← Bool.not_eq_true, List.isSuffixOf_iff_suffix, List.suffix_nil]
    exact ht
  unfold ListReader.read ListKind.ofPath
  refine ⟨fun hu h => ?_, fun hu h => ?_, fun hu h => ?_, fun h => ?_⟩
  · simp only [hu, if_true, List.isSuffixOf_iff_suffix, h]
  · have hi : ¬ bs "ipc" <:+ p := fun hi => h.elim (n1 hi) (n3 hi)
    simp only [hu, if_true, List.isSuffixOf_iff_suffix, hi, if_false, Bool.or_eq_true, h]
  · have hi : ¬ bs "ipc" <:+ p := fun hi => h.elim (n2 hi) (n4 hi)
    have ht : ¬ (bs "tsv" <:+ p ∨ bs "tsv.gz" <:+ p) := by
      rintro (ht | ht)
      · exact h.elim (n5 ht) (n7 ht)
      · exact h.elim (fun h => n8 h ht) (n10 ht)
    simp only [hu, if_true, List.isSuffixOf_iff_suffix, hi, if_false, Bool.or_eq_true, ht, h]
  · by_cases hu : utf8Valid p = true
    · have h1 : ¬ bs "ipc" <:+ p := fun x => h ⟨hu, .inl x⟩
      have h2 : ¬ bs "tsv" <:+ p := fun x => h ⟨hu, .inr (.inl x)⟩
      have h3 : ¬ bs "tsv.gz" <:+ p := fun x => h ⟨hu, .inr (.inr (.inl x))⟩
      have h4 : ¬ bs "txt" <:+ p := fun x => h ⟨hu, .inr (.inr (.inr (.inl x)))⟩
      have h5 : ¬ bs "txt.gz" <:+ p := fun x => h ⟨hu, .inr (.inr (.inr (.inr x)))⟩
      simp only [hu, if_true, List.isSuffixOf_iff_suffix, h1, h2, h3, h4, h5, if_false, Bool.or_eq_true, or_self]
    · simp only [hu, if_false, c1 (bs "ipc") (by decide +kernel), c1 (bs "tsv") (by decide +kernel),
        c1 (bs "tsv.gz") (by decide +kernel), c1 (bs "txt") (by decide +kernel), c1 (bs "txt.gz") (by decide +kernel),
        Bool.or_self, Bool.false_eq_true]

/-- the name of an IPC file -/
example : utf8Valid (bs "a.ipc") = true ∧ bs "ipc" <:+ bs "a.ipc" := ⟨by decide +kernel, ⟨bs "a.", by decide +kernel⟩⟩

/-- **C80** is false for names such as `x.tsv.gz`: `check` writes commas, and not compressed, but
lists with this name are read with tabs, so that no column is found. -/
theorem C80_check_false (R : ListReader) (hR : Faithful R) (numeric : Bytes → Bool) :
    let w := writeReports (some (bs "x.tsv.gz")) [⟨some (bs "1"), bs "A", .error, none⟩]
    ∃ t, R.read (bs "x.tsv.gz") (w.text numeric).2 = some t ∧ readFilterList none [t] = none := by
  intro w
  have hq : Quoting ⟨0x09, .necessary, fun _ => false⟩ := ⟨C75_delimiter.1, by simp, by simp⟩
  have e : (w.text numeric).2 = ((⟨0x09, .necessary, fun _ => false⟩ : CsvOpts).rows none
      ([bs "ppn,rule,level,message"] :: [[bs "1,A,error,"]])).2 := by
    have h1 : w.format = .csv 0x2C := by decide +kernel
    have h2 : w.rows = [[bs "ppn", bs "rule", bs "level", bs "message"], [bs "1", bs "A", bs "error", []]] := by decide +kernel
    unfold ReportWriter.text
    rw [h1, h2]
    have : ∀ f : Bytes → Bool, (CsvOpts.rows ⟨0x2C, .necessary, f⟩ none
        [[bs "ppn", bs "rule", bs "level", bs "message"], [bs "1", bs "A", bs "error", []]]).2 =
        (CsvOpts.rows ⟨0x2C, .necessary, fun _ => false⟩ none
        [[bs "ppn", bs "rule", bs "level", bs "message"], [bs "1", bs "A", bs "error", []]]).2 := fun f => rfl
    rw [show ReportFormat.opts numeric (.csv 0x2C) = ⟨0x2C, .necessary, numeric⟩ from rfl, this]
    decide +kernel
  obtain ⟨t, h1, h2, -⟩ := hR.header _ [bs "ppn,rule,level,message"] [[bs "1,A,error,"]] hq (.inr rfl) (by simp) (by simp)
    (by decide +kernel) (by simp) (by decide +kernel)
  refine ⟨t, ?_, ?_⟩
  · unfold ListReader.read
    rw [show ListKind.ofPath (bs "x.tsv.gz") = .tsv by decide +kernel, e]
    exact h1
  · cases hl : readFilterList none [t] with
    | none => rfl
    | some l =>
      obtain ⟨cells, name, pre, post, h3, -, h4⟩ := ((readFilterList_spec none [t]).1 l hl).2 t (by simp)
      have hm : name ∈ t.map (·.1) := by rw [h3]; simp
      rw [h2, List.mem_singleton] at hm
      subst hm
      rcases h4 with h4 | ⟨-, h4 | ⟨h4, -⟩⟩
      · simp at h4
      · exact absurd h4 (by decide +kernel)
      · exact absurd h4 (by decide +kernel)

/-! ## describe -/

/-- **C80** (describe) Without `-o` the table is shown; with `--tsv` it has tabs; without options
the format is that of the name, or Arrow IPC; with `--csv` it has commas.  Missing: `--csv` with a
name that ends with `.tsv`, see below. -/
theorem C80_describe_partial (output : Option Bytes) (csv tsv : Bool) (h : DescribeKind.Accepted output csv tsv) :
    (DescribeKind.of output csv tsv = .screen ↔ output = none) ∧
    (tsv = true → DescribeKind.of output csv tsv = .tsv) ∧
    (csv = true → (∀ p, output = some p → ¬ bs ".tsv" <:+ p) → DescribeKind.of output csv tsv = .csv) ∧
    (csv = false → tsv = false → ∀ p, output = some p →
      (bs ".tsv" <:+ p → DescribeKind.of output csv tsv = .tsv) ∧
      (bs ".csv" <:+ p → DescribeKind.of output csv tsv = .csv) ∧
      (¬ bs ".tsv" <:+ p → ¬ bs ".csv" <:+ p → DescribeKind.of output csv tsv = .ipc)) := by
  unfold DescribeKind.Accepted at h
  cases output with
  | none =>
    have : csv = false ∧ tsv = false := by
      have := h.1
      cases csv <;> cases tsv <;> simp at this ⊢
    simp [DescribeKind.of, this.1, this.2]
  | some p =>
    have hx : bs ".csv" <:+ p → ¬ bs ".tsv" <:+ p := by
      intro h1 h2
      have := List.suffix_of_suffix_length_le h1 h2 (by decide +kernel)
      rw [← List.isSuffixOf_iff_suffix] at this
      revert this
      decide +kernel
    unfold DescribeKind.of
    simp only [Bool.or_eq_true, List.isSuffixOf_iff_suffix]
    refine ⟨?_, ?_, ?_, ?_⟩
    · split
      · simp
      · split <;> simp
    · intro h1; simp [h1]
    · intro h1 h2
      have h3 := h2 p rfl
      have h4 : tsv = false := by simpa [h1] using h.2
      simp [h1, h3, h4]
    · rintro rfl rfl q hq
      obtain rfl := Option.some.inj hq
      refine ⟨fun h1 => by simp [h1], fun h1 => by simp [h1, hx h1], fun h1 h2 => by simp [h1, h2]⟩

/-- **C80** is false: `describe --csv -o x.tsv` writes tabs. -/
theorem C80_describe_false : DescribeKind.Accepted (some (bs "x.tsv")) true false ∧
    DescribeKind.of (some (bs "x.tsv")) true false = .tsv :=
  ⟨by simp [DescribeKind.Accepted], by decide +kernel⟩

/-! ## examples -/

open Classical in
/-- a reader that reads the tables of the grammar of `Spec/Csv` -/
noncomputable def idealReader : ListReader where
  ipc _ := none
  csv d header text :=
    if h : ∃ rows, CsvText d text rows then
      match header, choose h with
      | true, names :: rows => some (names.mapIdx (fun j n => (n, rows.map (fun row => row[j]?))))
      | false, row :: rows => some (row.mapIdx (fun j _ => (bs "column_" ++ decimal (j + 1), (row :: rows).map (fun row => row[j]?))))
      | _, [] => none
    else none

/-- such a reader is faithful, so the assumption can be met -/
theorem idealReader_faithful : Faithful idealReader := by
  have key : ∀ (o : CsvOpts) (rows : List (List Bytes)) (n : Nat), Quoting o → 0 < n → (∀ row ∈ rows, row.length = n) →
      ∃ h : ∃ rs, CsvText o.delimiter (o.rows none rows).2 rs, Classical.choose h = rows := by
    intro o rows n ho hn hw
    have h := (C75_rows ho hn hw).2
    have he : ∃ rs, CsvText o.delimiter (o.rows none rows).2 rs := ⟨rows, (h rows).2 rfl⟩
    exact ⟨he, (h _).1 (Classical.choose_spec he)⟩
  constructor
  · intro o h rows ho _ hne _ _ hw hutf
    obtain ⟨he, hc⟩ := key o (h :: rows) h.length ho (List.length_pos_of_ne_nil hne) (by
      intro row hrow
      rcases List.mem_cons.1 hrow with rfl | hrow
      · rfl
      · exact hw row hrow)
    refine ⟨h.mapIdx (fun j n => (n, rows.map (fun row => row[j]?))), ?_, ?_, ?_⟩
    · simp only [idealReader]
      rw [dif_pos he, hc]
    · apply List.ext_getElem <;> simp
    · intro j name cells hj
      rw [List.getElem?_mapIdx, Option.map_eq_some_iff] at hj
      obtain ⟨n, hn, hj⟩ := hj
      simp only [Prod.mk.injEq] at hj
      obtain ⟨rfl, rfl⟩ := hj
      have hlt : j < h.length := (List.getElem?_eq_some_iff.1 hn).1
      clear hc he hutf
      induction rows with
      | nil => exact .nil
      | cons row rows ih =>
        refine .cons ?_ (ih (fun r hr => hw r (by simp [hr])))
        have : j < row.length := by rw [hw row (by simp)]; exact hlt
        exact ⟨row[j], List.getElem?_eq_getElem this, .inl (List.getElem?_eq_getElem this)⟩
  · intro o vs ho hd hne hutf
    obtain ⟨he, hc⟩ := key o (vs.map (fun v => [v])) 1 ho (by omega) (by
      intro row hrow
      obtain ⟨v, -, rfl⟩ := List.mem_map.1 hrow
      rfl)
    refine ⟨vs.map some, ?_, ?_⟩
    · rw [← hd]
      simp only [idealReader]
      rw [dif_pos he, hc]
      obtain ⟨v, vs, rfl⟩ := List.exists_cons_of_ne_nil hne
      have : bs "column_" ++ decimal (0 + 1) = bs "column_1" := by decide +kernel
      simp [this, Function.comp_def]
    · clear he hc hne hutf
      induction vs with
      | nil => exact .nil
      | cons v vs ih => exact .cons (.inl rfl) ih

/-- names that stand for one format, and others -/
example : SameFormat (bs "x.csv") ∧ SameFormat (bs "x.tsv") ∧ SameFormat (bs "x.txt") ∧ SameFormat (bs "x") ∧
    ¬ SameFormat (bs "x.tsv.gz") ∧ ¬ SameFormat (bs "mytxt") := by
  simp only [C80_names, ← List.isSuffixOf_iff_suffix]
  refine ⟨fun _ => ?_, fun _ => ?_, fun _ => ?_, fun _ => ?_, fun h => absurd (h (by decide +kernel)) ?_,
    fun h => absurd (h (by decide +kernel)) ?_⟩ <;> decide +kernel

/-- two reports, and the list read from the file -/
example : ∃ t cells, idealReader.read (bs "x.csv")
      ((writeReports (some (bs "x.csv")) [⟨some (bs "1"), bs "A", .error, none⟩, ⟨none, bs "B", .info, none⟩]).text
        (fun _ => false)).2 = some t ∧ UsedColumn none t cells ∧ some (bs "1") ∈ cells := by
  obtain ⟨t, cells, h1, h2, h3⟩ := C80_check_partial idealReader idealReader_faithful (fun _ => false) (by simp) (bs "x.csv")
    (by rw [C80_names]; simp only [← List.isSuffixOf_iff_suffix]; exact fun _ => by decide +kernel)
    [⟨some (bs "1"), bs "A", .error, none⟩, ⟨none, bs "B", .info, none⟩] (by simp) (by decide +kernel)
  exact ⟨t, cells, h1, h2, (h3 (bs "1") (by decide +kernel)).2 (by simp)⟩

/-- `hash` without a limit, and a decoder that keeps valid texts -/
def hashAll : HashCmd := ⟨true, 0, fun b => b.take 2, fun v => if utf8Valid v then v else [], noSelection⟩

/-- two records with an IDN of their own meet the assumptions of the pipeline -/
example : ∃ text t fs, hashAll.table ⟨0x2C, .necessary, fun _ => false⟩ [bs "idn", bs "hash"] [("a", recLine "1" ++ recLine "2")] =
      some (.ok, text) ∧ idealReader.read (bs "x.csv") text = some t ∧ FilterSet.build none none [t] [] = some fs ∧
    picked ⟨toyEnv, toyEnv, ⟨false⟩, fs, none⟩ [recOf "1", recOf "2"] = picked noSelection [recOf "1", recOf "2"] := by
  have hi : Input [("a", recLine "1" ++ recLine "2")] [recOf "1", recOf "2"] := by
    have h := Input.cons (name := "a") (Lines.line (recLine "1").dropLast _ _ (by decide +kernel)
      (Lines.line (recLine "2").dropLast [] _ (by decide +kernel) .eof)) .nil
    have e1 : (recLine "1").dropLast ++ 0x0A :: ((recLine "2").dropLast ++ 0x0A :: []) = recLine "1" ++ recLine "2" := by decide +kernel
    have e2 : (List.filterMap ByteRecord.fromBytes [(recLine "1").dropLast ++ [0x0A], (recLine "2").dropLast ++ [0x0A]]) ++ [] =
      [recOf "1", recOf "2"] := by decide +kernel
    rwa [e1, e2] at h
  refine C80_pipeline idealReader idealReader_faithful hashAll ?_ (fun v hv => by simp [hashAll, hv]) rfl
    ⟨0x2C, .necessary, fun _ => false⟩ ⟨C75_delimiter.2.1, by simp, by simp⟩ (bs "x.csv")
    (by rw [show ListKind.ofPath (bs "x.csv") = .csv by decide +kernel]; rfl) _ _
    (by decide +kernel) (by decide +kernel) none (.inr ⟨rfl, .inr ⟨rfl, by decide +kernel⟩⟩) _ _ hi ⟨[(bs "1", bs "3030"), (bs "2", bs "3030")], 2⟩
    (by decide +kernel) toyEnv toyEnv ⟨false⟩ ?_ ?_
  · intro v
    unfold hashAll
    dsimp only
    split
    · assumption
    · rfl
  · intro r hr
    simp only [List.mem_cons, List.not_mem_nil, or_false] at hr
    rcases hr with rfl | rfl
    · exact ⟨bs "1", by decide +kernel⟩
    · exact ⟨bs "2", by decide +kernel⟩
  · decide +kernel

/-! ## the theorems on concrete tables -/

theorem quoting_sample : Quoting ⟨0x2C, .necessary, fun _ => false⟩ := ⟨C75_delimiter.2.1, by simp, by simp⟩

theorem separates_sample : ListKind.Separates (.ofPath (bs "x.csv")) 0x2C := by
  rw [show ListKind.ofPath (bs "x.csv") = .csv by decide +kernel]; rfl

theorem hashAll_text (v : Bytes) : utf8Valid (hashAll.lossy v) = true := by
  unfold hashAll
  dsimp only
  split
  · assumption
  · decide +kernel

/-- a value with a comma -/
example := C80_table idealReader idealReader_faithful ⟨0x2C, .necessary, fun _ => false⟩ quoting_sample (bs "x.csv")
  separates_sample [bs "idn", bs "name"] (by decide +kernel) (by decide +kernel) [[bs "1", bs "a,b"], [bs "2", []]]
  (by decide +kernel) (by decide +kernel) 0 (bs "idn") (by decide +kernel) none (.inr ⟨rfl, .inr ⟨rfl, by decide +kernel⟩⟩)
example := C80_text idealReader idealReader_faithful ⟨0x2C, .necessary, fun _ => false⟩ quoting_sample rfl (bs "x.txt")
  (by decide +kernel) [bs "1", bs "2"] (by simp) (by decide +kernel) none (.inl rfl)
example := C80_hash idealReader idealReader_faithful hashAll
  hashAll_text ⟨0x2C, .necessary, fun _ => false⟩ quoting_sample (bs "x.csv")
  separates_sample (bs "idn") (bs "hash") (by decide +kernel) (by decide +kernel) none
  (.inr ⟨rfl, .inr ⟨rfl, by decide +kernel⟩⟩) [("a", recLine "1" ++ recLine "2")] _ (input_of _)
  ⟨[(bs "1", bs "3030"), (bs "2", bs "3030")], 2⟩ (by decide +kernel)
example := C80_select idealReader idealReader_faithful ((selectSample false false toyHash).get (by decide +kernel))
  ⟨0x2C, .necessary, fun _ => false⟩ quoting_sample (bs "x.csv") separates_sample [bs "idn", bs "name"] (by decide +kernel)
  (by decide +kernel) (rx := fun _ => true) (l := Levels.zero) (qtext := bs "003@{0,1}")
  (Prod.ext (by simp [selectSample, queryM, Option.get_map]) rfl) (by decide +kernel) 0 (bs "idn")
  (by decide +kernel) none (.inr ⟨rfl, .inr ⟨rfl, by decide +kernel⟩⟩) [("a", selectLine "y" ++ selectLine "z")]
  ⟨[[bs "x", bs "y"], [bs "x", []], [bs "x", bs "z"], [bs "x", []]], [], 2⟩ (by decide +kernel) (by decide +kernel)

end Pica.Props
