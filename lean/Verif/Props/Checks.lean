import Verif.Lemmas.Check
import Verif.Props.Query

/-! # C41 and C42: duplicates and lists, and the other checks -/

namespace Pica.Props
open Pica Spec

/-! ## C42: values outside a list -/

/-- `to_string` of a byte string keeps UTF-8 and does not make a text empty -/
structure IsLossy (lossy : Bytes → Bytes) : Prop where
  valid : ∀ v, utf8Valid v = true → lossy v = v
  empty : ∀ v, lossy v = [] → v = []

theorem isLossy_nil {lossy : Bytes → Bytes} (h : IsLossy lossy) : lossy [] = [] := h.valid [] rfl

/-- **C42** what the list checks do in every case: they fire unless all values are
in the list, or the only one outside is an empty value that occurs once. -/
theorem listCheck_iff {lossy : Bytes → Bytes} (hl : IsLossy lossy) (list vs : List Bytes) :
    (listCheck lossy list vs).1 = true ↔
      vs.filter (fun v => decide (v ∉ list)) ≠ [] ∧ vs.filter (fun v => decide (v ∉ list)) ≠ [[]] := by
  have e : vs.filter (fun v => !list.contains v) = vs.filter (fun v => decide (v ∉ list)) := by
    apply List.filter_congr
    intro v _
    simp
  unfold listCheck
  dsimp only
  rw [e]
  generalize vs.filter (fun v => decide (v ∉ list)) = bad
  have hm : joinText (bs ", ") (bad.map lossy) = [] ↔ bad = [] ∨ bad = [[]] := by
    rw [joinText_eq_nil (by decide +kernel)]
    match bad with
    | [] => simp
    | [v] =>
      simp only [List.map_cons, List.map_nil, List.cons.injEq, and_true]
      constructor
      · rintro (h | h)
        · simp at h
        · exact .inr (hl.empty v h)
      · rintro (h | h)
        · simp at h
        · rw [h]; exact .inr (isLossy_nil hl)
    | v :: w :: l => simp
  by_cases h : joinText (bs ", ") (bad.map lossy) = []
  · rw [if_neg (by simp [h])]
    simp only [Bool.false_eq_true, false_iff]
    rcases hm.1 h with h | h <;> simp [h]
  · rw [if_pos (by simp [h])]
    simp only [true_iff]
    constructor
    · exact fun h' => h (hm.2 (.inl h'))
    · exact fun h' => h (hm.2 (.inr h'))

/-- a check for values outside a list -/
inductive ListRule : Checks → Env → Opts → Path → List Bytes → Prop
  | allow {E o p l} : ListRule (.allow E o p l) E o p l
  | iso639 {E o p} : ListRule (.iso639 E o p) E o p iso639Codes
  | jel {E o p} : ListRule (.jel E o p) E o p jelCodes

theorem listRule_check {C : CheckEnv} {c : Checks} {E : Env} {o : Opts} {p : Path} {list : List Bytes}
    (h : ListRule c E o p list) {r : Record} {vs : List Bytes} (hv : p.values E o r = some vs) :
    c.check C r = some (c, listCheck C.lossy list vs) := by
  cases h <;> · rw [Checks.check, hv]; rfl

/-- **C42** `iso639-2b`, `jelc` and `allow` fire iff some selected value is not in
the list, for records without empty values.  Missing: empty values, see below. -/
theorem C42_fires_partial (C : CheckEnv) (hl : IsLossy C.lossy) (c : Checks) (E : Env) (o : Opts) (p : Path)
    (list : List Bytes) (h : ListRule c E o p list) (r : Record) (vs : List Bytes)
    (hv : p.values E o r = some vs) (hne : [] ∉ vs) :
    ∃ b msg, c.check C r = some (c, b, msg) ∧ (b = true ↔ ∃ v ∈ vs, v ∉ list) := by
  refine ⟨(listCheck C.lossy list vs).1, (listCheck C.lossy list vs).2, listRule_check h hv, ?_⟩
  rw [listCheck_iff hl]
  constructor
  · rintro ⟨h1, _⟩
    obtain ⟨v, hv⟩ := List.exists_mem_of_ne_nil _ h1
    obtain ⟨h2, h3⟩ := List.mem_filter.1 hv
    exact ⟨v, h2, by simpa using h3⟩
  · rintro ⟨v, h1, h2⟩
    have hm : v ∈ vs.filter (fun v => decide (v ∉ list)) := List.mem_filter.2 ⟨h1, by simpa using h2⟩
    refine ⟨List.ne_nil_of_mem hm, fun he => ?_⟩
    rw [he] at hm
    rw [List.mem_singleton.1 hm] at h1
    exact hne h1

/-- **C42** never reported without reason: if the check fires, some selected value
is not in the list. -/
theorem C42_sound (C : CheckEnv) (hl : IsLossy C.lossy) (c : Checks) (E : Env) (o : Opts) (p : Path)
    (list : List Bytes) (h : ListRule c E o p list) (r : Record) (vs : List Bytes)
    (hv : p.values E o r = some vs) (c' : Checks) (msg : Option Bytes) (hc : c.check C r = some (c', true, msg)) :
    ∃ v ∈ vs, v ∉ list := by
  rw [listRule_check h hv] at hc
  simp only [Option.some.injEq, Prod.mk.injEq] at hc
  have h1 := ((listCheck_iff hl list vs).1 (by rw [hc.2])).1
  obtain ⟨v, hv⟩ := List.exists_mem_of_ne_nil _ h1
  obtain ⟨h2, h3⟩ := List.mem_filter.1 hv
  exact ⟨v, h2, by simpa using h3⟩

/-- **C42** a value that is not empty and not in the list is always reported, also
beside empty values. -/
theorem C42_nonempty (C : CheckEnv) (hl : IsLossy C.lossy) (c : Checks) (E : Env) (o : Opts) (p : Path)
    (list : List Bytes) (h : ListRule c E o p list) (r : Record) (vs : List Bytes)
    (hv : p.values E o r = some vs) (v : Bytes) (hm : v ∈ vs) (hne : v ≠ []) (hn : v ∉ list) :
    ∃ msg, c.check C r = some (c, true, msg) := by
  refine ⟨(listCheck C.lossy list vs).2, ?_⟩
  rw [listRule_check h hv]
  have hm' : v ∈ vs.filter (fun v => decide (v ∉ list)) := List.mem_filter.2 ⟨hm, by simpa using hn⟩
  have : (listCheck C.lossy list vs).1 = true := by
    rw [listCheck_iff hl]
    refine ⟨List.ne_nil_of_mem hm', fun he => ?_⟩
    rw [he] at hm'
    exact hne (List.mem_singleton.1 hm')
  rw [← this]

/-- **C42** is false: a single empty value is not reported although it is in none of
the lists (unless an allow list contains it). -/
theorem C42_empty_false (C : CheckEnv) (hl : IsLossy C.lossy) (c : Checks) (E : Env) (o : Opts) (p : Path)
    (list : List Bytes) (h : ListRule c E o p list) (r : Record) (hv : p.values E o r = some [[]])
    (hn : [] ∉ list) : c.check C r = some (c, false, none) := by
  rw [listRule_check h hv]
  have h1 : ([[]] : List Bytes).filter (fun v => !list.contains v) = [[]] := by simp [hn]
  unfold listCheck
  rw [h1]
  simp [isLossy_nil hl, joinText_single]

/-- the ISO list contains exactly three-letter codes -/
theorem iso639_form : ∀ v ∈ iso639Codes, v.length = 3 ∧ ∀ b ∈ v, 0x61 ≤ b ∧ b ≤ 0x7A := by
  have h : iso639Codes.all (fun v => v.length == 3 && v.all (fun b => decide (0x61 ≤ b ∧ b ≤ 0x7A))) = true := by
    decide +kernel
  intro v hv
  have := List.all_eq_true.1 h v hv
  simp only [Bool.and_eq_true, beq_iff_eq, List.all_eq_true, decide_eq_true_eq] at this
  exact this

/-- a JEL code is a capital letter with at most two digits -/
theorem jel_form : ∀ v ∈ jelCodes, 0 < v.length ∧ v.length ≤ 3 ∧ ∀ b ∈ v.head?, 0x41 ≤ b ∧ b ≤ 0x5A := by
  have h : jelCodes.all (fun v => decide (0 < v.length) && decide (v.length ≤ 3) &&
      v.head?.all (fun b => decide (0x41 ≤ b ∧ b ≤ 0x5A))) = true := by decide +kernel
  intro v hv
  have := List.all_eq_true.1 h v hv
  simp only [Bool.and_eq_true, decide_eq_true_eq, Option.all_eq_true] at this
  exact ⟨this.1.1, this.1.2, this.2⟩

/-- **C42** whatever is not of the form of a code is reported. -/
theorem C42_iso639_form (C : CheckEnv) (hl : IsLossy C.lossy) (E : Env) (o : Opts) (p : Path) (r : Record)
    (vs : List Bytes) (hv : p.values E o r = some vs) (v : Bytes) (hm : v ∈ vs) (hne : v ≠ [])
    (hf : ¬ (v.length = 3 ∧ ∀ b ∈ v, 0x61 ≤ b ∧ b ≤ 0x7A)) :
    ∃ msg, (Checks.iso639 E o p).check C r = some (.iso639 E o p, true, msg) :=
  C42_nonempty C hl _ E o p _ .iso639 r vs hv v hm hne (fun h => hf (iso639_form v h))

/-! ## C41: duplicates -/

/-- rows with some content -/
def NonEmptyRow (row : List Bytes) : Prop := ∃ v ∈ row, v ≠ []

instance (row : List Bytes) : Decidable (NonEmptyRow row) :=
  inferInstanceAs (Decidable (∃ v ∈ row, v ≠ []))

theorem duplicateKeys_eq {lossy : Bytes → Bytes} (sep : Bytes) (rows : List (List Bytes))
    (hv : ∀ row ∈ rows, ∀ v ∈ row, lossy v = v) :
    duplicateKeys lossy sep rows = (rows.filter (fun row => decide (NonEmptyRow row))).map (joinText sep) := by
  unfold duplicateKeys
  induction rows with
  | nil => rfl
  | cons row rows ih =>
    rw [List.filterMap_cons, ih (fun row hr => hv row (by simp [hr])), List.filter_cons]
    have hm : row.map lossy = row := by
      conv => rhs; rw [← List.map_id row]
      exact List.map_congr_left (hv row (by simp))
    rw [duplicateKey, hm]
    by_cases h : NonEmptyRow row
    · have : ¬ row.all List.isEmpty = true := by
        obtain ⟨v, h1, h2⟩ := h
        rw [List.all_eq_true]
        intro h3
        exact h2 (by simpa using h3 v h1)
      rw [if_pos (decide_eq_true h), if_neg this]
      rfl
    · have : row.all List.isEmpty = true := by
        rw [List.all_eq_true]
        intro v hv
        have : ¬ v ≠ [] := fun hne => h ⟨v, hv, hne⟩
        simpa using this
      have h' : ¬ decide (NonEmptyRow row) = true := by rw [decide_eq_true_eq]; exact h
      rw [if_neg h', if_pos this]

theorem duplicates_check {C : CheckEnv} {E : FmtEnv} {ci : Bool} {q : Query} {threshold : Nat} {sep : Bytes}
    {r : Record} {rows : Outcome} (h : q.run E ⟨ci, bs "|", false, false⟩ r = some rows) :
    (Checks.duplicates E ci q threshold sep).check C r = some (.duplicates E ci q threshold sep,
      duplicatesCheck C threshold (duplicateKeys C.lossy sep rows)) := by
  rw [Checks.check, h]; rfl

theorem count_map_inj {α β : Type} [BEq α] [LawfulBEq α] [BEq β] [LawfulBEq β] {f : α → β} {l : List α} {a : α}
    (h : ∀ x ∈ l, f x = f a → x = a) : (l.map f).count (f a) = l.count a := by
  induction l with
  | nil => rfl
  | cons x l ih =>
    rw [List.map_cons, List.count_cons, List.count_cons, ih (fun y hy => h y (by simp [hy]))]
    by_cases hx : x = a
    · simp [hx]
    · have : ¬ f x = f a := fun he => hx (h x (by simp) he)
      simp [hx, this]

/-- **C41** the check fires iff a non-empty row occurs at least `threshold` times,
if joining the rows is injective.  Missing: rows whose joined texts coincide. -/
theorem C41_fires_partial (C : CheckEnv) (E : FmtEnv) (ci : Bool) (q : Query) (threshold : Nat) (sep : Bytes)
    (r : Record) (rows : List (List Bytes)) (hq : q.run E ⟨ci, bs "|", false, false⟩ r = some rows)
    (hv : ∀ row ∈ rows, ∀ v ∈ row, C.lossy v = v)
    (hinj : ∀ a ∈ rows, ∀ b ∈ rows, joinText sep a = joinText sep b → a = b) :
    ∃ b msg, (Checks.duplicates E ci q threshold sep).check C r =
        some (.duplicates E ci q threshold sep, b, msg) ∧
      (b = true ↔ ∃ row ∈ rows, NonEmptyRow row ∧ threshold ≤ rows.count row) := by
  refine ⟨(duplicatesCheck C threshold (duplicateKeys C.lossy sep rows)).1,
    (duplicatesCheck C threshold (duplicateKeys C.lossy sep rows)).2, duplicates_check hq, ?_⟩
  rw [duplicatesCheck_iff, duplicateKeys_eq sep rows hv]
  have hcount : ∀ row ∈ rows, NonEmptyRow row →
      ((rows.filter (fun row => decide (NonEmptyRow row))).map (joinText sep)).count (joinText sep row) =
        rows.count row := by
    intro row hr hne
    rw [count_map_inj (fun x hx he => hinj x (List.mem_filter.1 hx).1 row hr he),
      List.count_filter (p := fun row => decide (NonEmptyRow row)) (decide_eq_true hne)]
  constructor
  · rintro ⟨k, hk, hge⟩
    obtain ⟨row, hrow, rfl⟩ := List.mem_map.1 hk
    obtain ⟨h1, h2⟩ := List.mem_filter.1 hrow
    have h2 : NonEmptyRow row := by simpa using h2
    exact ⟨row, h1, h2, by rw [← hcount row h1 h2]; exact hge⟩
  · rintro ⟨row, h1, h2, h3⟩
    exact ⟨joinText sep row, List.mem_map_of_mem (List.mem_filter.2 ⟨h1, decide_eq_true h2⟩),
      by rw [hcount row h1 h2]; exact h3⟩

/-- **C41** for UTF-8 values that do not contain the first byte of the separator. -/
theorem C41_separator_partial (C : CheckEnv) (hl : IsLossy C.lossy) (E : FmtEnv) (ci : Bool) (q : Query)
    (threshold : Nat) (b : Byte) (sep : Bytes) (r : Record) (n : Nat) (rows : List (List Bytes))
    (hq : q.run E ⟨ci, bs "|", false, false⟩ r = some rows) (hrect : Rect n rows)
    (hu : ∀ row ∈ rows, ∀ v ∈ row, utf8Valid v = true)
    (hb : n = 1 ∨ ∀ row ∈ rows, ∀ v ∈ row, b ∉ v) :
    ∃ f msg, (Checks.duplicates E ci q threshold (b :: sep)).check C r =
        some (.duplicates E ci q threshold (b :: sep), f, msg) ∧
      (f = true ↔ ∃ row ∈ rows, NonEmptyRow row ∧ threshold ≤ rows.count row) := by
  refine C41_fires_partial C E ci q threshold _ r rows hq (fun row hr v hv => hl.valid v (hu row hr v hv)) ?_
  intro x hx y hy h
  rcases hb with rfl | hb
  · have h1 := hrect.2 x hx
    have h2 := hrect.2 y hy
    match x, y, h1, h2 with
    | [x], [y], _, _ => rw [joinText_single, joinText_single] at h; rw [h]
  · exact joinText_inj x y (by rw [hrect.2 x hx, hrect.2 y hy]) (hb x hx) (hb y hy) h

/-- **C41** (no omission) a row with content that occurs at least `threshold` times
is always reported, whatever the separator is. -/
theorem C41_complete (C : CheckEnv) (E : FmtEnv) (ci : Bool) (q : Query) (threshold : Nat) (sep : Bytes)
    (r : Record) (rows : List (List Bytes)) (hq : q.run E ⟨ci, bs "|", false, false⟩ r = some rows)
    (row : List Bytes) (hr : row ∈ rows) (hne : NonEmptyRow (row.map C.lossy))
    (hge : threshold ≤ rows.count row) :
    ∃ msg, (Checks.duplicates E ci q threshold sep).check C r =
        some (.duplicates E ci q threshold sep, true, msg) := by
  have hk : ∀ l : List (List Bytes), l.count row ≤ (duplicateKeys C.lossy sep l).count
      (joinText sep (row.map C.lossy)) := by
    intro l
    unfold duplicateKeys
    have hall : duplicateKey C.lossy sep row = some (joinText sep (row.map C.lossy)) := by
      obtain ⟨v, h1, h2⟩ := hne
      rw [duplicateKey, if_neg]
      rw [List.all_eq_true]
      intro h3
      exact h2 (by simpa using h3 v h1)
    induction l with
    | nil => simp
    | cons x l ih =>
      rw [List.filterMap_cons, List.count_cons]
      by_cases hx : x = row
      · subst hx
        rw [hall]
        simp only [beq_self_eq_true, if_true, List.count_cons]
        omega
      · have : (x == row) = false := by simpa using hx
        rw [this]
        cases duplicateKey C.lossy sep x with
        | none => simpa using ih
        | some k => dsimp only; rw [List.count_cons]; simp only [Bool.false_eq_true, if_false]; omega
  have hmem : joinText sep (row.map C.lossy) ∈ duplicateKeys C.lossy sep rows := by
    have h1 := hk rows
    have h2 : 0 < rows.count row := List.count_pos_iff.2 hr
    exact List.count_pos_iff.1 (by omega)
  have hf : (duplicatesCheck C threshold (duplicateKeys C.lossy sep rows)).1 = true := by
    rw [duplicatesCheck_iff]
    exact ⟨_, hmem, Nat.le_trans hge (hk rows)⟩
  exact ⟨(duplicatesCheck C threshold (duplicateKeys C.lossy sep rows)).2, by rw [duplicates_check hq, ← hf]⟩

/-- **C41** is false: two different rows are reported as duplicates if their texts
coincide after joining. -/
theorem C41_collision_false (C : CheckEnv) (hl : ∀ v, utf8Valid v = true → C.lossy v = v) (E : FmtEnv)
    (ci : Bool) (q : Query) (r : Record)
    (hq : q.run E ⟨ci, bs "|", false, false⟩ r = some [[bs "a|b", bs "c"], [bs "a", bs "b|c"]]) :
    ∃ msg, (Checks.duplicates E ci q 2 (bs "|")).check C r =
      some (.duplicates E ci q 2 (bs "|"), true, msg) := by
  have hf : (duplicatesCheck C 2 (duplicateKeys C.lossy (bs "|") [[bs "a|b", bs "c"], [bs "a", bs "b|c"]])).1 = true := by
    rw [duplicatesCheck_iff, duplicateKeys_eq]
    · refine ⟨bs "a|b|c", ?_⟩
      decide +kernel
    · intro row hr v hv
      apply hl
      revert row v
      decide +kernel
  exact ⟨(duplicatesCheck C 2 (duplicateKeys C.lossy (bs "|") [[bs "a|b", bs "c"], [bs "a", bs "b|c"]])).2,
    by rw [duplicates_check hq, ← hf]⟩

/-! ## examples -/

/-- a check environment -/
def checkEnv : CheckEnv :=
  ⟨toyEnv, fun v => if utf8Valid v then v else [0xEF, 0xBF, 0xBD], id, id, fun v => v.dropWhile (· == 0x20)⟩

theorem checkEnv_lossy : IsLossy checkEnv.lossy := by
  constructor
  · intro v h; simp [checkEnv, h]
  · intro v h
    unfold checkEnv at h
    dsimp only at h
    split at h
    · exact h
    · simp at h

/-- the path `010@.a` -/
def langPath : Path := ⟨.tag (bs "010@"), .none, none, [bs "a"], bs "010@.a"⟩
/-- a record with language codes -/
def langRecord (codes : List String) : Record := [⟨bs "010@", none, codes.map (fun c => ⟨0x61, bs c⟩)⟩]

example : langPath.values toyEnv ⟨false⟩ (langRecord ["ger", "xxx"]) = some [bs "ger", bs "xxx"] := by decide +kernel
example : ((Checks.iso639 toyEnv ⟨false⟩ langPath).check checkEnv (langRecord ["ger", "xxx"])).map (·.2) =
    some (true, some (bs "xxx")) := by decide +kernel
example : ((Checks.iso639 toyEnv ⟨false⟩ langPath).check checkEnv (langRecord ["ger", ""])).map (·.2) =
    some (false, none) := by decide +kernel
example : ((Checks.iso639 toyEnv ⟨false⟩ langPath).check checkEnv (langRecord ["", ""])).map (·.2) =
    some (true, some (bs ", ")) := by decide +kernel
example : ((Checks.jel toyEnv ⟨false⟩ langPath).check checkEnv (langRecord ["A10"])).map (·.2) =
    some (false, none) := by decide +kernel

end Pica.Props
