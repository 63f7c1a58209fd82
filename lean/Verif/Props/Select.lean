import Verif.Model.Select
import Verif.Props.Query
import Verif.Props.Split
import Mathlib.Data.Fintype.EquivFin

/-! # C46: select -/

namespace Pica.Props
open Pica Spec

/-- a row that is written: not entirely empty, and with `--no-empty-columns`
without any empty cell -/
def Wanted (noEmptyColumns : Bool) (row : List Bytes) : Prop :=
  (∃ cell ∈ row, cell ≠ []) ∧ (noEmptyColumns = true → ∀ cell ∈ row, cell ≠ [])

open Classical in
/-- the rows that are written without `--unique` -/
noncomputable def wantedRows (noEmptyColumns : Bool) (rows : List (List Bytes)) : List (List Bytes) :=
  rows.filter (fun row => decide (Wanted noEmptyColumns row))

/-- every row at its first position only -/
def firsts (rows : List (List Bytes)) : List (List Bytes) :=
  (rows.zipIdx.filter (fun x : List Bytes × Nat => decide (x.1 ∉ rows.take x.2))).map Prod.fst

/-- the results of the query on the selected records -/
def SelResults (c : SelectCmd) (rs : List ByteRecord) (results : List (List (List Bytes))) : Prop :=
  All2 (fun r rows => c.query.run c.E c.qo r.record = some rows) (limited c.limit (picked c.sel rs)) results

theorem firsts_snoc (rows : List (List Bytes)) (r : List Bytes) :
    firsts (rows ++ [r]) = firsts rows ++ (if r ∈ rows then [] else [r]) := by
  unfold firsts
  rw [List.zipIdx_append, List.filter_append, List.map_append]
  congr 1
  · congr 1
    apply List.filter_congr
    intro x hx
    have := List.mem_zipIdx hx
    rw [List.take_append_of_le_length (by omega)]
  · simp only [List.zipIdx_cons, List.zipIdx_nil, Nat.zero_add]
    rw [List.filter_cons]
    simp only [List.take_append_of_le_length (Nat.le_refl rows.length), List.take_length]
    by_cases h : r ∈ rows <;> simp [h]

theorem snoc_induction {α : Type} {P : List α → Prop} (h0 : P []) (h1 : ∀ l a, P l → P (l ++ [a]))
    (l : List α) : P l := by
  have : P l.reverse.reverse := by
    generalize l.reverse = m
    induction m with
    | nil => exact h0
    | cons a m ih => rw [List.reverse_cons]; exact h1 _ _ ih
  rwa [List.reverse_reverse] at this

/-- what the specification of first positions means -/
theorem firsts_spec (rows : List (List Bytes)) :
    (firsts rows).Nodup ∧ (firsts rows).Sublist rows ∧ ∀ r, r ∈ firsts rows ↔ r ∈ rows := by
  refine snoc_induction (P := fun rows => (firsts rows).Nodup ∧ (firsts rows).Sublist rows ∧
    ∀ r, r ∈ firsts rows ↔ r ∈ rows) ⟨by simp [firsts], by simp [firsts], by simp [firsts]⟩ ?_ rows
  intro rows a ⟨h1, h2, h3⟩
  rw [firsts_snoc]
  by_cases h : a ∈ rows
  · rw [if_pos h, List.append_nil]
    refine ⟨h1, h2.trans (List.sublist_append_left _ _), fun r => ?_⟩
    rw [h3, List.mem_append, List.mem_singleton]
    constructor
    · exact .inl
    · rintro (h' | rfl)
      · exact h'
      · exact h
  · rw [if_neg h]
    refine ⟨?_, h2.append (List.Sublist.refl _), fun r => ?_⟩
    · rw [List.nodup_append]
      refine ⟨h1, by simp, ?_⟩
      intro x hx y hy
      rw [List.mem_singleton] at hy
      subst hy
      exact fun e => h (e ▸ (h3 x).1 hx)
    · rw [List.mem_append, List.mem_append, h3]

theorem wanted_iff (c : SelectCmd) (row : List Bytes) :
    Wanted c.noEmptyColumns row ↔
      ¬ (c.noEmptyColumns && row.any (fun e => e.isEmpty)) = true ∧ (!row.all (fun e => e.isEmpty)) = true := by
  unfold Wanted
  simp only [Bool.and_eq_true, List.any_eq_true, not_and, not_exists, List.isEmpty_iff, Bool.not_eq_true',
    Bool.eq_false_iff, ne_eq, List.all_eq_true, Classical.not_forall]
  constructor
  · rintro ⟨⟨x, h1, h2⟩, h3⟩
    exact ⟨fun h x hx => h3 h x hx, x, h1, h2⟩
  · rintro ⟨h3, x, h1, h2⟩
    exact ⟨⟨x, h1, h2⟩, fun h x hx => h3 h x hx⟩

theorem select_fold (c : SelectCmd) (results : List (List (List Bytes))) : ∀ s : SelectState,
    (results.foldl c.step s).out = (results.flatten.foldl c.row s).out ∧
    (results.foldl c.step s).seen = (results.flatten.foldl c.row s).seen := by
  have hcnt : ∀ (rows : List (List Bytes)) (s : SelectState) (n : Nat),
      (rows.foldl c.row { s with count := n }).out = (rows.foldl c.row s).out ∧
      (rows.foldl c.row { s with count := n }).seen = (rows.foldl c.row s).seen := by
    intro rows
    induction rows with
    | nil => intro s n; exact ⟨rfl, rfl⟩
    | cons r rows ih =>
      intro s n
      rw [List.foldl_cons, List.foldl_cons]
      have : c.row { s with count := n } r = { c.row s r with count := n } := by
        unfold SelectCmd.row
        by_cases h1 : (c.noEmptyColumns && r.any (fun e => e.isEmpty)) = true
        · rw [if_pos h1, if_pos h1]
        · rw [if_neg h1, if_neg h1]
          by_cases h2 : (c.unique && s.seen.contains (c.hash r)) = true
          · rw [if_pos h2, if_pos h2]
          · rw [if_neg h2, if_neg h2]
            cases c.unique <;> cases (!r.all (fun e => e.isEmpty)) <;> rfl
      rw [this]; exact ih _ _
  induction results with
  | nil => intro s; exact ⟨rfl, rfl⟩
  | cons rows results ih =>
    intro s
    rw [List.foldl_cons, List.flatten_cons, List.foldl_append]
    obtain ⟨h1, h2⟩ := ih (c.step s rows)
    rw [h1, h2]
    exact hcnt _ _ _

theorem select_run {c : SelectCmd} {files : List (String × Bytes)} {rs : List ByteRecord}
    (hi : Input files rs) {s : SelectState} (h : c.run files = .ok s) :
    ∃ results, SelResults c rs results ∧ s.out = (results.flatten.foldl c.row ⟨[], [], 0⟩).out := by
  obtain ⟨results, h1, h2⟩ := result_ok (cnt := SelectState.count) (g := c.step)
    (fun _ _ => by
      rename_i s x
      have : ∀ (rows : List (List Bytes)) (s : SelectState), (rows.foldl c.row s).count = s.count := by
        intro rows
        induction rows with
        | nil => intro s; rfl
        | cons r rows ih =>
          intro s
          rw [List.foldl_cons, ih]
          unfold SelectCmd.row
          dsimp only
          split
          · rfl
          · split
            · rfl
            · cases c.unique <;> cases (!r.all (fun e => e.isEmpty)) <;> rfl
      rw [SelectCmd.step, this]) hi rfl h
  rw [chosen_eq_picked] at h1
  exact ⟨results, h1, by rw [h2, (select_fold c results _).1]⟩

/-- **C46** without `--unique` exactly the wanted rows of the query results are
written, in order. -/
theorem C46_rows (c : SelectCmd) (hu : c.unique = false) (files : List (String × Bytes))
    (rs : List ByteRecord) (hi : Input files rs) (s : SelectState) (h : c.run files = .ok s) :
    ∃ results, SelResults c rs results ∧
      s.out = (wantedRows c.noEmptyColumns results.flatten).map (·.map c.text) := by
  obtain ⟨results, h1, h2⟩ := select_run hi h
  refine ⟨results, h1, ?_⟩
  rw [h2]
  generalize results.flatten = rows
  refine snoc_induction (P := fun rows => (rows.foldl c.row ⟨[], [], 0⟩).out =
    (wantedRows c.noEmptyColumns rows).map (·.map c.text)) rfl ?_ rows
  intro rows r ih
  rw [List.foldl_append, List.foldl_cons, List.foldl_nil, wantedRows, List.filter_append, List.map_append,
    ← wantedRows, ← ih, SelectCmd.row, hu]
  have hw := wanted_iff c r
  by_cases h1 : (c.noEmptyColumns && r.any (fun e => e.isEmpty)) = true
  · rw [if_pos h1]
    have : ¬ Wanted c.noEmptyColumns r := fun h => (hw.1 h).1 h1
    simp [this]
  · rw [if_neg h1]
    by_cases h2 : (!r.all (fun e => e.isEmpty)) = true
    · have : Wanted c.noEmptyColumns r := hw.2 ⟨h1, h2⟩
      simp [this, h2]
    · have : ¬ Wanted c.noEmptyColumns r := fun h => h2 (hw.1 h).2
      simp [this, h2]

/-- **C46** with `--unique`, exactly the wanted rows are written, each at its first
position only, provided that no two rows have the same hash.
Missing: hash collisions, see below. -/
theorem C46_unique_partial (c : SelectCmd) (hu : c.unique = true) (files : List (String × Bytes))
    (rs : List ByteRecord) (hi : Input files rs) (s : SelectState) (h : c.run files = .ok s) :
    ∃ results, SelResults c rs results ∧
      ((∀ a ∈ results.flatten, ∀ b ∈ results.flatten, c.hash a = c.hash b → a = b) →
        s.out = (firsts (wantedRows c.noEmptyColumns results.flatten)).map (·.map c.text)) := by
  obtain ⟨results, h1, h2⟩ := select_run hi h
  refine ⟨results, h1, ?_⟩
  rw [h2]
  generalize results.flatten = rows
  have key : ∀ rows : List (List Bytes), (∀ a ∈ rows, ∀ b ∈ rows, c.hash a = c.hash b → a = b) →
      (rows.foldl c.row ⟨[], [], 0⟩).out =
        (firsts (wantedRows c.noEmptyColumns rows)).map (·.map c.text) ∧
      ∀ n, n ∈ (rows.foldl c.row ⟨[], [], 0⟩).seen ↔
        ∃ r ∈ rows, ¬ (c.noEmptyColumns && r.any (fun e => e.isEmpty)) = true ∧ c.hash r = n := by
    intro rows
    refine snoc_induction (P := fun rows => (∀ a ∈ rows, ∀ b ∈ rows, c.hash a = c.hash b → a = b) →
      (rows.foldl c.row ⟨[], [], 0⟩).out =
        (firsts (wantedRows c.noEmptyColumns rows)).map (·.map c.text) ∧
      ∀ n, n ∈ (rows.foldl c.row ⟨[], [], 0⟩).seen ↔
        ∃ r ∈ rows, ¬ (c.noEmptyColumns && r.any (fun e => e.isEmpty)) = true ∧ c.hash r = n)
      (fun _ => ⟨by simp [wantedRows, firsts], by simp⟩) ?_ rows
    intro rows r ih hinj
    obtain ⟨ih1, ih2⟩ := ih (fun a ha b hb => hinj a (by simp [ha]) b (by simp [hb]))
    rw [List.foldl_append, List.foldl_cons, List.foldl_nil]
    generalize rows.foldl c.row ⟨[], [], 0⟩ = st at ih1 ih2 ⊢
    have hw := wanted_iff c r
    have hsnoc : wantedRows c.noEmptyColumns (rows ++ [r]) = wantedRows c.noEmptyColumns rows ++
        wantedRows c.noEmptyColumns [r] := by rw [wantedRows, List.filter_append]; rfl
    by_cases h1 : (c.noEmptyColumns && r.any (fun e => e.isEmpty)) = true
    · rw [SelectCmd.row, if_pos h1]
      have hn : ¬ Wanted c.noEmptyColumns r := fun h => (hw.1 h).1 h1
      have hr : wantedRows c.noEmptyColumns [r] = [] := by simp [wantedRows, hn]
      rw [hsnoc, hr, List.append_nil]
      refine ⟨ih1, fun n => ?_⟩
      rw [ih2]
      constructor
      · rintro ⟨x, hx, h⟩; exact ⟨x, by simp [hx], h⟩
      · rintro ⟨x, hx, h⟩
        rcases List.mem_append.1 hx with hx | hx
        · exact ⟨x, hx, h⟩
        · rw [List.mem_singleton] at hx; subst hx; exact absurd h1 h.1
    · rw [SelectCmd.row, if_neg h1, hu]
      by_cases h2 : c.hash r ∈ st.seen
      · rw [if_pos (by simpa using h2)]
        obtain ⟨x, hx, hx1, hx2⟩ := (ih2 _).1 h2
        have hxr : x = r := hinj x (by simp [hx]) r (by simp) hx2
        subst hxr
        refine ⟨?_, fun n => ?_⟩
        · rw [hsnoc, ih1]
          by_cases hn : Wanted c.noEmptyColumns x
          · have hr : wantedRows c.noEmptyColumns [x] = [x] := by simp [wantedRows, hn]
            have hm : x ∈ wantedRows c.noEmptyColumns rows := by simp [wantedRows, hn, hx]
            rw [hr, firsts_snoc, if_pos hm, List.append_nil]
          · have hr : wantedRows c.noEmptyColumns [x] = [] := by simp [wantedRows, hn]
            rw [hr, List.append_nil]
        · rw [ih2]
          constructor
          · rintro ⟨y, hy, h⟩; exact ⟨y, by simp [hy], h⟩
          · rintro ⟨y, hy, h⟩
            rcases List.mem_append.1 hy with hy | hy
            · exact ⟨y, hy, h⟩
            · rw [List.mem_singleton] at hy; subst hy; exact ⟨_, hx, h⟩
      · rw [if_neg (by simpa using h2)]
        have hnot : r ∉ rows := fun hm => h2 ((ih2 _).2 ⟨r, hm, h1, rfl⟩)
        have hseen : ∀ n, n ∈ c.hash r :: st.seen ↔ ∃ x ∈ rows ++ [r],
            ¬ (c.noEmptyColumns && x.any (fun e => e.isEmpty)) = true ∧ c.hash x = n := by
          intro n
          rw [List.mem_cons, ih2]
          constructor
          · rintro (rfl | ⟨y, hy, h⟩)
            · exact ⟨r, by simp, h1, rfl⟩
            · exact ⟨y, by simp [hy], h⟩
          · rintro ⟨y, hy, h⟩
            rcases List.mem_append.1 hy with hy | hy
            · exact .inr ⟨y, hy, h⟩
            · rw [List.mem_singleton] at hy; subst hy; exact .inl h.2.symm
        by_cases h3 : (!r.all (fun e => e.isEmpty)) = true
        · have hn : Wanted c.noEmptyColumns r := hw.2 ⟨h1, h3⟩
          have hr : wantedRows c.noEmptyColumns [r] = [r] := by simp [wantedRows, hn]
          have hm : r ∉ wantedRows c.noEmptyColumns rows := by simp [wantedRows, hnot]
          rw [hsnoc, hr, firsts_snoc, if_neg hm]
          simp only [if_true, h3, List.map_append, ih1]
          exact ⟨rfl, hseen⟩
        · have hn : ¬ Wanted c.noEmptyColumns r := fun h => h3 (hw.1 h).2
          have hr : wantedRows c.noEmptyColumns [r] = [] := by simp [wantedRows, hn]
          rw [hsnoc, hr, List.append_nil]
          simp only [if_true, h3, if_false]
          exact ⟨ih1, hseen⟩
  exact fun hinj => (key rows hinj).1

/-- **C46** is false with `--unique` when two rows have the same hash: whichever
row comes later is lost. -/
theorem C46_collision_false (c : SelectCmd) (hu : c.unique = true) (a b : List Bytes)
    (ha : Wanted c.noEmptyColumns a) (hc : c.hash a = c.hash b)
    (files : List (String × Bytes)) (rs : List ByteRecord) (hi : Input files rs) (s : SelectState)
    (h : c.run files = .ok s) (hres : SelResults c rs [[a, b]]) :
    s.out = [a.map c.text] := by
  obtain ⟨results, h1, h2⟩ := select_run hi h
  have he : results = [[a, b]] := by
    unfold SelResults at h1 hres
    generalize limited c.limit (picked c.sel rs) = l at h1 hres
    cases hres with
    | cons hb hn =>
      cases hn
      cases h1 with
      | cons hb' hn' =>
        cases hn'
        rw [hb] at hb'
        cases hb'
        rfl
  subst he
  rw [h2]
  obtain ⟨h3, h4⟩ := (wanted_iff c a).1 ha
  simp only [List.flatten_cons, List.flatten_nil, List.append_nil, List.foldl_cons, List.foldl_nil]
  rw [SelectCmd.row, SelectCmd.row, if_neg h3, hu]
  simp only [h4, if_true, List.contains_nil, Bool.and_false, Bool.false_eq_true, if_false, List.nil_append,
    List.contains_cons, ← hc, beq_self_eq_true, Bool.true_or, Bool.true_and]
  split <;> rfl

/-- such rows exist for every 64-bit hash, even among the rows consisting of one
cell of letters `a` -/
theorem C46_collisions_exist (hash : List Bytes → Nat) (hb : ∀ r, hash r < 2 ^ 64) :
    ∃ i j, i < j ∧ hash [List.replicate (i + 1) 0x61] = hash [List.replicate (j + 1) 0x61] := by
  have := not_injective_infinite_finite (fun n : Nat =>
    (⟨hash [List.replicate (n + 1) 0x61], hb _⟩ : Fin (2 ^ 64)))
  rw [Function.Injective] at this
  simp only [Fin.mk.injEq, Classical.not_forall] at this
  obtain ⟨i, j, h, hne⟩ := this
  rcases Nat.lt_or_gt_of_ne hne with h' | h'
  · exact ⟨i, j, h', h⟩
  · exact ⟨j, i, h', h.symm⟩

/-- **C46** is false with `--unique` and `--translit`: rows are compared before the
transliteration, so that the same row is written twice. -/
theorem C46_translit_false (c : SelectCmd) (hu : c.unique = true) (a b : List Bytes)
    (ha : Wanted c.noEmptyColumns a) (hb : Wanted c.noEmptyColumns b) (hne : c.hash a ≠ c.hash b)
    (ht : a.map c.text = b.map c.text)
    (files : List (String × Bytes)) (rs : List ByteRecord) (hi : Input files rs) (s : SelectState)
    (h : c.run files = .ok s) (hres : SelResults c rs [[a, b]]) :
    ¬ s.out.Nodup := by
  obtain ⟨results, h1, h2⟩ := select_run hi h
  have he : results = [[a, b]] := by
    unfold SelResults at h1 hres
    generalize limited c.limit (picked c.sel rs) = l at h1 hres
    cases hres with
    | cons hb hn =>
      cases hn
      cases h1 with
      | cons hb' hn' =>
        cases hn'
        rw [hb] at hb'
        cases hb'
        rfl
  subst he
  rw [h2]
  obtain ⟨h3, h4⟩ := (wanted_iff c a).1 ha
  obtain ⟨h5, h6⟩ := (wanted_iff c b).1 hb
  have hne' : ¬ c.hash b = c.hash a := fun e => hne e.symm
  simp only [List.flatten_cons, List.flatten_nil, List.append_nil, List.foldl_cons, List.foldl_nil]
  rw [SelectCmd.row, SelectCmd.row, if_neg h3, if_neg h5, hu]
  simp [h4, h6, hne', ht]

/-- **C46** the command finishes when the invalid lines are skipped or absent and
lists, matcher and query do not panic. -/
theorem C46_finishes (c : SelectCmd) (files : List (String × Bytes)) (rs : List ByteRecord)
    (hi : Input files rs) (hc : c.skip = true ∨ AllValid files)
    (hp : ∀ r ∈ rs, NoPanic c.sel r.record)
    (hq : ∀ r ∈ rs, (c.query.run c.E c.qo r.record).isSome) : ∃ s, c.run files = .ok s := by
  obtain ⟨s, hs⟩ := result_clean (limit := c.limit) (cnt := SelectState.count) (g := c.step)
    (f := fun r => c.query.run c.E c.qo r.record)
    (fun s x => by
      have : ∀ (rows : List (List Bytes)) (s : SelectState), (rows.foldl c.row s).count = s.count := by
        intro rows
        induction rows with
        | nil => intro s; rfl
        | cons r rows ih =>
          intro s
          rw [List.foldl_cons, ih]
          unfold SelectCmd.row
          dsimp only
          split
          · rfl
          · split
            · rfl
            · cases c.unique <;> cases (!r.all (fun e => e.isEmpty)) <;> rfl
      rw [SelectCmd.step, this]) hi hc (fun r hr => test_total (hp r hr)) hq ⟨[], [], 0⟩ rfl
  exact ⟨s, hs⟩

/-- a select command on `003@.0`, `003@.1` -/
def selectSample (unique noEmpty : Bool) (hash : List Bytes → Nat) : Option SelectCmd :=
  (queryM "003@{0,1}").map (fun q => ⟨false, unique, noEmpty, 0, q, toyFmt,
    ⟨false, bs "|", false, false⟩, hash, id, noSelection⟩)

/-- a record with the rows `x,y` and `x,` -/
def selectLine (s : String) : Bytes :=
  bs "003@ " ++ [0x1F] ++ bs "0x" ++ [0x1F] ++ bs "1" ++ bs s ++ [0x1E] ++ bs "003@ " ++ [0x1F] ++ bs "0x" ++ [0x1E]
    ++ bs "003@ " ++ [0x1F] ++ bs "2x" ++ [0x1E, 0x0A]

/-- an injective hash of the rows used below -/
def toyHash (r : List Bytes) : Nat := r.foldl (fun n c => c.foldl (fun n b => n * 256 + b.toNat) (n * 256 + 1)) 0

example : (selectSample false false toyHash).map (·.run [("a", selectLine "y" ++ selectLine "y")]) =
    some (.ok ⟨[[bs "x", bs "y"], [bs "x", []], [bs "x", bs "y"], [bs "x", []]], [], 2⟩) := by decide +kernel
example : ((selectSample true false toyHash).map (·.run [("a", selectLine "y" ++ selectLine "y")])).map
    (fun r => match r with | .ok s => s.out | _ => []) =
    some [[bs "x", bs "y"], [bs "x", []]] := by decide +kernel
example : ((selectSample false true toyHash).map (·.run [("a", selectLine "y" ++ selectLine "z")])).map
    (fun r => match r with | .ok s => s.out | _ => []) =
    some [[bs "x", bs "y"], [bs "x", bs "z"]] := by decide +kernel
/-- a hash with a collision: the second row is lost -/
example : ((selectSample true true List.length).map (·.run [("a", selectLine "y" ++ selectLine "z")])).map
    (fun r => match r with | .ok s => s.out | _ => []) =
    some [[bs "x", bs "y"]] := by decide +kernel
/-- a transliteration that maps `y` and `z` to the same letter: the row is repeated -/
example : ((selectSample true true toyHash).map (fun c => { c with
      text := fun v => if v = bs "z" then bs "y" else v }.run [("a", selectLine "y" ++ selectLine "z")])).map
    (fun r => match r with | .ok s => s.out | _ => []) =
    some [[bs "x", bs "y"], [bs "x", bs "y"]] := by decide +kernel

/-! ## the theorems on concrete files -/

example := C46_rows ((selectSample false false toyHash).get (by decide +kernel)) (by decide +kernel)
  [("a", selectLine "y" ++ selectLine "y")] _ (input_of _)
  ⟨[[bs "x", bs "y"], [bs "x", []], [bs "x", bs "y"], [bs "x", []]], [], 2⟩ (by decide +kernel)
example := C46_unique_partial ((selectSample true false (fun r => r.length)).get (by decide +kernel)) (by decide +kernel)
  [("a", selectLine "y" ++ selectLine "y")] _ (input_of _) ⟨[[bs "x", bs "y"]], [2], 2⟩ (by decide +kernel)
example := C46_collisions_exist (fun r => r.length % 2 ^ 64) (fun _ => Nat.mod_lt _ (by decide))
example := C46_finishes ((selectSample true false toyHash).get (by decide +kernel)) [("a", selectLine "y" ++ selectLine "y")]
  _ (input_of _) (.inr (allValid_of (by decide +kernel))) (noPanic_of (by decide +kernel)) (by decide +kernel)

end Pica.Props
