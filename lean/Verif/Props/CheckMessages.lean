import Verif.Props.CheckRules

/-! # C39, C41, C42: messages of the checks, and the reports of the command -/

namespace Pica.Props
open Pica Spec

/-! ## C39: isni -/

/-- the value is looked at and the number in it is not accepted -/
def IsniBad (pre : Option Bytes) (v : Bytes) : Prop :=
  match pre with
  | none => isniOk v = false
  | some p => ∃ w, v = p ++ w ∧ isniOk w = false

theorem isniAccepts_iff (pre : Option Bytes) (v : Bytes) : isniAccepts pre v = false ↔ IsniBad pre v := by
  unfold IsniBad
  cases pre with
  | none => rfl
  | some p =>
    rw [isniAccepts]
    split
    · rename_i hp
      obtain ⟨w, rfl⟩ := List.isPrefixOf_iff_prefix.1 hp
      rw [List.drop_left]
      constructor
      · exact fun h => ⟨w, rfl, h⟩
      · rintro ⟨w', he, h⟩
        rw [List.append_cancel_left he]; exact h
    · rename_i hp
      simp only [Bool.true_eq_false, false_iff]
      rintro ⟨w, rfl, _⟩
      exact hp (List.isPrefixOf_iff_prefix.2 (List.prefix_append p w))

open Classical in
/-- **C39** (message) the message lists exactly the values that are not accepted. -/
theorem C39_message (C : CheckEnv) (E : Env) (o : Opts) (path : Path) (pre : Option Bytes) (r : Record)
    (vs : List Bytes) (hv : path.values E o r = some vs) :
    ∃ b msg, (Checks.isni E o path pre).check C r = some (.isni E o path pre, b, msg) ∧
      (b = true ↔ ∃ v ∈ vs, IsniBad pre v) ∧
      Lists msg ((vs.filter (fun v => decide (IsniBad pre v))).map C.lossy) := by
  have e : vs.filter (fun v => !isniAccepts pre v) = vs.filter (fun v => decide (IsniBad pre v)) :=
    List.filter_congr (fun v _ => by rw [Bool.eq_iff_iff]; simp [isniAccepts_iff])
  obtain ⟨h1, h2⟩ := badValues_spec C.lossy (vs.filter (fun v => decide (IsniBad pre v)))
  refine ⟨(badValues C.lossy (vs.filter (fun v => decide (IsniBad pre v)))).1,
    (badValues C.lossy (vs.filter (fun v => decide (IsniBad pre v)))).2,
    by rw [Checks.check, hv, ← e]; rfl, ?_, h2⟩
  rw [h1, ne_eq, List.filter_eq_nil_iff]
  simp only [decide_eq_true_eq, Classical.not_forall, Classical.not_not]
  exact ⟨fun ⟨v, h3, h4⟩ => ⟨v, h3, h4⟩, fun ⟨v, h3, h4⟩ => ⟨v, h3, h4⟩⟩

open Classical in
/-- **C39** (command) exactly the records in scope with such a value are reported,
once each. -/
theorem C39_command (c : CheckCmd) (scope : Option RecordMatcher) (id : Bytes) (tags : Option (List Bytes))
    (level : CheckLevel) (E : Env) (o : Opts) (path : Path) (pre : Option Bytes)
    (hx : HasRule c scope ⟨id, tags, level, .isni E o path pre⟩)
    (hw : Chosen c ⟨id, tags, level, .isni E o path pre⟩) (hnf : c.NoFast)
    (files : List (String × Bytes)) (rs : List ByteRecord) (hi : Input files rs) (out : List Report)
    (h : c.run files = .ok out) :
    ∃ msg : Record → Option Bytes,
      (∀ r vs, path.values E o r = some vs →
        Lists (msg r) ((vs.filter (fun v => decide (IsniBad pre v))).map c.C.lossy)) ∧
      (out.filter (fun o => o.rule == id)).Perm
        (((examined c rs).filter (fun r => decide (InScope c.C scope r ∧
            ∃ vs, path.values E o r = some vs ∧ ∃ v ∈ vs, IsniBad pre v))).map
          (fun r => ⟨(r.ppn c.C.E₀ ⟨false⟩).getD none, id, level, msg r⟩)) := by
  refine ⟨fun r => match (Checks.isni E o path pre).check c.C r with
    | some z => z.2.2
    | none => none, ?_, ?_⟩
  · intro r vs hv
    obtain ⟨b, msg, h1, _, h3⟩ := C39_message c.C E o path pre r vs hv
    dsimp only
    rw [h1]
    exact h3
  · refine stateless_command hx hw hnf hi h (fun r => ∃ vs, path.values E o r = some vs ∧
      ∃ v ∈ vs, IsniBad pre v) _ _ (fun r => by simp) (fun _ => rfl) rfl ?_
    intro r c' b m hc
    dsimp only at hc
    cases hv : path.values E o r with
    | none => rw [Checks.check, hv] at hc; simp at hc
    | some vs =>
      obtain ⟨b', msg, h1, h2, _⟩ := C39_message c.C E o path pre r vs hv
      have he := hc.symm.trans h1
      simp only [Option.some.injEq, Prod.mk.injEq] at he
      refine ⟨he.1, ?_, fun _ => by rw [hc]⟩
      rw [he.2.1, h2]
      simp

/-! ## C42: lists -/

/-- the selected values that are not in the list -/
def outside (list vs : List Bytes) : List Bytes := vs.filter (fun v => decide (v ∉ list))

/-- **C42** (message) the message lists exactly the values outside the list, except
that a single empty value is not reported. -/
theorem C42_message (C : CheckEnv) (hl : IsLossy C.lossy) (c : Checks) (E : Env) (o : Opts) (p : Path)
    (list : List Bytes) (h : ListRule c E o p list) (r : Record) (vs : List Bytes)
    (hv : p.values E o r = some vs) :
    ∃ b msg, c.check C r = some (c, b, msg) ∧
      (b = true ↔ outside list vs ≠ [] ∧ outside list vs ≠ [[]]) ∧
      (b = true → Lists msg ((outside list vs).map C.lossy)) ∧ (b = false → msg = none) := by
  refine ⟨(listCheck C.lossy list vs).1, (listCheck C.lossy list vs).2, listRule_check h hv,
    listCheck_iff hl list vs, ?_, ?_⟩
  · intro hb
    have hne := (listCheck_iff hl list vs).1 hb
    have e : vs.filter (fun v => !list.contains v) = outside list vs :=
      List.filter_congr (fun v _ => by simp)
    unfold listCheck at hb ⊢
    dsimp only at hb ⊢
    rw [e] at hb ⊢
    split
    · exact .inr ⟨fun h0 => hne.1 (List.map_eq_nil_iff.1 h0), rfl⟩
    · rename_i h1; rw [if_neg h1] at hb; simp at hb
  · intro hb
    unfold listCheck at hb ⊢
    dsimp only at hb ⊢
    split
    · rename_i h1; rw [if_pos h1] at hb; simp at hb
    · rfl

open Classical in
/-- **C42** (command) exactly the records in scope with a value outside the list are
reported, once each, except for those with a single empty value outside. -/
theorem C42_command (c : CheckCmd) (hl : IsLossy c.C.lossy) (scope : Option RecordMatcher) (id : Bytes)
    (tags : Option (List Bytes)) (level : CheckLevel) (k : Checks) (E : Env) (o : Opts) (path : Path)
    (list : List Bytes) (hk : ListRule k E o path list)
    (hx : HasRule c scope ⟨id, tags, level, k⟩) (hw : Chosen c ⟨id, tags, level, k⟩) (hnf : c.NoFast)
    (files : List (String × Bytes)) (rs : List ByteRecord) (hi : Input files rs) (out : List Report)
    (h : c.run files = .ok out) :
    ∃ msg : Record → Option Bytes,
      (∀ r vs, path.values E o r = some vs → outside list vs ≠ [] → outside list vs ≠ [[]] →
        Lists (msg r) ((outside list vs).map c.C.lossy)) ∧
      (out.filter (fun o => o.rule == id)).Perm
        (((examined c rs).filter (fun r => decide (InScope c.C scope r ∧
            ∃ vs, path.values E o r = some vs ∧ outside list vs ≠ [] ∧ outside list vs ≠ [[]]))).map
          (fun r => ⟨(r.ppn c.C.E₀ ⟨false⟩).getD none, id, level, msg r⟩)) := by
  refine ⟨fun r => match k.check c.C r with
    | some z => z.2.2
    | none => none, ?_, ?_⟩
  · intro r vs hv h2 h3
    obtain ⟨b, msg, h1, h4, h5, _⟩ := C42_message c.C hl k E o path list hk r vs hv
    dsimp only
    rw [h1]
    exact h5 (h4.2 ⟨h2, h3⟩)
  · refine stateless_command hx hw hnf hi h (fun r => ∃ vs, path.values E o r = some vs ∧
      outside list vs ≠ [] ∧ outside list vs ≠ [[]]) _ _ (fun r => by simp) ?_ ?_ ?_
    · intro r; cases hk <;> rfl
    · cases hk <;> rfl
    intro r c' b m hc
    dsimp only at hc
    cases hv : path.values E o r with
    | none => cases hk <;> · rw [Checks.check, hv] at hc; simp at hc
    | some vs =>
      obtain ⟨b', msg, h1, h2, _⟩ := C42_message c.C hl k E o path list hk r vs hv
      have he := hc.symm.trans h1
      simp only [Option.some.injEq, Prod.mk.injEq] at he
      refine ⟨he.1, ?_, fun _ => by rw [hc]⟩
      rw [he.2.1, h2]
      simp

/-! ## C41: duplicates -/

/-- a list with distinct keys -/
theorem tallyAdd_nodup {t : List (Bytes × Nat)} (h : (t.map (·.1)).Nodup) (k : Bytes) :
    ((tallyAdd t k).map (·.1)).Nodup := by
  unfold tallyAdd
  split
  · rw [List.map_map]
    have : ((fun x : Bytes × Nat => x.1) ∘ fun x => if x.1 == k then (x.1, x.2 + 1) else x) = (·.1) := by
      funext x
      simp only [Function.comp]
      split <;> rfl
    rw [this]
    exact h
  · rename_i hk
    rw [List.map_append, List.nodup_append]
    refine ⟨h, by simp, ?_⟩
    intro a ha b hb hab
    simp only [List.map_cons, List.map_nil, List.mem_singleton] at hb
    subst hab
    subst hb
    obtain ⟨x, hx, rfl⟩ := List.mem_map.1 ha
    exact hk (List.any_eq_true.2 ⟨x, hx, by simp⟩)

theorem tally_nodup (l : List Bytes) : ∀ t : List (Bytes × Nat), (t.map (·.1)).Nodup →
    ((l.foldl tallyAdd t).map (·.1)).Nodup := by
  induction l with
  | nil => exact fun _ h => h
  | cons k l ih => exact fun t h => ih _ (tallyAdd_nodup h k)

/-- the text of a row -/
def rowText (lossy : Bytes → Bytes) (sep : Bytes) (row : List Bytes) : Bytes :=
  ((row.map lossy).intersperse sep).flatten

/-- the number of rows with content that have this text -/
def textCount (lossy : Bytes → Bytes) (sep : Bytes) (rows : List (List Bytes)) (t : Bytes) : Nat :=
  rows.countP (fun row => decide (NonEmptyRow (row.map lossy) ∧ rowText lossy sep row = t))

theorem duplicateKey_eq (lossy : Bytes → Bytes) (sep : Bytes) (row : List Bytes) :
    duplicateKey lossy sep row = if NonEmptyRow (row.map lossy) then some (rowText lossy sep row) else none := by
  unfold duplicateKey
  by_cases h : NonEmptyRow (row.map lossy)
  · rw [if_pos h, if_neg]
    · rfl
    · rw [List.all_eq_true]
      obtain ⟨v, h1, h2⟩ := h
      intro h3
      exact h2 (by simpa using h3 v h1)
  · rw [if_neg h, if_pos]
    rw [List.all_eq_true]
    intro v hv
    have : ¬ v ≠ [] := fun hne => h ⟨v, hv, hne⟩
    simpa using this

theorem count_duplicateKeys (lossy : Bytes → Bytes) (sep : Bytes) (rows : List (List Bytes)) (t : Bytes) :
    (duplicateKeys lossy sep rows).count t = textCount lossy sep rows t := by
  unfold duplicateKeys textCount
  induction rows with
  | nil => rfl
  | cons row rows ih =>
    rw [List.filterMap_cons, List.countP_cons, ← ih, duplicateKey_eq]
    by_cases h : NonEmptyRow (row.map lossy)
    · rw [if_pos h]
      dsimp only
      rw [List.count_cons]
      by_cases ht : rowText lossy sep row = t
      · simp [ht, h]
      · simp [ht]
    · rw [if_neg h]
      simp [h]

/-- **C41** (message) the message lists, once each, the texts that at least
`threshold` rows with content have. -/
theorem C41_message (C : CheckEnv) (hperm : ∀ l, (C.iterDup l).Perm l) (E : FmtEnv) (ci : Bool) (q : Query)
    (threshold : Nat) (sep : Bytes) (r : Record) (rows : List (List Bytes))
    (hq : q.run E ⟨ci, bs "|", false, false⟩ r = some rows) :
    ∃ b msg texts, (Checks.duplicates E ci q threshold sep).check C r =
        some (.duplicates E ci q threshold sep, b, msg) ∧
      texts.Nodup ∧
      (∀ t, t ∈ texts ↔ 0 < textCount C.lossy sep rows t ∧ threshold ≤ textCount C.lossy sep rows t) ∧
      (b = true ↔ texts ≠ []) ∧
      msg = if texts = [] then none else some ((texts.intersperse (bs "; ")).flatten) := by
  generalize hk : duplicateKeys C.lossy sep rows = keys
  generalize hfr : (keys.foldl tallyAdd []).filter (fun x => decide (x.2 ≥ threshold)) = freqs
  have ht : IsTally keys (keys.foldl tallyAdd []) := by
    have := tally_fold keys [] [] ⟨by simp, by simp⟩
    simpa using this
  have hn : ((keys.foldl tallyAdd []).map (·.1)).Nodup := tally_nodup keys [] (by simp)
  have hlen : (C.iterDup freqs).map (·.1) = [] ↔ freqs = [] := by
    constructor
    · intro h
      rw [List.map_eq_nil_iff] at h
      have := hperm freqs
      rw [h] at this
      exact this.symm.eq_nil
    · rintro rfl
      have := (hperm []).eq_nil
      rw [this]; rfl
  refine ⟨(duplicatesCheck C threshold keys).1, (duplicatesCheck C threshold keys).2,
    (C.iterDup freqs).map (·.1), by rw [duplicates_check hq, hk], ?_, ?_, ?_, ?_⟩
  · refine ((hperm freqs).map (·.1)).nodup_iff.2 ?_
    rw [← hfr]
    exact hn.sublist (List.Sublist.map _ List.filter_sublist)
  · intro t
    rw [((hperm freqs).map (·.1)).mem_iff, ← hfr, List.mem_map]
    rw [← count_duplicateKeys, hk]
    constructor
    · rintro ⟨x, hx, rfl⟩
      obtain ⟨h1, h2⟩ := List.mem_filter.1 hx
      obtain ⟨h3, h4⟩ := ht.1 x h1
      refine ⟨List.count_pos_iff.2 h3, ?_⟩
      rw [← h4]
      simpa using h2
    · rintro ⟨h1, h2⟩
      obtain ⟨x, hx, rfl⟩ := ht.2 t (List.count_pos_iff.1 h1)
      refine ⟨x, List.mem_filter.2 ⟨hx, ?_⟩, rfl⟩
      rw [(ht.1 x hx).2]
      simpa using h2
  · rw [ne_eq, hlen, ← hfr]
    unfold duplicatesCheck
    dsimp only
    split
    · rename_i h; simpa using h
    · rename_i h; simpa using h
  · unfold duplicatesCheck
    dsimp only
    rw [hfr]
    split
    · rename_i h
      have : ¬ (C.iterDup freqs).map (·.1) = [] := fun h' => by
        rw [hlen] at h'; subst h'; simp at h
      rw [if_neg this]
      rfl
    · rename_i h
      have : (C.iterDup freqs).map (·.1) = [] := hlen.2 (by simpa using h)
      rw [if_pos this]

open Classical in
/-- **C41** (command) exactly the records in scope for which some text is shared by
at least `threshold` rows with content are reported, once each. -/
theorem C41_command (c : CheckCmd) (hperm : ∀ l, (c.C.iterDup l).Perm l) (scope : Option RecordMatcher) (id : Bytes)
    (tags : Option (List Bytes)) (level : CheckLevel) (E : FmtEnv) (ci : Bool) (q : Query) (threshold : Nat)
    (sep : Bytes) (hx : HasRule c scope ⟨id, tags, level, .duplicates E ci q threshold sep⟩)
    (hw : Chosen c ⟨id, tags, level, .duplicates E ci q threshold sep⟩) (hnf : c.NoFast)
    (files : List (String × Bytes)) (rs : List ByteRecord) (hi : Input files rs) (out : List Report)
    (h : c.run files = .ok out) :
    ∃ msg : Record → Option Bytes,
      (∀ r rows, q.run E ⟨ci, bs "|", false, false⟩ r = some rows → ∃ texts : List Bytes, texts.Nodup ∧
        (∀ t, t ∈ texts ↔ 0 < textCount c.C.lossy sep rows t ∧ threshold ≤ textCount c.C.lossy sep rows t) ∧
        msg r = if texts = [] then none else some ((texts.intersperse (bs "; ")).flatten)) ∧
      (out.filter (fun o => o.rule == id)).Perm
        (((examined c rs).filter (fun r => decide (InScope c.C scope r ∧
            ∃ rows, q.run E ⟨ci, bs "|", false, false⟩ r = some rows ∧
              ∃ t, 0 < textCount c.C.lossy sep rows t ∧ threshold ≤ textCount c.C.lossy sep rows t))).map
          (fun r => ⟨(r.ppn c.C.E₀ ⟨false⟩).getD none, id, level, msg r⟩)) := by
  refine ⟨fun r => match (Checks.duplicates E ci q threshold sep).check c.C r with
    | some z => z.2.2
    | none => none, ?_, ?_⟩
  · intro r rows hq
    obtain ⟨b, msg, texts, h1, h2, h3, -, h4⟩ := C41_message c.C hperm E ci q threshold sep r rows hq
    exact ⟨texts, h2, h3, by dsimp only; rw [h1]; exact h4⟩
  refine stateless_command hx hw hnf hi h (fun r => ∃ rows, q.run E ⟨ci, bs "|", false, false⟩ r = some rows ∧
      ∃ t, 0 < textCount c.C.lossy sep rows t ∧ threshold ≤ textCount c.C.lossy sep rows t) _ _ (fun r => by simp)
      (fun _ => rfl) rfl ?_
  intro r c' b m hc
  dsimp only at hc
  cases hv : q.run E ⟨ci, bs "|", false, false⟩ r with
  | none => rw [Checks.check, hv] at hc; simp at hc
  | some rows =>
    obtain ⟨b', msg, texts, h1, _, h2, h3, _⟩ := C41_message c.C hperm E ci q threshold sep r rows hv
    have he := hc.symm.trans h1
    simp only [Option.some.injEq, Prod.mk.injEq] at he
    refine ⟨he.1, ?_, fun _ => by rw [hc]⟩
    rw [he.2.1, h3]
    constructor
    · intro hne
      obtain ⟨t, ht⟩ := List.exists_mem_of_ne_nil _ hne
      exact ⟨rows, rfl, t, (h2 t).1 ht⟩
    · rintro ⟨rows', he', t, ht⟩
      obtain rfl := Option.some.inj he'
      exact List.ne_nil_of_mem ((h2 t).2 ht)

/-! ## cases -/

/-- an allow rule for languages -/
def langRule : CheckRule := ⟨bs "L", none, .warning, .allow toyEnv ⟨false⟩ langPath [bs "ger", bs "eng"]⟩

example : ListRule langRule.check toyEnv ⟨false⟩ langPath [bs "ger", bs "eng"] := .allow
example : HasRule (checkSample false [failRule "A", langRule]) none langRule :=
  ⟨[], [], [failRule "A"], [], rfl, by
    intro y hy
    simp only [List.flatMap_nil, List.nil_append, List.append_nil, List.mem_singleton] at hy
    subst hy
    decide +kernel⟩
example : (checkSample false [langRule]).run [("a", bs "003@ " ++ [0x1F] ++ bs "01" ++ [0x1E] ++ bs "010@ " ++
    [0x1F] ++ bs "ager" ++ [0x1F] ++ bs "axx" ++ [0x1F] ++ bs "ayy" ++ [0x1E, 0x0A] ++ recLine "2")] =
    .ok [⟨some (bs "1"), bs "L", .warning, some (bs "xx, yy")⟩] := by decide +kernel
example : outside [bs "ger", bs "eng"] [bs "ger", bs "xx", bs "yy"] = [bs "xx", bs "yy"] := by decide +kernel
example : textCount id (bs "|") [[bs "a", bs "b"], [bs "c"], [bs "a|b"], []] (bs "a|b") = 2 := by decide +kernel
example : IsniBad (some (bs "isni:")) (bs "isni:0000 0001 2103 2684") := ⟨bs "0000 0001 2103 2684", by decide +kernel⟩

end Pica.Props
