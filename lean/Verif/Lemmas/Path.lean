import Verif.Model.Path
import Verif.Spec.Path
import Verif.Lemmas.Total

/-! Paths. -/

namespace Pica
open Spec Parser

theorem filterP_eq_some {α : Type} {f : α → Option Bool} {l ys : List α} :
    filterP f l = some ys ↔ (∀ x ∈ l, ∃ b, f x = some b) ∧ ys = l.filter (fun x => f x == some true) := by
  induction l generalizing ys with
  | nil => simp [filterP, eq_comm]
  | cons x xs ih =>
    rw [filterP]
    cases hx : f x with
    | none => simp [hx]
    | some b =>
      simp only [Option.map_eq_some_iff, ih]
      constructor
      · rintro ⟨a, ⟨h1, rfl⟩, rfl⟩
        refine ⟨?_, ?_⟩
        · intro y hy
          rcases List.mem_cons.1 hy with rfl | hy
          · exact ⟨b, hx⟩
          · exact h1 y hy
        · cases b <;> simp [hx]
      · rintro ⟨h1, rfl⟩
        refine ⟨_, ⟨fun y hy => h1 y (by simp [hy]), rfl⟩, ?_⟩
        cases b <;> simp [hx]

theorem filterP_of_total {α : Type} {f : α → Option Bool} {l : List α}
    (h : ∀ x ∈ l, ∃ b, f x = some b) : filterP f l = some (l.filter (fun x => f x == some true)) :=
  filterP_eq_some.2 ⟨h, rfl⟩

theorem mapP_eq_some {α β : Type} {f : α → Option β} {l : List α} {ys : List β} :
    mapP f l = some ys ↔ l.map f = ys.map some := by
  induction l generalizing ys with
  | nil => cases ys <;> simp [mapP]
  | cons x xs ih =>
    rw [mapP]
    cases hx : f x with
    | none => cases ys <;> simp [hx]
    | some b =>
      simp only [Option.map_eq_some_iff, ih]
      cases ys with
      | nil => simp
      | cons y ys =>
        simp only [List.map_cons, hx, List.cons.injEq, Option.some.injEq]
        constructor
        · rintro ⟨a, h1, rfl, rfl⟩; exact ⟨rfl, h1⟩
        · rintro ⟨rfl, h1⟩; exact ⟨ys, h1, rfl, rfl⟩

theorem mapP_length {α β : Type} {f : α → Option β} {l : List α} {ys : List β}
    (h : mapP f l = some ys) : ys.length = l.length := by
  have := congrArg List.length (mapP_eq_some.1 h)
  simpa using this.symm

theorem mapP_mem {α β : Type} {f : α → Option β} {l : List α} {ys : List β}
    (h : mapP f l = some ys) : ∀ y ∈ ys, ∃ x ∈ l, f x = some y := by
  have h' := mapP_eq_some.1 h
  intro y hy
  have : some y ∈ l.map f := by rw [h']; exact List.mem_map_of_mem hy
  simpa using this

theorem mapP_total {α β : Type} {f : α → Option β} {l : List α}
    (h : ∀ x ∈ l, ∃ y, f x = some y) : ∃ ys, mapP f l = some ys := by
  induction l with
  | nil => exact ⟨[], rfl⟩
  | cons x xs ih =>
    obtain ⟨y, hy⟩ := h x (by simp)
    obtain ⟨ys, hys⟩ := ih (fun x hx => h x (by simp [hx]))
    exact ⟨y :: ys, by simp [mapP, hy, hys]⟩

/-- the filter of a path or format as meaning -/
def subDen (E : Env) (o : Opts) : Option SubMatcher → Den (List Subfield)
  | none => fun _ => some true
  | some m => m.eval E o

/-- selected by tag and occurrence -/
def selOf (t : TagMatcher) (oc : OccMatcher) (f : Field) : Prop :=
  t.isMatch f.tag = true ∧ oc.isMatch f.occ = true

theorem fieldTest_eq_true {E o t oc m f} :
    fieldTest E o t oc m f = some true ↔ selOf t oc f ∧ subDen E o m f.subfields = some true := by
  cases m with
  | none => simp [fieldTest, fieldSel, selOf, subDen]
  | some sm =>
    simp only [fieldTest, subDen]
    split
    · rename_i h; simp only [fieldSel, Bool.and_eq_true] at h; simp [selOf, h]
    · rename_i h; simp only [fieldSel, Bool.and_eq_true] at h
      simp [selOf, h]

theorem fieldTest_total {E o t oc m f} :
    (∃ b, fieldTest E o t oc m f = some b) ↔
      (selOf t oc f → ∃ b, subDen E o m f.subfields = some b) := by
  cases m with
  | none => simp [fieldTest, subDen]
  | some sm =>
    simp only [fieldTest, subDen]
    split
    · rename_i h; simp only [fieldSel, Bool.and_eq_true] at h
      exact ⟨fun h _ => h, fun h' => h' h⟩
    · rename_i h; simp only [fieldSel, Bool.and_eq_true] at h
      exact ⟨fun _ h' => absurd h' h, fun _ => ⟨_, rfl⟩⟩

theorem Path.pick_eq (p : Path) (s : Subfield) [Decidable (∃ cs ∈ p.codes, s.code ∈ cs)] :
    p.pick s = if ∃ cs ∈ p.codes, s.code ∈ cs then some s.value else none := by
  unfold Path.pick
  have : (p.codes.any (fun cs => cs.contains s.code) = true) ↔ ∃ cs ∈ p.codes, s.code ∈ cs := by
    simp
  split <;> split <;> simp_all

open Classical in
theorem addressed_eq (E : Env) (o : Opts) (p : Path) (r : Record) :
    ((r.filter (fun f => fieldTest E o p.tag p.occ p.sub f == some true)).flatMap
      Field.subfields).filterMap p.pick =
    addressed (selOf p.tag p.occ) (subDen E o p.sub) p.codes r := by
  unfold addressed allSubfields
  induction r with
  | nil => rfl
  | cons f fs ih =>
    rw [List.filter_cons]
    have hhead : ((f.subfields.map (fun s => (f, s))).filter
        (fun x => decide (Addressed (selOf p.tag p.occ) (subDen E o p.sub) p.codes x))).map
          (fun x => x.2.value) =
        if fieldTest E o p.tag p.occ p.sub f = some true then f.subfields.filterMap p.pick else [] := by
      split
      · rename_i h
        rw [fieldTest_eq_true] at h
        generalize hsf : f.subfields = sf at h ⊢
        have : ∀ l : List Subfield, ((l.map (fun s => (f, s))).filter
            (fun x => decide (Addressed (selOf p.tag p.occ) (subDen E o p.sub) p.codes x))).map
              (fun x => x.2.value) = l.filterMap p.pick := by
          intro l
          induction l with
          | nil => rfl
          | cons s ss ihs =>
            rw [List.map_cons, List.filter_cons, List.filterMap_cons, Path.pick_eq]
            by_cases hc : ∃ cs ∈ p.codes, s.code ∈ cs
            · have ha : Addressed (selOf p.tag p.occ) (subDen E o p.sub) p.codes (f, s) :=
                ⟨h.1, by rw [hsf]; exact h.2, hc⟩
              simp [ha, hc, ihs]
            · have ha : ¬ Addressed (selOf p.tag p.occ) (subDen E o p.sub) p.codes (f, s) :=
                fun h => hc h.2.2
              simp [ha, hc, ihs]
        exact this sf
      · rename_i h
        rw [fieldTest_eq_true] at h
        have : (f.subfields.map (fun s => (f, s))).filter
            (fun x => decide (Addressed (selOf p.tag p.occ) (subDen E o p.sub) p.codes x)) = [] := by
          rw [List.filter_eq_nil_iff]
          intro x hx
          obtain ⟨s, _, rfl⟩ := List.mem_map.1 hx
          simp only [decide_eq_true_eq]
          exact fun ha => h ⟨ha.1, ha.2.1⟩
        rw [this]; rfl
    rw [List.flatMap_cons, List.filter_append, List.map_append, hhead, ← ih]
    split
    · rename_i h
      have h' : fieldTest E o p.tag p.occ p.sub f = some true := by simpa using h
      rw [if_pos h', List.flatMap_cons, List.filterMap_append]
    · rename_i h
      have h' : ¬ fieldTest E o p.tag p.occ p.sub f = some true := by simpa using h
      rw [if_neg h', List.nil_append]

/-! ## Texts -/

theorem pCodes_of : Reads pCodes (fun cs t => CodesOf t cs) :=
  pCodes_reads.mono (by
    rintro cs t ⟨S, h1, h2⟩
    have : S = fun b => b ∈ cs := by funext b; exact propext (h2 b).symm
    rw [CodesOf, ← this]; exact h1)

theorem bs_bar : ([0x7C] : Bytes) = bs "|" := by decide +kernel
theorem bs_dotdot : ([0x2E, 0x2E] : Bytes) = bs ".." := by decide +kernel

section
variable (rx : Bytes → Bool) (E : Env) (o : Opts)

theorem pFilterOpt_sound : TParser.Sound (pFilterOpt rx)
    (fun m t => FilterText rx E o t (subDen E o m)) := by
  unfold pFilterOpt
  refine ((wsByte_sound 0x7C).preceded (pSubMatcher_sound rx E o)).opt.mono ?_
  intro m t h
  cases m with
  | none => simp only at h; subst h; exact .none
  | some m =>
    obtain ⟨_, t1, t2, rfl, h1, h2⟩ := h
    rw [bs_bar] at h1
    exact .some h1 h2

theorem pPathCodes_reads : Reads pPathCodes (fun css t => CodeLists t css) := by
  unfold pPathCodes
  refine ((separated1_reads pCodes_of).alt ((wsByte_reads 0x28).delimited
    (separated1_reads pCodes_of) (wsByte_reads 0x29))).mono ?_
  rintro css t (h | ⟨_, _, t1, t2, t3, rfl, h1, h2, h3⟩)
  · exact .bare h
  · have e1 : ([0x28] : Bytes) = bs "(" := by decide +kernel
    have e2 : ([0x29] : Bytes) = bs ")" := by decide +kernel
    rw [e1] at h1; rw [e2] at h3
    exact .parens h1 h2 h3

theorem pPath_sound : TParser.Sound (pPath rx)
    (fun p t => PathText rx E o t (selOf p.tag p.occ) (subDen E o p.sub) p.codes ∧ p.raw = t) := by
  unfold pPath
  refine TParser.Sound.alt (TParser.Sound.lift ?_) ?_
  · unfold pPathSimple
    refine ((pTagMatcher_reads.seq (pOccMatcher_reads.seq
      ((Reads.byte 0x2E).preceded pCodes_of))).ws.withTaken.map _).mono ?_
    rintro p t ⟨⟨⟨m, om, cs⟩, u⟩, rfl, ⟨w, u', w', rfl, h1, ⟨t1, t2, rfl, h2, t3, t4, rfl, h3, _, t5, t6,
      rfl, ⟨_, rfl⟩, h4⟩, h5⟩, h6⟩
    refine ⟨?_, by simpa using h6⟩
    have := PathText.dot (rx := rx) (E := E) (o := o) h1
      (⟨m, om, h2, h3, rfl⟩ : Selects t1 t3 (selOf m om)) h4 h5
    rw [bs_dot]
    simpa [subDen] using this
  · unfold pPathCurly
    refine ((tws_sound ((TParser.Sound.lift pTagMatcher_reads).seq
      ((TParser.Sound.lift pOccMatcher_reads).seq
        ((wsByte_sound 0x7B).delimited ((TParser.Sound.lift pPathCodes_reads).seq
          (pFilterOpt_sound rx E o)) (wsByte_sound 0x7D))))).withTaken.map _).mono ?_
    rintro p t ⟨⟨⟨m, om, css, mo⟩, u⟩, rfl, ⟨w, u', w', rfl, h1, ⟨t1, t2, rfl, h2, t3, t4, rfl, h3, _, _,
      t5, t6, t7, rfl, h4, ⟨t8, t9, rfl, h5, h6⟩, h7⟩, h8⟩, h9⟩
    refine ⟨?_, by simpa using h9⟩
    rw [bs_lbrace] at h4; rw [bs_rbrace] at h7
    have := PathText.braces h1 (⟨m, om, h2, h3, rfl⟩ : Selects t1 t3 (selOf m om)) h4 h5 h6 h7 h8
    simpa using this

theorem path_new_sound {s s' text p} (h : Path.new rx s text = (some p, s')) :
    PathText rx E o text (selOf p.tag p.occ) (subDen E o p.sub) p.codes ∧ p.raw = text := by
  unfold Path.new at h
  obtain ⟨t, he, ht⟩ := pPath_sound rx E o _ _ _ _ _ (TParser.parseAll_eq_some.1 h)
  rw [List.append_nil] at he
  exact he ▸ ht

theorem filterText_total {rx E o} (hr : RegexOk rx E o) {t v} (h : FilterText rx E o t v) : DTotal v := by
  cases h with
  | none => exact fun _ => ⟨true, rfl⟩
  | some _ h => exact subExprText_total hr h

theorem pathText_total {rx E o} (hr : RegexOk rx E o) {t sel v css} (h : PathText rx E o t sel v css) :
    DTotal v := by
  cases h with
  | dot => exact fun _ => ⟨true, rfl⟩
  | braces _ _ _ _ h => exact filterText_total hr h

end

end Pica

namespace Pica
open Spec Parser

/-! ## Acceptance of selectors and code lists -/

/-- what may follow an occurrence selector without being read as part of it -/
def OccStop (r : Bytes) : Prop :=
  ∀ b, r.head? = some b → isDigit b = false ∧ b ≠ 0x2D ∧ b ≠ 0x2F

theorem OccStop.cons {b : Byte} {r : Bytes} (h : isDigit b = false ∧ b ≠ 0x2D ∧ b ≠ 0x2F) :
    OccStop (b :: r) := by
  intro c hc; simp at hc; subst hc; exact h

theorem OccStop.noDigit {r : Bytes} (h : OccStop r) : ∀ x t, r = x :: t → isDigit x = false := by
  intro x t hx; exact (h x (by rw [hx]; rfl)).1

theorem pOccRange_none_follow {n r : Bytes} (h : IsOccDigits n) (hr : OccStop r) :
    pOccRange (n ++ r) = none := by
  have h1 := pOccurrence_complete (isOcc_iff.2 h) hr.noDigit
  unfold pOccRange
  apply map_none; apply verify_none
  exact seq_none' h1 (preceded_none (byte_none_of_head (fun hh => (hr _ hh).2.1 rfl)))

theorem pOccMatcher_follow {t m r} (h : OccMatcher.new t = some m) (hr : OccStop r) :
    pOccMatcher (t ++ r) = some (m, r) := by
  have h := parseAll_eq_some.1 h
  unfold pOccMatcher at h ⊢
  rcases alt_eq_some.1 h with h | ⟨_, h⟩
  · obtain ⟨b, r1, h1, h2⟩ := preceded_eq_some.1 h
    obtain ⟨rfl, rfl⟩ := byte_eq_some.1 h1
    refine alt_eq_some.2 (.inl (preceded_eq_some.2 ⟨SLASH, r1 ++ r, byte_cons_self _ _, ?_⟩))
    rcases alt_eq_some.1 h2 with h | ⟨_, h⟩
    · unfold pOccRange at h
      obtain ⟨⟨a, b⟩, h3, rfl⟩ := map_eq_some.1 h
      obtain ⟨h4, h5⟩ := verify_eq_some.1 h3
      obtain ⟨r2, x, r3, h6, h7, h8⟩ := separatedPair_eq_some.1 h4
      obtain ⟨ha, rfl⟩ := pOccurrence_sound h6
      obtain ⟨rfl, rfl⟩ := byte_eq_some.1 h7
      obtain ⟨hb, rfl⟩ := pOccurrence_sound h8
      refine alt_eq_some.2 (.inl (map_eq_some.2 ⟨(a, b), verify_eq_some.2 ⟨?_, h5⟩, rfl⟩))
      refine separatedPair_eq_some.2 ⟨0x2D :: (b ++ r), 0x2D, b ++ r, ?_, byte_cons_self _ _, ?_⟩
      · rw [show a ++ 0x2D :: (b ++ []) ++ r = a ++ 0x2D :: (b ++ r) by simp]
        apply pOccurrence_complete ha
        intro x t hx
        simp at hx; rw [← hx.1]; rfl
      · exact pOccurrence_complete hb hr.noDigit
    · rcases alt_eq_some.1 h with h | ⟨hne, h⟩
      · unfold pOccExact at h
        obtain ⟨n, h3, rfl⟩ := map_eq_some.1 h
        obtain ⟨h4, h5⟩ := verify_eq_some.1 h3
        obtain ⟨hn, rfl⟩ := pOccurrence_sound h4
        rw [List.append_nil]
        refine alt_eq_some.2 (.inr ⟨pOccRange_none_follow hn hr, ?_⟩)
        exact alt_eq_some.2 (.inl (map_eq_some.2 ⟨n, verify_eq_some.2 ⟨pOccurrence_complete hn hr.noDigit, h5⟩, rfl⟩))
      · rcases alt_eq_some.1 h with h | ⟨_, h⟩
        · obtain ⟨rfl, u, h⟩ := value_eq_some.1 h
          have := lit_eq_some.1 h
          subst this
          rw [List.append_nil]
          have h0 : IsOccDigits [0x30, 0x30] := by
            refine ⟨.inl rfl, ?_⟩
            intro b hb; simp at hb; subst hb; decide
          refine alt_eq_some.2 (.inr ⟨pOccRange_none_follow h0 hr, ?_⟩)
          refine alt_eq_some.2 (.inr ⟨?_, alt_eq_some.2 (.inl (value_eq_some.2 ⟨rfl, (), lit_run _ _⟩))⟩)
          unfold pOccExact
          apply map_none
          unfold verify
          rw [pOccurrence_complete (isOcc_iff.2 h0) hr.noDigit]
          rfl
        · obtain ⟨rfl, u, h⟩ := value_eq_some.1 h
          have := lit_eq_some.1 h
          subst this
          rfl
  · simp at h
    obtain ⟨rfl, rfl⟩ := h
    rw [List.nil_append]
    refine alt_eq_some.2 (.inr ⟨?_, rfl⟩)
    exact preceded_none (byte_none_of_head (fun hh => (hr _ hh).2.2 rfl))

theorem pTagMatcher_follow {t m r} (h : TagMatcher.new t = some m) :
    pTagMatcher (t ++ r) = some (m, r) := by
  obtain ⟨t', h1, _, h2⟩ := pTagMatcher_prefix (parseAll_eq_some.1 h)
  rw [List.append_nil] at h1
  subst h1
  exact h2 r

/-- a tag text is not empty and does not start with white space -/
theorem tagText_noWs {t m} (h : TagMatcher.new t = some m) (r : Bytes) : NoWs (t ++ r) ∧ t ≠ [] := by
  have h := parseAll_eq_some.1 h
  cases t with
  | nil =>
    have : pTagMatcher [] = none := rfl
    rw [this] at h; simp at h
  | cons b t =>
    refine ⟨?_, by simp⟩
    rw [List.cons_append, noWs_cons, Bool.eq_false_iff]
    intro hb
    have : pTagMatcher (b :: t) = none := by
      have hb' : b = 0x20 ∨ b = 0x09 ∨ b = 0x0D ∨ b = 0x0A := by
        simpa [isMultispace, or_assoc] using hb
      rcases hb' with rfl | rfl | rfl | rfl <;> rfl
    rw [this] at h; simp at h

theorem codesText_follow_noWs {t S} (h : CodesText t S) (r : Bytes) : NoWs (t ++ r) ∧ t ≠ [] := by
  cases h with
  | one c hc =>
    refine ⟨?_, by simp⟩
    rw [List.cons_append, noWs_cons]
    have : ∀ c ∈ allCodes, isMultispace c = false := by decide +kernel
    rw [← mem_allCodes] at hc
    exact this c hc
  | list => exact ⟨by simp [noWs_cons, isMultispace], by simp⟩
  | all => exact ⟨by simp [noWs_cons, isMultispace], by simp⟩

end Pica
