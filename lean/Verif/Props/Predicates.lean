import Verif.Model.Predicates
import Verif.Props.TagMatcher
import Verif.Props.ByteRecord
import Verif.Lemmas.Check

/-! # C53: lists of field predicates -/

namespace Pica.Props
open Pica Spec

/-- `item` is a tag pattern followed by an occurrence selector, which may be empty -/
def PredText (item : Bytes) (p : FieldPred) : Prop :=
  ∃ t o, item = t ++ o ∧ TagMatcher.new t = some p.1 ∧ OccMatcher.new o = some p.2

/-- the components of a list: `parts` joined by commas are the text, and there is no
comma in a part -/
def Parts (text : Bytes) (parts : List Bytes) : Prop :=
  parts ≠ [] ∧ joinText [0x2C] parts = text ∧ ∀ p ∈ parts, 0x2C ∉ p

theorem splitComma_ne (t : Bytes) : splitComma t ≠ [] := by
  cases t with
  | nil => simp [splitComma]
  | cons c t =>
    rw [splitComma]
    split
    · simp
    · split <;> simp

theorem splitComma_parts (t : Bytes) : Parts t (splitComma t) := by
  induction t with
  | nil => exact ⟨by simp [splitComma], by simp [splitComma, joinText], by simp [splitComma]⟩
  | cons c t ih =>
    obtain ⟨h1, h2, h3⟩ := ih
    rw [splitComma]
    by_cases hc : c = 0x2C
    · rw [if_pos hc]
      refine ⟨by simp, ?_, ?_⟩
      · cases hs : splitComma t with
        | nil => exact absurd hs h1
        | cons q ps => rw [joinText_cons, ← hs, h2, hc]; rfl
      · intro p hp
        rcases List.mem_cons.1 hp with rfl | hp
        · simp
        · exact h3 p hp
    · rw [if_neg hc]
      cases hs : splitComma t with
      | nil => exact absurd hs h1
      | cons p ps =>
        rw [hs] at h2 h3
        refine ⟨by simp, ?_, ?_⟩
        · cases ps with
          | nil =>
            dsimp only
            rw [joinText_single] at h2 ⊢
            rw [h2]
          | cons q ps =>
            dsimp only
            rw [joinText_cons] at h2 ⊢
            rw [← h2]; rfl
        · intro x hx
          rcases List.mem_cons.1 hx with rfl | hx
          · simp only [List.mem_cons, not_or]
            exact ⟨fun h => hc h.symm, h3 p (by simp)⟩
          · exact h3 x (by simp [hx])

theorem splitComma_append {p : Bytes} (h : 0x2C ∉ p) (t : Bytes) :
    splitComma (p ++ 0x2C :: t) = p :: splitComma t := by
  induction p with
  | nil => simp [splitComma]
  | cons c p ih =>
    simp only [List.mem_cons, not_or] at h
    rw [List.cons_append, splitComma, if_neg (fun e => h.1 e.symm), ih h.2]

theorem splitComma_none {p : Bytes} (h : 0x2C ∉ p) : splitComma p = [p] := by
  induction p with
  | nil => rfl
  | cons c p ih =>
    simp only [List.mem_cons, not_or] at h
    rw [splitComma, if_neg (fun e => h.1 e.symm), ih h.2]

theorem parts_unique {text : Bytes} {parts : List Bytes} (h : Parts text parts) : parts = splitComma text := by
  obtain ⟨h1, h2, h3⟩ := h
  subst h2
  induction parts with
  | nil => exact absurd rfl h1
  | cons p ps ih =>
    have hp : (0x2C : Byte) ∉ p := h3 p (by simp)
    cases ps with
    | nil => rw [joinText_single, splitComma_none hp]
    | cons q ps =>
      rw [joinText_cons]
      rw [show p ++ ([0x2C] ++ joinText [0x2C] (q :: ps)) = p ++ 0x2C :: joinText [0x2C] (q :: ps) by simp,
        splitComma_append hp, ← ih (by simp) (fun x hx => h3 x (by simp [hx]))]

/-- the last slash -/
theorem splitLastSlash_spec (t : Bytes) :
    (∀ a b, splitLastSlash t = some (a, b) ↔ ∃ r, t = a ++ b ∧ b = 0x2F :: r ∧ 0x2F ∉ r) ∧
    (splitLastSlash t = none ↔ 0x2F ∉ t) := by
  induction t with
  | nil => simp [splitLastSlash]
  | cons c t ih =>
    obtain ⟨ih1, ih2⟩ := ih
    rw [splitLastSlash]
    cases hs : splitLastSlash t with
    | some x =>
      obtain ⟨a', b'⟩ := x
      obtain ⟨r, h1, h2, h3⟩ := (ih1 a' b').1 hs
      constructor
      · intro a b
        simp only [Option.some.injEq, Prod.mk.injEq]
        constructor
        · rintro ⟨rfl, rfl⟩
          exact ⟨r, by simp [h1], h2, h3⟩
        · rintro ⟨r', e1, e2, e3⟩
          cases a with
          | nil =>
            exfalso
            rw [List.nil_append, e2] at e1
            simp only [List.cons.injEq] at e1
            rw [← e1.2, h1, h2] at e3
            simp at e3
          | cons d a =>
            rw [List.cons_append, List.cons.injEq] at e1
            have := (ih1 a b).2 ⟨r', e1.2, e2, e3⟩
            rw [hs] at this
            simp only [Option.some.injEq, Prod.mk.injEq] at this
            rw [e1.1, this.1, this.2]
            exact ⟨rfl, rfl⟩
      · simp only [reduceCtorEq, false_iff, List.mem_cons, not_or, not_and, Classical.not_not]
        intro _
        rw [h1, h2]; simp
    | none =>
      have hn := ih2.1 hs
      dsimp only
      by_cases hc : c = 0x2F
      · rw [if_pos hc]
        constructor
        · intro a b
          simp only [Option.some.injEq, Prod.mk.injEq]
          constructor
          · rintro ⟨rfl, rfl⟩; exact ⟨t, by simp, by rw [hc], hn⟩
          · rintro ⟨r, e1, e2, e3⟩
            cases a with
            | nil => rw [List.nil_append] at e1; exact ⟨rfl, e1⟩
            | cons d a =>
              rw [List.cons_append, List.cons.injEq] at e1
              exfalso
              rw [e1.2, e2] at hn
              simp at hn
        · simp [hc]
      · rw [if_neg hc]
        constructor
        · intro a b
          simp only [reduceCtorEq, false_iff, not_exists, not_and]
          intro r e1 e2 _
          have : (0x2F : Byte) ∈ c :: t := by rw [e1, e2]; simp
          rcases List.mem_cons.1 this with h | h
          · exact hc h.symm
          · exact hn h
        · simp only [true_iff, List.mem_cons, not_or]
          exact ⟨fun h => hc h.symm, hn⟩

theorem item_ascii {A : ByteSet} {t : Bytes} {S : ByteSet} (hA : ¬ A 0x2F) (h : ItemText A t S) : 0x2F ∉ t := by
  cases h with
  | single c hc => simp only [List.mem_singleton]; rintro rfl; exact hA hc
  | range c d hc hd _ =>
    simp only [List.mem_cons, List.not_mem_nil, or_false, not_or]
    refine ⟨?_, by decide, ?_⟩
    · rintro rfl; exact hA hc
    · rintro rfl; exact hA hd

theorem pos_ascii {A : ByteSet} {t : Bytes} {S : ByteSet} (hA : ¬ A 0x2F) (h : PosText A t S) : 0x2F ∉ t := by
  cases h with
  | byte c hc => simp only [List.mem_singleton]; rintro rfl; exact hA hc
  | dot => decide
  | @cls t _ hc =>
    have : (0x2F : Byte) ∉ t := by
      induction hc with
      | one h => exact item_ascii hA h
      | more h _ ih =>
        simp only [List.mem_append, not_or]
        exact ⟨item_ascii hA h, ih⟩
    simp only [List.mem_append, List.mem_singleton, not_or]
    exact ⟨⟨by decide, this⟩, by decide⟩

/-- there is no slash in a tag pattern -/
theorem tag_no_slash {t : Bytes} {m : TagMatcher} (h : TagMatcher.new t = some m) : 0x2F ∉ t := by
  obtain ⟨S0, S1, S2, S3, ⟨t0, t1, t2, t3, rfl, h0, h1, h2, h3⟩, _⟩ := C12_pattern_sound t m h
  simp only [List.mem_append, not_or]
  exact ⟨⟨⟨pos_ascii (by unfold A0; decide) h0, pos_ascii (by unfold A1; decide) h1⟩,
    pos_ascii (by unfold A1; decide) h2⟩, pos_ascii (by unfold A3; decide) h3⟩

/-- an occurrence selector is empty or has a slash at the start only -/
theorem occ_slash {o : Bytes} {m : OccMatcher} (h : OccMatcher.new o = some m) :
    o = [] ∨ ∃ r, o = 0x2F :: r ∧ 0x2F ∉ r := by
  obtain ⟨P, w, hs⟩ := (C13_accepts o).1 ⟨m, h⟩
  have hd : ∀ n, IsOccDigits n → (0x2F : Byte) ∉ n := by
    intro n hn hm
    have := (hn.2 _ hm).1
    revert this; decide
  cases hs with
  | empty => exact .inl rfl
  | zero => exact .inr ⟨_, rfl, by decide⟩
  | any => exact .inr ⟨_, rfl, by decide⟩
  | exact n hn _ => exact .inr ⟨n, rfl, hd n hn⟩
  | range a b ha hb _ _ =>
    refine .inr ⟨_, rfl, ?_⟩
    simp only [List.mem_append, List.mem_cons, not_or]
    exact ⟨hd a ha, by decide, hd b hb⟩

theorem occ_empty : OccMatcher.new [] = some .none := by decide

theorem parsePredicate_iff (item : Bytes) (p : FieldPred) : parsePredicate item = some p ↔ PredText item p := by
  unfold parsePredicate PredText
  obtain ⟨h1, h2⟩ := splitLastSlash_spec item
  constructor
  · intro h
    cases hs : splitLastSlash item with
    | some x =>
      obtain ⟨a, b⟩ := x
      rw [hs] at h
      dsimp only at h
      obtain ⟨r, e, _, _⟩ := (h1 a b).1 hs
      cases ht : TagMatcher.new a with
      | none => rw [ht] at h; simp at h
      | some t =>
        rw [ht] at h
        cases ho : OccMatcher.new b with
        | none => rw [ho] at h; simp at h
        | some o =>
          rw [ho] at h
          simp only [Option.some.injEq] at h
          subst h
          exact ⟨a, b, e, ht, ho⟩
    | none =>
      rw [hs] at h
      dsimp only at h
      cases ht : TagMatcher.new item with
      | none => rw [ht] at h; simp at h
      | some t =>
        rw [ht] at h
        simp only [Option.some.injEq] at h
        subst h
        exact ⟨item, [], by simp, ht, occ_empty⟩
  · rintro ⟨t, o, rfl, ht, ho⟩
    rcases occ_slash ho with rfl | ⟨r, hr, hr'⟩
    · rw [List.append_nil] at h2 ⊢
      rw [h2.2 (tag_no_slash ht)]
      dsimp only
      rw [ht]
      rw [occ_empty, Option.some.injEq] at ho
      rw [ho]
    · rw [(h1 t o).2 ⟨r, rfl, hr, hr'⟩]
      dsimp only
      rw [ht, ho]

theorem parseItems_iff (items : List Bytes) (ps : List FieldPred) :
    parseItems items = some ps ↔ All2 PredText items ps := by
  induction items generalizing ps with
  | nil =>
    simp only [parseItems, Option.some.injEq]
    constructor
    · rintro rfl; exact .nil
    · intro h; cases h; rfl
  | cons item items ih =>
    rw [parseItems]
    constructor
    · intro h
      cases hp : parsePredicate item with
      | none => rw [hp] at h; simp at h
      | some p =>
        rw [hp] at h
        dsimp only at h
        cases hi : parseItems items with
        | none => rw [hi] at h; simp at h
        | some qs =>
          rw [hi] at h
          simp only [Option.map_some, Option.some.injEq] at h
          subst h
          exact .cons ((parsePredicate_iff item p).1 hp) ((ih qs).1 hi)
    · intro h
      cases h with
      | cons h1 h2 => rw [(parsePredicate_iff _ _).2 h1]; dsimp only; rw [(ih _).2 h2]; rfl

/-- **C53** a list of predicates is accepted iff each of its components, after trimming
and without the empty ones, is a tag pattern followed by an occurrence selector; the
result has the predicates of the components, in order. -/
theorem C53_accepts (trim : Bytes → Bytes) (text : Bytes) (parts : List Bytes) (h : Parts text parts)
    (ps : List FieldPred) :
    parsePredicates trim text = some ps ↔
      All2 PredText ((parts.map trim).filter (fun s => !s.isEmpty)) ps := by
  rw [parts_unique h]
  exact parseItems_iff _ _

/-- **C53** every text has components, so the preceding theorem applies to it. -/
theorem C53_parts (text : Bytes) : ∃ parts, Parts text parts := ⟨_, splitComma_parts text⟩

open Classical in
/-- **C53** with an accepted list, `keep` leaves the fields for which some component
matches tag and occurrence; without a nonempty component all fields. -/
theorem C53_keep (trim : Bytes → Bytes) (text : Bytes) (parts : List Bytes) (h : Parts text parts)
    (ps : List FieldPred) (hp : parsePredicates trim text = some ps) (b : ByteRecord) :
    (b.keep ps).record = b.record.filter (fun f => decide ((∀ s ∈ parts, trim s = []) ∨
      ∃ s ∈ parts, trim s ≠ [] ∧ ∃ p, PredText (trim s) p ∧ p.1.isMatch f.tag = true ∧
        p.2.isMatch f.occ = true)) := by
  rw [C53_accepts trim text parts h] at hp
  by_cases hps : ps = []
  · subst hps
    have hnil : (parts.map trim).filter (fun s => !s.isEmpty) = [] := by
      have := hp.length
      exact List.eq_nil_of_length_eq_zero (by simpa using this)
    rw [(C10_empty_preds b).1]
    symm
    rw [List.filter_eq_self]
    intro f _
    simp only [decide_eq_true_eq]
    left
    intro s hs
    rw [List.filter_eq_nil_iff] at hnil
    have := hnil (trim s) (List.mem_map_of_mem hs)
    simpa using this
  · rw [C10_keep ps hps]
    apply List.filter_congr
    intro f _
    rw [Bool.eq_iff_iff, decide_eq_true_eq, decide_eq_true_eq]
    have hne : ¬ ∀ s ∈ parts, trim s = [] := by
      intro hall
      have : (parts.map trim).filter (fun s => !s.isEmpty) = [] := by
        rw [List.filter_eq_nil_iff]
        intro x hx
        obtain ⟨s, hs, rfl⟩ := List.mem_map.1 hx
        simp [hall s hs]
      rw [this] at hp
      cases hp
      exact hps rfl
    constructor
    · rintro ⟨p, hpm, h1, h2⟩
      right
      obtain ⟨x, hx, hxp⟩ := hp.mem_right p hpm
      obtain ⟨hx1, hx2⟩ := List.mem_filter.1 hx
      obtain ⟨s, hs, rfl⟩ := List.mem_map.1 hx1
      exact ⟨s, hs, by simpa using hx2, p, hxp, h1, h2⟩
    · rintro (hall | ⟨s, hs, hs', p, hp1, h1, h2⟩)
      · exact absurd hall hne
      · obtain ⟨q, hq, hq1⟩ := hp.mem_left (trim s)
          (List.mem_filter.2 ⟨List.mem_map_of_mem hs, by simpa using hs'⟩)
        have : q = p := by
          have e1 := (parsePredicate_iff _ _).2 hq1
          have e2 := (parsePredicate_iff _ _).2 hp1
          rw [e1] at e2
          exact Option.some.inj e2
        subst this
        exact ⟨q, hq, h1, h2⟩

/-- a toy `trim` for blanks -/
def trimBlanks (s : Bytes) : Bytes :=
  ((s.dropWhile (fun c => c == 0x20)).reverse.dropWhile (fun c => c == 0x20)).reverse

example : (parsePredicates trimBlanks (bs "003@, 012[A-C]/*,,028A/01-05 ")).map List.length = some 3 ∧
    parsePredicates trimBlanks (bs "003@,12A") = none ∧ parsePredicates trimBlanks (bs " , ") = some [] := by
  decide +kernel

example : Parts (bs "003@, 012A/*") [bs "003@", bs " 012A/*"] := by
  refine ⟨by simp, by decide +kernel, ?_⟩
  decide +kernel

end Pica.Props
