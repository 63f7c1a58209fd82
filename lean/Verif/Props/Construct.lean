import Verif.Lemmas.FieldAlt

/-! # C69: the constructors of single kinds of matchers

Beside the constructors of all subfield matchers and all field matchers there is one for each kind
of matcher without operators.  No two kinds share a text, so that the order in which the general
parsers try them is immaterial: the general constructors accept what a special one accepts, and
give it the same meaning. -/

namespace Pica.Props
open Pica Spec Parser

/-! ## Subfields -/

/-- **C69** a text is accepted by the constructor of at most one kind of subfield matcher. -/
theorem C69_sub_one (rx : Bytes → Bool) (k k' : SubKind) (text : Bytes) (m m' : SubSingle)
    (h : k.new rx text = some m) (h' : k'.new rx text = some m') : k = k' := by
  refine Classical.byContradiction fun hne => ?_
  have := kinds_exclude (parseAll_eq_some.1 h) (fun e => hne e.symm)
  rw [parseAll_eq_some.1 h'] at this
  cases this

/-- **C69** `SingletonMatcher::new` accepts exactly what one of the seven constructors accepts, with
the same result. -/
theorem C69_sub_single (rx : Bytes → Bool) (text : Bytes) (m : SubSingle) :
    SubSingle.new rx text = some m ↔ ∃ k : SubKind, k.new rx text = some m := by
  unfold SubSingle.new SubKind.new
  simp only [parseAll_eq_some]
  exact pSubSingle_eq_some

/-- **C69** the general constructor agrees: `SubfieldMatcher::new` gives the very matcher. -/
theorem C69_sub (rx : Bytes → Bool) (s : Levels) (k : SubKind) (text : Bytes) (m : SubSingle)
    (h : k.new rx text = some m) : SubMatcher.new rx s text = (some (.single m), { s with sub := 0 }) :=
  TParser.parseAll_eq_some.2 (subMatcher_single s (pSubSingle_eq_some.2 ⟨k, parseAll_eq_some.1 h⟩))

/-- the kind of a matcher -/
def kindOf : SubSingle → SubKind
  | .exists .. => .exists
  | .relation .. => .relation
  | .contains .. => .contains
  | .regex .. => .regex
  | .regexSet .. => .regexSet
  | .isIn .. => .isIn
  | .card .. => .card

/-- **C69** which constructor it is can be seen from the result. -/
theorem C69_sub_kind (rx : Bytes → Bool) (k : SubKind) (text : Bytes) (m : SubSingle)
    (h : k.new rx text = some m) : kindOf m = k := by
  have h := parseAll_eq_some.1 h
  cases k <;> obtain ⟨_, -, rfl⟩ := map_eq_some.1 h <;> rfl

/-! ## Fields -/

/-- **C69** a text is accepted by the constructor of at most one kind of field matcher, whatever
the counters are. -/
theorem C69_field_one (rx : Bytes → Bool) (s1 s1' s2 s2' : Levels) (k k' : FieldKind) (text : Bytes)
    (m m' : FieldMatcher) (h : k.new rx s1 text = (some m, s1')) (h' : k'.new rx s2 text = (some m', s2')) :
    k = k' := by
  have key : ∀ (s s' : Levels) (k : FieldKind) (m : FieldMatcher), k.new rx s text = (some m, s') →
      (k = .exists ∧ ∃ x, pFieldExists text = some x) ∨ (k = .subfields ∧ pFieldExists text = none ∧
        ∀ b ∈ [0x28, 0x21, 0x23], (dws text).head? ≠ some b) ∨
        (k = .card ∧ (dws text).head? = some 0x23) := by
    intro s s' k m h
    have h := TParser.parseAll_eq_some.1 h
    cases k with
    | «exists» =>
      obtain ⟨a, h, -⟩ := TParser.map_inv h
      exact .inl ⟨rfl, _, (TParser.lift_inv h).1⟩
    | subfields =>
      obtain ⟨a, h, -⟩ := TParser.map_inv h
      obtain ⟨⟨x, j, b, h1, h2, h3⟩, -⟩ := fieldSubs_inv h
      exact .inr (.inl ⟨rfl, fieldExists_none_of_head h1 h2 h3, (fieldHead_cases h1).2.2⟩)
    | card =>
      obtain ⟨a, h, -⟩ := TParser.map_inv h
      obtain ⟨⟨y, hy⟩, -⟩ := fieldCard_inv h
      exact .inr (.inr ⟨rfl, by rw [hy]; rfl⟩)
  rcases key _ _ _ _ h with ⟨rfl, x, h1⟩ | ⟨rfl, h1, h2⟩ | ⟨rfl, h1⟩ <;>
    rcases key _ _ _ _ h' with ⟨rfl, x', g1⟩ | ⟨rfl, g1, g2⟩ | ⟨rfl, g1⟩
  · rfl
  · rw [g1] at h1; cases h1
  · exact absurd g1 ((fieldExists_inv h1).2 _ (by simp))
  · rw [h1] at g1; cases g1
  · rfl
  · exact absurd g1 (h2 _ (by simp))
  · exact absurd h1 ((fieldExists_inv g1).2 _ (by simp))
  · exact absurd h1 (g2 _ (by simp))
  · rfl

/-- **C69** `SingletonMatcher::new` of fields accepts exactly what `ExistsMatcher::new` or
`SubfieldsMatcher::new` accepts, with the same result. -/
theorem C69_field_single (rx : Bytes → Bool) (s s' : Levels) (text : Bytes) (m : FieldSingle) :
    FieldSingle.new rx s text = (some m, s') ↔
      FieldKind.exists.new rx s text = (some (.single m), s') ∨
      FieldKind.subfields.new rx s text = (some (.single m), s') := by
  have hmap : ∀ p : TParser FieldSingle, TParser.map FieldMatcher.single p s text = (some (.single m, []), s') ↔
      p s text = (some (m, []), s') := by
    intro p
    constructor
    · intro h
      obtain ⟨a, h, e⟩ := TParser.map_inv h
      cases e; exact h
    · exact TParser.map_run
  unfold FieldSingle.new FieldKind.new
  simp only [TParser.parseAll_eq_some, FieldKind.parser, hmap]
  constructor
  · intro h
    cases he : pFieldExists text with
    | some x =>
      rw [show pFieldSingle rx s text = _ from TParser.alt_left (TParser.lift_run he)] at h
      left; rw [← h]; exact TParser.lift_run he
    | none =>
      rw [show pFieldSingle rx s text = _ from TParser.alt_right (TParser.lift_none he)] at h
      exact .inr h
  · rintro (h | h)
    · obtain ⟨h1, rfl⟩ := TParser.lift_inv h
      exact fieldSingle_exists h1
    · obtain ⟨⟨x, j, b, h1, h2, h3⟩, -⟩ := fieldSubs_inv h
      rw [show pFieldSingle rx s text = _ from TParser.alt_right (TParser.lift_none
        (fieldExists_none_of_head h1 h2 h3))]
      exact h

/-- **C69** the general constructor agrees: what one of the constructors accepts, on a thread whose
counter of subfield groups is zero, `FieldMatcher::new` accepts with the same meaning. -/
theorem C69_field (rx : Bytes → Bool) (s s' : Levels) (hs : s.sub = 0) (k : FieldKind) (text : Bytes)
    (m : FieldMatcher) (h : k.new rx s text = (some m, s')) :
    s' = s ∧ ∃ m', FieldMatcher.new rx s text = (some m', { s with fld := 0 }) ∧
      ∀ E o fs, m'.eval E o fs = m.eval E o fs := by
  have single : ∀ m, FieldSingle.new rx s text = (some m, s') →
      s' = s ∧ ∃ m', FieldMatcher.new rx s text = (some m', { s with fld := 0 }) ∧
        ∀ E o fs, m'.eval E o fs = (FieldMatcher.single m).eval E o fs := by
    intro m h
    have h := TParser.parseAll_eq_some.1 h
    obtain ⟨m', h1, h2⟩ := fieldMatcher_single hs h
    exact ⟨(fieldSingle_inv h).2.1 hs, _, h1, fun E o fs => congrFun (h2 E o) fs⟩
  cases k with
  | «exists» =>
    obtain ⟨a, -, rfl⟩ := TParser.map_inv (TParser.parseAll_eq_some.1 h)
    exact single a ((C69_field_single rx s s' text a).2 (.inl h))
  | subfields =>
    obtain ⟨a, -, rfl⟩ := TParser.map_inv (TParser.parseAll_eq_some.1 h)
    exact single a ((C69_field_single rx s s' text a).2 (.inr h))
  | card =>
    obtain ⟨a, h0, rfl⟩ := TParser.map_inv (TParser.parseAll_eq_some.1 h)
    obtain ⟨m', h1, h2⟩ := fieldMatcher_card hs h0
    exact ⟨(fieldCard_inv h0).2.1 hs, _, h1, fun E o fs => congrFun (h2 E o) fs⟩

/-! ## Examples -/

/-- every kind has a text -/
def kindText : SubKind → Bytes
  | .exists => bs "[ab]?"
  | .relation => bs "a == 'x'"
  | .contains => bs "a =? ['x', 'y']"
  | .regex => bs "ALL a =~ '^x'"
  | .regexSet => bs "a !~ ['^x', 'y$']"
  | .isIn => bs "a not in ['x', 'y']"
  | .card => bs "#a > 2"

example : ∀ k, ((SubKind.new (fun _ => true) k (kindText k)).map kindOf) = some k := by
  intro k; cases k <;> decide +kernel

example : (FieldKind.exists.new (fun _ => true) ⟨0, 0, 0⟩ (bs "003@?")).1.isSome = true ∧
    (FieldKind.subfields.new (fun _ => true) ⟨0, 0, 0⟩ (bs "ALL 012A{a? || #b > 1}")).1.isSome = true ∧
    (FieldKind.card.new (fun _ => true) ⟨0, 0, 0⟩ (bs "#010@{a == 'ger'} > 1")).1.isSome = true ∧
    (FieldKind.card.new (fun _ => true) ⟨0, 0, 0⟩ (bs "003@?")).1.isSome = false := by decide +kernel

/-- the counter matters: after a failure in deep groups the constructor may reject -/
example : (FieldKind.subfields.new (fun _ => true) ⟨255, 0, 0⟩ (bs "012A{(a?)}")).1.isSome = false ∧
    (FieldKind.subfields.new (fun _ => true) ⟨0, 0, 0⟩ (bs "012A{(a?)}")).1.isSome = true := by decide +kernel

end Pica.Props
