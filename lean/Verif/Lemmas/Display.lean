import Verif.Model.Display
import Verif.Lemmas.ExprSound
import Verif.Lemmas.FieldRun

/-! Printed matchers are texts of the grammar with the same meaning. -/

namespace Pica
open Spec Parser

/-! ## Expressions are closed under the operators -/

section ops
variable {X : Type} {Single Neg : Bytes → Den X → Prop}

theorem dAnd_assoc (a b c : Den X) : dAnd (dAnd a b) c = dAnd a (dAnd b c) := by
  funext x
  simp only [dAnd]
  rcases a x with _ | _ | _ <;> rfl

theorem dOr_assoc (a b c : Den X) : dOr (dOr a b) c = dOr a (dOr b c) := by
  funext x
  simp only [dOr]
  rcases a x with _ | _ | _ <;> rfl

theorem dXor_assoc (a b c : Den X) : dXor (dXor a b) c = dXor a (dXor b c) := by
  funext x
  simp only [dXor]
  rcases a x with _ | a <;> rcases b x with _ | b <;> rcases c x with _ | c <;> try rfl
  cases a <;> cases b <;> cases c <;> rfl

theorem andT_and {t v} (h : AndT Single Neg t v) : ∀ {t' v'}, AndT Single Neg t' v' →
    AndT Single Neg (t ++ bs "&&" ++ t') (dAnd v v')
  | _, _, .one h' => .and h h'
  | _, _, .and h1 h2 => by
    have := AndT.and (andT_and h h1) h2
    rw [dAnd_assoc] at this
    simpa using this

theorem xorT_xor {t v s} (h : XorT Single Neg t v) (hs : XorSign s) : ∀ {t' v'}, XorT Single Neg t' v' →
    XorT Single Neg (t ++ s ++ t') (dXor v v')
  | _, _, .one h' => .xor h hs h'
  | _, _, .xor h1 hs' h2 => by
    have := XorT.xor (xorT_xor h hs h1) hs' h2
    rw [dXor_assoc] at this
    simpa using this

theorem orT_or {t v} (h : OrT Single Neg t v) : ∀ {t' v'}, OrT Single Neg t' v' →
    OrT Single Neg (t ++ bs "||" ++ t') (dOr v v')
  | _, _, .one h' => .or h h'
  | _, _, .or h1 h2 => by
    have := OrT.or (orT_or h h1) h2
    rw [dOr_assoc] at this
    simpa using this

theorem bs_space : bs " " = [0x20] := by decide +kernel

theorem ws_space : Ws (bs " ") := by rw [bs_space]; simp [Ws]

theorem andT_spaced {t v t' v'} (h : AndT Single Neg t v) (h' : AndT Single Neg t' v') :
    AndT Single Neg (t ++ bs " " ++ bs "&&" ++ bs " " ++ t') (dAnd v v') := by
  have := andT_and (andT_pad h ws_nil ws_space) (andT_pad h' ws_space ws_nil)
  simpa using this

theorem xorT_spaced {t v t' v'} (h : XorT Single Neg t v) (h' : XorT Single Neg t' v') :
    XorT Single Neg (t ++ bs " " ++ bs "^" ++ bs " " ++ t') (dXor v v') := by
  have := xorT_xor (xorT_pad h ws_nil ws_space) (.inl rfl) (xorT_pad h' ws_space ws_nil)
  simpa using this

theorem orT_spaced {t v t' v'} (h : OrT Single Neg t v) (h' : OrT Single Neg t' v') :
    OrT Single Neg (t ++ bs " " ++ bs "||" ++ bs " " ++ t') (dOr v v') := by
  have := orT_or (orT_pad h ws_nil ws_space) (orT_pad h' ws_space ws_nil)
  simpa using this

theorem groupT {t v} (h : OrT Single Neg t v) : AtomT Single Neg (bs "(" ++ t ++ bs ")") v ∧
    NegT Single Neg (bs "(" ++ t ++ bs ")") v := by
  constructor
  · simpa using AtomT.group ws_nil h ws_nil
  · simpa using NegT.group ws_nil h ws_nil

theorem notT {t v} (h : NegT Single Neg t v) : AtomT Single Neg (bs "!" ++ t) (dNot v) ∧
    NegT Single Neg (bs "!" ++ t) (dNot v) := by
  constructor
  · simpa using AtomT.not ws_nil h ws_nil
  · simpa using NegT.not ws_nil h ws_nil

end ops

/-! ## Trimming -/

/-- the text ends with a byte that is no white space -/
def EndsSolid (t : Bytes) : Prop := ∃ x b, t = x ++ [b] ∧ isMultispace b = false

theorem EndsSolid.append {t : Bytes} (h : EndsSolid t) (x : Bytes) : EndsSolid (x ++ t) := by
  obtain ⟨y, b, rfl, h⟩ := h
  exact ⟨x ++ y, b, by simp, h⟩

theorem EndsSolid.suffix {x t : Bytes} (h : EndsSolid (x ++ t)) (ht : t ≠ []) : EndsSolid t := by
  obtain ⟨y, b, e, h⟩ := h
  obtain ⟨t', c, rfl⟩ : ∃ t' c, t = t' ++ [c] := ⟨t.dropLast, t.getLast ht, (List.dropLast_concat_getLast ht).symm⟩
  rw [← List.append_assoc] at e
  have := List.append_inj' e rfl
  obtain ⟨-, e'⟩ := this
  simp only [List.cons.injEq, and_true] at e'
  exact ⟨t', c, rfl, e' ▸ h⟩

theorem trimEnd_solid {t : Bytes} (h : EndsSolid t) {w : Bytes} (hw : Ws w) : trimEndAscii (t ++ w) = t := by
  rw [trimEndAscii_ws hw]
  obtain ⟨y, b, rfl, h⟩ := h
  simp [trimEndAscii, h]

theorem trim_solid {w t w' : Bytes} (hw : Ws w) (ht : NoWs t) (h : EndsSolid t) (hw' : Ws w') :
    trimAscii (w ++ t ++ w') = t := by
  unfold trimAscii
  have : (w ++ t ++ w').dropWhile isMultispace = t ++ w' := by
    rw [List.append_assoc, List.dropWhile_append_of_pos (fun b hb => (isMultispace_iff b).2 (hw b hb))]
    obtain ⟨y, b, rfl, -⟩ := h
    cases y with
    | nil =>
      have := ht b rfl
      simp [this]
    | cons c y =>
      have := ht c rfl
      simp [this]
  rw [this]
  exact trimEnd_solid h hw'

theorem padded_right {P : Bytes → Prop} (hP : ∀ t, P t → EndsSolid t) {t : Bytes} (h : Padded P t) :
    ∃ u w, t = u ++ w ∧ Ws w ∧ Padded P u ∧ EndsSolid u := by
  obtain ⟨w, u, w', rfl, h1, h2, h3⟩ := h
  exact ⟨w ++ u, w', rfl, h3, ⟨w, u, [], by simp, h1, h2, ws_nil⟩, (hP u h2).append w⟩

theorem stringText_solid {t s : Bytes} (h : StringText t s) : EndsSolid t := by
  cases h with
  | @mk q t s hq _ _ => exact ⟨[q] ++ t, q, rfl, by rcases hq with rfl | rfl <;> decide⟩

theorem listText_right {R : Bytes → Bytes → Prop} {t xs} (h : ListText R t xs) :
    ∃ u w, t = u ++ w ∧ Ws w ∧ ListText R u xs ∧ EndsSolid u := by
  obtain ⟨w1, w2, items, tail, w3, w4, rfl, h1, h2, h3, h4, h5, h6⟩ := h
  exact ⟨w1 ++ [0x5B] ++ w2 ++ items ++ tail ++ w3 ++ [0x5D], w4, by simp, h6,
    ⟨w1, w2, items, tail, w3, [], by simp, h1, h2, h3, h4, h5, ws_nil⟩, ⟨_, 0x5D, rfl, by decide⟩⟩

theorem digits_solid {ds : Bytes} (h : ds ≠ []) (h' : ∀ b ∈ ds, 0x30 ≤ b ∧ b ≤ 0x39) : EndsSolid ds := by
  refine ⟨ds.dropLast, ds.getLast h, (List.dropLast_concat_getLast h).symm, ?_⟩
  obtain ⟨h1, h2⟩ := h' _ (List.getLast_mem h)
  generalize ds.getLast h = b at h1 h2
  cases hb : isMultispace b with
  | false => rfl
  | true => rcases (isMultispace_iff b).1 hb with rfl | rfl | rfl | rfl <;> revert h1 h2 <;> decide

section trim
variable (rx : Bytes → Bool) (E : Env) (o : Opts)

theorem subText_right {t v} (h : SubText rx E o t v) :
    ∃ u w, t = u ++ w ∧ Ws w ∧ SubText rx E o u v ∧ EndsSolid u := by
  cases h with
  | @«exists» c S h =>
    refine ⟨_, [], by simp, ws_nil, .exists h, ?_⟩
    exact ⟨c, 0x3F, by rw [← bs_qm], by decide⟩
  | @relation tq q c S to op ts x h1 h2 h3 h4 h5 =>
    obtain ⟨u, w, rfl, g1, g2, g3⟩ := padded_right (fun t h => stringText_solid h) h5
    exact ⟨_, w, by simp, g1, .relation h1 h2 h3 h4 g2, g3.append _⟩
  | @contains tq q c S to ts xs h1 h2 h3 h4 =>
    rcases h4 with h4 | ⟨x, rfl, h4⟩
    · obtain ⟨u, w, rfl, g1, g2, g3⟩ := listText_right h4
      exact ⟨_, w, by simp, g1, .contains h1 h2 h3 (.inl g2), g3.append _⟩
    · obtain ⟨u, w, rfl, g1, g2, g3⟩ := padded_right (fun t h => stringText_solid h) h4
      exact ⟨_, w, by simp, g1, .contains h1 h2 h3 (.inr ⟨x, rfl, g2⟩), g3.append _⟩
  | @isIn tq q c S tn inv ti ts xs h1 h2 h3 h4 h5 =>
    rcases h5 with h5 | ⟨cs, h5, h6, h7⟩
    · obtain ⟨u, w, rfl, g1, g2, g3⟩ := listText_right h5
      exact ⟨_, w, by simp, g1, .isIn h1 h2 h3 h4 (.inl g2), g3.append _⟩
    · exact ⟨_, [], by simp, ws_nil, .isIn h1 h2 h3 h4 (.inr ⟨cs, h5, h6, h7⟩), (stringText_solid h7).append _⟩
  | @regex tq q c S to inv ts x h1 h2 h3 h4 =>
    exact ⟨_, [], by simp, ws_nil, .regex h1 h2 h3 h4, (stringText_solid h4.1).append _⟩
  | @regexSet tq q c S to inv ts xs h1 h2 h3 h4 =>
    obtain ⟨u, w, rfl, g1, g2, g3⟩ := listText_right h4
    exact ⟨_, w, by simp, g1, .regexSet h1 h2 h3 g2, g3.append _⟩
  | @card th c S to op ds h1 h2 h3 h4 h5 h6 h7 =>
    exact ⟨_, [], by simp, ws_nil, .card h1 h2 h3 h4 h5 h6 h7, (digits_solid h5 h6).append _⟩

theorem quant_left {sp tq q c S} (h : QuantText sp tq q) (h' : Padded (CodesText · S) c) :
    ∃ w tq' c', tq ++ c = w ++ (tq' ++ c') ∧ Ws w ∧ QuantText sp tq' q ∧ Padded (CodesText · S) c' ∧
      NoWs (tq' ++ c') ∧ tq' ++ c' ≠ [] := by
  cases h with
  | none =>
    obtain ⟨w, u, w', rfl, h1, h2, h3⟩ := h'
    obtain ⟨h4, h5⟩ := codesText_noWs h2
    refine ⟨w, [], u ++ w', by simp, h1, .none, ⟨[], u, w', by simp, ws_nil, h2, h3⟩, ?_, by simp [h5]⟩
    rw [List.nil_append]; exact noWs_append h5 h4
  | @any w w' h1 h2 h3 =>
    refine ⟨w, bs "ANY" ++ w', c, by simp, h1, ?_, h', ?_, ?_⟩
    · simpa using QuantText.any (sp := sp) ws_nil h2 h3
    · rw [bs_ANY]; exact noWs_cons.2 (by decide)
    · rw [bs_ANY]; simp
  | @all w w' h1 h2 h3 =>
    refine ⟨w, bs "ALL" ++ w', c, by simp, h1, ?_, h', ?_, ?_⟩
    · simpa using QuantText.all (sp := sp) ws_nil h2 h3
    · rw [bs_ALL]; exact noWs_cons.2 (by decide)
    · rw [bs_ALL]; simp

theorem padded_left {P : Bytes → Prop} (hP : ∀ t, P t → NoWs t ∧ t ≠ []) {t : Bytes} (h : Padded P t) :
    ∃ w u, t = w ++ u ∧ Ws w ∧ Padded P u ∧ NoWs u ∧ u ≠ [] := by
  obtain ⟨w, u, w', rfl, h1, h2, h3⟩ := h
  obtain ⟨h4, h5⟩ := hP u h2
  exact ⟨w, u ++ w', by simp, h1, ⟨[], u, w', by simp, ws_nil, h2, h3⟩, noWs_append h5 h4, by simp [h5]⟩

theorem subText_left {t v} (h : SubText rx E o t v) :
    ∃ w u, t = w ++ u ∧ Ws w ∧ SubText rx E o u v ∧ NoWs u ∧ u ≠ [] := by
  cases h with
  | @«exists» c S h =>
    obtain ⟨h4, h5⟩ := codesText_noWs h
    exact ⟨[], _, rfl, ws_nil, .exists h, noWs_append h5 h4, by simp [h5]⟩
  | @relation tq q c S to op ts x h1 h2 h3 h4 h5 =>
    obtain ⟨w, tq', c', e, g1, g2, g3, g4, g5⟩ := quant_left h1 h2
    refine ⟨w, _, ?_, g1, .relation g2 g3 h3 h4 h5, ?_, by simp_all⟩
    · rw [e]; simp
    · rw [List.append_assoc]; exact noWs_append g5 g4
  | @contains tq q c S to ts xs h1 h2 h3 h4 =>
    obtain ⟨w, tq', c', e, g1, g2, g3, g4, g5⟩ := quant_left h1 h2
    refine ⟨w, _, ?_, g1, .contains g2 g3 h3 h4, ?_, by simp_all⟩
    · rw [e]; simp
    · rw [List.append_assoc]; exact noWs_append g5 g4
  | @isIn tq q c S tn inv ti ts xs h1 h2 h3 h4 h5 =>
    obtain ⟨w, tq', c', e, g1, g2, g3, g4, g5⟩ := quant_left h1 h2
    refine ⟨w, _, ?_, g1, .isIn g2 g3 h3 h4 h5, ?_, by simp_all⟩
    · rw [e]; simp
    · rw [List.append_assoc, List.append_assoc]; exact noWs_append g5 g4
  | @regex tq q c S to inv ts x h1 h2 h3 h4 =>
    obtain ⟨w, tq', c', e, g1, g2, g3, g4, g5⟩ := quant_left h1 h2
    refine ⟨w, _, ?_, g1, .regex g2 g3 h3 h4, ?_, by simp_all⟩
    · rw [e]; simp
    · rw [List.append_assoc]; exact noWs_append g5 g4
  | @regexSet tq q c S to inv ts xs h1 h2 h3 h4 =>
    obtain ⟨w, tq', c', e, g1, g2, g3, g4, g5⟩ := quant_left h1 h2
    refine ⟨w, _, ?_, g1, .regexSet g2 g3 h3 h4, ?_, by simp_all⟩
    · rw [e]; simp
    · rw [List.append_assoc]; exact noWs_append g5 g4
  | @card th c S to op ds h1 h2 h3 h4 h5 h6 h7 =>
    obtain ⟨w, u, rfl, g1, g2, g3, g4⟩ := padded_left (by
      rintro t rfl
      rw [← bs_hash]
      exact ⟨noWs_cons.2 (by decide), by simp⟩) h1
    refine ⟨w, _, ?_, g1, .card g2 h2 h3 h4 h5 h6 h7, ?_, by simp [g4]⟩
    · simp
    · rw [List.append_assoc, List.append_assoc]; exact noWs_append g4 g3

/-- trimming a simple matcher on both sides does not change its meaning -/
theorem subText_trim {t v} (h : SubText rx E o t v) : SubText rx E o (trimAscii t) v := by
  obtain ⟨u, w, rfl, h1, h2, h3⟩ := subText_right rx E o h
  obtain ⟨w', u', rfl, h4, h5, h6, h7⟩ := subText_left rx E o h2
  rw [trim_solid h4 h6 (h3.suffix h7) h1]
  exact h5

theorem existsText_right {t v} (h : ExistsText t v) : EndsSolid t := by
  cases h with
  | @mk c S h => exact ⟨c, 0x3F, by rw [← bs_qm], by decide⟩

end trim

/-! ## Raw texts -/

theorem raw_of_taken {α β : Type} {f : α × Bytes → β} {q : Parser α} {i t r : Bytes} {m : β}
    (h : map f (withTaken q) i = some (m, r)) (hi : i = t ++ r) : ∃ x, m = f (x, t) := by
  obtain ⟨⟨x, u⟩, h1, rfl⟩ := map_eq_some.1 h
  obtain ⟨-, rfl⟩ := withTaken_eq_some.1 h1
  subst hi
  exact ⟨x, by simp⟩

/-- the matcher was read from the text it prints, up to white space around it -/
theorem pSubSingle_raw {rx : Bytes → Bool} {i t r : Bytes} {m : SubSingle}
    (h : pSubSingle rx i = some (m, r)) (hi : i = t ++ r) :
    (m.display = t ∨ m.display = trimAscii t) ∧
      ((∃ c raw, m = .exists c raw) → m.display = t ∧ pSubExists i = some (m, r)) := by
  unfold pSubSingle at h
  rcases alt_eq_some.1 h with h | ⟨-, h⟩
  · obtain ⟨x, rfl⟩ := raw_of_taken h hi
    exact ⟨.inr rfl, by rintro ⟨_, _, h⟩; cases h⟩
  rcases alt_eq_some.1 h with h | ⟨-, h⟩
  · obtain ⟨x, rfl⟩ := raw_of_taken h hi
    exact ⟨.inl rfl, by rintro ⟨_, _, h⟩; cases h⟩
  rcases alt_eq_some.1 h with h | ⟨-, h⟩
  · obtain ⟨x, rfl⟩ := raw_of_taken h hi
    exact ⟨.inl rfl, by rintro ⟨_, _, h⟩; cases h⟩
  rcases alt_eq_some.1 h with h | ⟨-, h⟩
  · obtain ⟨x, rfl⟩ := raw_of_taken h hi
    exact ⟨.inl rfl, fun _ => ⟨rfl, h⟩⟩
  rcases alt_eq_some.1 h with h | ⟨-, h⟩
  · obtain ⟨x, rfl⟩ := raw_of_taken h hi
    exact ⟨.inl rfl, by rintro ⟨_, _, h⟩; cases h⟩
  rcases alt_eq_some.1 h with h | ⟨-, h⟩
  · obtain ⟨x, rfl⟩ := raw_of_taken h hi
    exact ⟨.inl rfl, by rintro ⟨_, _, h⟩; cases h⟩
  · obtain ⟨x, rfl⟩ := raw_of_taken h hi
    exact ⟨.inl rfl, by rintro ⟨_, _, h⟩; cases h⟩

/-! ## Tags and occurrences -/

theorem bs_slash : bs "/" = [SLASH] := by decide +kernel
theorem bs_dash : bs "-" = [0x2D] := by decide +kernel
theorem bs_slashStar : bs "/*" = [SLASH, 0x2A] := by decide +kernel

theorem pTagMatcher_raw {i t r : Bytes} {m : TagMatcher} (h : pTagMatcher i = some (m, r))
    (hi : i = t ++ r) : m.display = t := by
  unfold pTagMatcher at h
  rcases alt_eq_some.1 h with h | ⟨-, h⟩
  · obtain ⟨tg, h1, rfl⟩ := map_eq_some.1 h
    obtain ⟨-, h2⟩ := pTag_eq_some.1 h1
    rw [hi] at h2
    exact (List.append_cancel_right h2).symm
  · obtain ⟨x, rfl⟩ := raw_of_taken h hi
    rfl

theorem tag_display {t : Bytes} {m : TagMatcher} (h : TagMatcher.new t = some m) : m.display = t :=
  pTagMatcher_raw (parseAll_eq_some.1 h) (List.append_nil t).symm

theorem occ_display {t : Bytes} {m : OccMatcher} (h : OccMatcher.new t = some m) :
    (m.display = t ∨ t = bs "/00" ∧ m = .none) ∧ OccMatcher.new m.display = some m := by
  suffices hs : m.display = t ∨ t = bs "/00" ∧ m = .none by
    refine ⟨hs, ?_⟩
    rcases hs with hs | ⟨rfl, rfl⟩
    · rw [hs]; exact h
    · decide
  have h' := parseAll_eq_some.1 h
  unfold pOccMatcher at h'
  rcases alt_eq_some.1 h' with h1 | ⟨-, h1⟩
  · obtain ⟨a, r1, ha, h2⟩ := preceded_eq_some.1 h1
    obtain ⟨rfl, -⟩ := byte_eq_some.1 ha
    rcases alt_eq_some.1 h2 with h3 | ⟨-, h3⟩
    · obtain ⟨⟨x, y⟩, h4, rfl⟩ := map_eq_some.1 h3
      obtain ⟨h5, -⟩ := verify_eq_some.1 h4
      obtain ⟨r2, h6, h7⟩ := seq_eq_some.1 h5
      obtain ⟨c, r3, h8, h9⟩ := preceded_eq_some.1 h7
      obtain ⟨rfl, -⟩ := byte_eq_some.1 h8
      obtain ⟨-, rfl⟩ := pOccurrence_sound h6
      obtain ⟨-, rfl⟩ := pOccurrence_sound h9
      left
      simp only [OccMatcher.display]
      rw [bs_slash, bs_dash]; simp
    rcases alt_eq_some.1 h3 with h4 | ⟨-, h4⟩
    · obtain ⟨x, h5, rfl⟩ := map_eq_some.1 h4
      obtain ⟨h6, -⟩ := verify_eq_some.1 h5
      obtain ⟨-, rfl⟩ := pOccurrence_sound h6
      left
      simp only [OccMatcher.display]
      rw [bs_slash]; simp
    rcases alt_eq_some.1 h4 with h5 | ⟨-, h5⟩
    · obtain ⟨x, h6, rfl⟩ := map_eq_some.1 h5
      have := lit_eq_some.1 h6
      subst this
      right
      exact ⟨by decide +kernel, rfl⟩
    · obtain ⟨x, h6, rfl⟩ := map_eq_some.1 h5
      have := lit_eq_some.1 h6
      subst this
      left
      decide +kernel
  · cases h1
    exact .inl rfl

end Pica
