import Verif.Lemmas.SubRun
import Verif.Model.Construct

/-! The seven kinds of singleton subfield matchers exclude each other: at most one of their
parsers accepts a given input. -/

namespace Pica
open Parser Spec

/-- an input that begins with a quantifier, codes and a text with property `P` -/
def CodesThen (P : Bytes → Prop) (i : Bytes) : Prop :=
  ∃ tq q c S X, i = tq ++ (c ++ X) ∧ QuantText false tq q ∧ Padded (CodesText · S) c ∧ AfterCodes X ∧ P X

theorem CodesThen.mono {P Q : Bytes → Prop} {i} (h : CodesThen P i) (hPQ : ∀ X, P X → Q X) : CodesThen Q i := by
  obtain ⟨tq, q, c, S, X, h1, h2, h3, h4, h5⟩ := h
  exact ⟨tq, q, c, S, X, h1, h2, h3, h4, hPQ X h5⟩

theorem quantText_false {sp t q} (h : QuantText sp t q) : QuantText false t q := by
  cases h with
  | none => exact .none
  | any h1 h2 _ => exact .any h1 h2 (by simp)
  | all h1 h2 _ => exact .all h1 h2 (by simp)

theorem pQuant_reads (sp : Bool) : Reads (pQuant sp) (fun q t => QuantText false t q) := by
  cases sp
  · exact quant_reads
  · exact quant_sp_reads.mono fun _ _ h => quantText_false h

/-- what is read after quantifier, codes and a padded sign -/
theorem codesThen_of {α : Type} {sp : Bool} {i : Bytes} {p : Parser α}
    {R : α → Bytes → Prop} (hp : Reads p R) {q cs a i1 i2 i3}
    (h1 : pQuant sp i = some (q, i1)) (h2 : Pica.ws pCodes i1 = some (cs, i2))
    (h3 : Pica.ws p i2 = some (a, i3)) {P : Bytes → Prop}
    (hP : ∀ t Y, R a t → AfterCodes (t ++ Y) ∧ P (t ++ Y)) : CodesThen P i := by
  obtain ⟨tq, rfl, hq⟩ := pQuant_reads sp _ _ _ h1
  obtain ⟨c, rfl, S, hc, -⟩ := wsCodes_reads _ _ _ h2
  obtain ⟨_, rfl, w, u, w', rfl, hw, hu, hw'⟩ := hp.ws _ _ _ h3
  obtain ⟨h4, h5⟩ := hP u (w' ++ i3) hu
  exact ⟨tq, q, c ++ w, S, u ++ (w' ++ i3), by simp, hq, padded_append hc hw, h4, h5⟩

/-! ### the shapes -/

/-- a relational operator on strings in front -/
def RelHead (X : Bytes) : Prop := ∃ op Y, StrOp op ∧ X = relSign op ++ Y

theorem relation_shape {i x} (h : pSubRelation i = some x) : CodesThen RelHead i := by
  unfold pSubRelation at h
  obtain ⟨x, r⟩ := x
  obtain ⟨⟨⟨q, cs, op, v⟩, t⟩, h, -⟩ := map_eq_some.1 h
  obtain ⟨h, -⟩ := withTaken_eq_some.1 h
  obtain ⟨i1, h1, h⟩ := seq_eq_some.1 h
  obtain ⟨i2, h2, h⟩ := seq_eq_some.1 h
  obtain ⟨i3, h3, -⟩ := seq_eq_some.1 h
  obtain ⟨h3, hop⟩ := verify_eq_some.1 h3
  refine codesThen_of (sp := true) pRelOp_reads h1 h2 h3 ?_
  rintro t Y rfl
  exact ⟨relSign_noWs op Y, op, Y, strOk_iff.1 hop, rfl⟩

theorem contains_shape {i x} (h : pSubContains i = some x) : CodesThen (fun X => ∃ Y, X = bs "=?" ++ Y) i := by
  unfold pSubContains at h
  obtain ⟨x, r⟩ := x
  obtain ⟨⟨⟨q, cs, op, v⟩, t⟩, h, -⟩ := map_eq_some.1 h
  obtain ⟨h, -⟩ := withTaken_eq_some.1 h
  obtain ⟨i1, h1, h⟩ := seq_eq_some.1 h
  obtain ⟨i2, h2, h⟩ := seq_eq_some.1 h
  obtain ⟨i3, h3, -⟩ := seq_eq_some.1 h
  refine codesThen_of (sp := false) (Reads.lit _) h1 h2 h3 ?_
  rintro t Y rfl
  obtain ⟨_, _, _, _, _, _, _, _, _, _, _, e, _⟩ := bs_ops
  exact ⟨by rw [e]; exact sign_after (.inl rfl), Y, rfl⟩

theorem in_shape {i x} (h : pSubIn i = some x) :
    CodesThen (fun X => ∃ Y, X = bs "not" ++ Y ∨ X = bs "in" ++ Y) i := by
  unfold pSubIn at h
  obtain ⟨x, r⟩ := x
  obtain ⟨⟨⟨q, cs, inv, v⟩, t⟩, h, -⟩ := map_eq_some.1 h
  obtain ⟨h, -⟩ := withTaken_eq_some.1 h
  obtain ⟨i1, h1, h⟩ := seq_eq_some.1 h
  obtain ⟨i2, h2, h⟩ := seq_eq_some.1 h
  obtain ⟨i3, h3, h⟩ := seq_eq_some.1 h
  obtain ⟨_, i4, h4, -⟩ := preceded_eq_some.1 h
  obtain ⟨_, _, _, _, _, _, _, _, _, _, _, _, e1, e2, _⟩ := bs_ops
  cases hn : Pica.ws (lit (bs "not")) i2 with
  | some y =>
    refine codesThen_of (sp := false) (Reads.lit _) h1 h2 hn ?_
    rintro t Y rfl
    exact ⟨by rw [e2]; exact sign_after (.inr (.inr (.inr rfl))), Y, .inl rfl⟩
  | none =>
    obtain ⟨o, h3, -⟩ := map_eq_some.1 h3
    rw [opt_none hn] at h3
    obtain ⟨rfl, rfl⟩ := (by simpa using h3 : _ ∧ i2 = i3)
    refine codesThen_of (sp := false) (Reads.lit _) h1 h2 h4 ?_
    rintro t Y rfl
    exact ⟨by rw [e1]; exact sign_after (.inr (.inr (.inl rfl))), Y, .inr rfl⟩

theorem exists_shape {i x} (h : pSubExists i = some x) : CodesThen (fun X => X.head? = some 0x3F) i ∧ NoWs i := by
  unfold pSubExists at h
  obtain ⟨x, r⟩ := x
  obtain ⟨⟨cs, t⟩, h, -⟩ := map_eq_some.1 h
  obtain ⟨h, -⟩ := withTaken_eq_some.1 h
  obtain ⟨c, rfl, hc⟩ := (pCodes_reads.terminated (Reads.byte _)) _ _ _ h
  obtain ⟨_, u, v, rfl, ⟨S, hu, -⟩, -, rfl⟩ := hc
  refine ⟨⟨[], .any, u, S, 0x3F :: r, by simp, .none, ⟨[], u, [], by simp, by simp [Ws], hu, by simp [Ws]⟩,
    ⟨noWs_cons.2 (by decide), by simp, by simp⟩, rfl⟩, ?_⟩
  obtain ⟨b, u', rfl, hb, -⟩ := codesText_head hu
  exact codeHead_noWs hb _

def RegexHead (X : Bytes) : Prop := ∃ (inv : Bool) (Y : Bytes), X = (if inv then bs "!~" else bs "=~") ++ Y

theorem regexOp_after (inv : Bool) (Y : Bytes) : AfterCodes ((if inv then bs "!~" else bs "=~") ++ Y) := by
  obtain ⟨e1, e2⟩ := bs_rx
  cases inv
  · simp only [e1, e2]; exact sign_after (.inl rfl)
  · simp only [e1, e2]; exact sign_after (.inr (.inl rfl))

theorem regexSet_shape {rx i x} (h : pSubRegexSet rx i = some x) : CodesThen RegexHead i := by
  unfold pSubRegexSet at h
  obtain ⟨x, r⟩ := x
  obtain ⟨⟨⟨q, cs, op, v⟩, t⟩, h, -⟩ := map_eq_some.1 h
  obtain ⟨h, -⟩ := withTaken_eq_some.1 h
  obtain ⟨i1, h1, h⟩ := seq_eq_some.1 h
  obtain ⟨i2, h2, h⟩ := seq_eq_some.1 h
  obtain ⟨i3, h3, -⟩ := seq_eq_some.1 h
  refine codesThen_of (sp := false) pRegexOp_reads h1 h2 h3 ?_
  rintro t Y rfl
  exact ⟨regexOp_after op Y, op, Y, rfl⟩

theorem regex_shape {rx i x} (h : pSubRegex rx i = some x) : CodesThen RegexHead i ∧ pSubRegexSet rx i = none := by
  unfold pSubRegex at h
  obtain ⟨x, r⟩ := x
  obtain ⟨⟨⟨q, cs, op, v⟩, t⟩, h, -⟩ := map_eq_some.1 h
  obtain ⟨h, -⟩ := withTaken_eq_some.1 h
  obtain ⟨i1, h1, h⟩ := seq_eq_some.1 h
  obtain ⟨i2, h2, h⟩ := seq_eq_some.1 h
  obtain ⟨i3, h3, h4⟩ := seq_eq_some.1 h
  constructor
  · refine codesThen_of (sp := false) pRegexOp_reads h1 h2 h3 ?_
    rintro t Y rfl
    exact ⟨regexOp_after op Y, op, Y, rfl⟩
  · obtain ⟨h4, -⟩ := verify_eq_some.1 h4
    obtain ⟨t, rfl, ht⟩ := pString_reads _ _ _ h4
    unfold pSubRegexSet
    refine map_none (withTaken_none (seq_none' h1 (seq_none' h2 (seq_none' h3 (pBracketList_none ?_)))))
    rw [dws_of_noWs (stringText_head ht r).1]
    cases ht with
    | mk hq _ _ => rcases hq with rfl | rfl <;> simp

theorem card_shape {i x} (h : pSubCard i = some x) : ∃ r, dws i = 0x23 :: r := by
  unfold pSubCard at h
  obtain ⟨x, r⟩ := x
  obtain ⟨⟨⟨q, cs, op⟩, t⟩, h, -⟩ := map_eq_some.1 h
  obtain ⟨h, -⟩ := withTaken_eq_some.1 h
  obtain ⟨_, i1, h1, -⟩ := preceded_eq_some.1 h
  obtain ⟨_, rfl, w, u, w', rfl, hw, ⟨-, rfl⟩, -⟩ := (Reads.byte 0x23).ws _ _ _ h1
  refine ⟨w' ++ i1, ?_⟩
  rw [List.append_assoc, List.append_assoc, List.singleton_append,
    dws_append_noWs hw (noWs_cons.2 (by decide))]

/-! ### what the others do -/

theorem regexes_fail {rx i} (h : CodesThen (fun X => pRegexOp X = none) i) :
    pSubRegexSet rx i = none ∧ pSubRegex rx i = none := by
  obtain ⟨tq, q, c, S, X, rfl, hq, hc, hX, h⟩ := h
  obtain ⟨cs, -, h1⟩ := quantCodes_run hq hc
  obtain ⟨r, h2, h3⟩ := h1 X hX
  have h4 : Pica.ws pRegexOp X = none := ws_none' (by rw [dws_of_noWs hX.1]; exact h)
  unfold pSubRegexSet pSubRegex
  exact ⟨map_none (withTaken_none (seq_none' h2 (seq_none' h3 (seq_none h4)))),
    map_none (withTaken_none (seq_none' h2 (seq_none' h3 (seq_none h4))))⟩

/-- no kind but `k` can read on at `X` -/
structure Signs (k : SubKind) (X : Bytes) : Prop where
  rel : k ≠ .relation → pRelOp X = none
  con : k ≠ .contains → lit (bs "=?") X = none
  not : k ≠ .isIn → lit (bs "not") X = none
  isIn : k ≠ .isIn → lit (bs "in") X = none
  ex : k ≠ .exists → X.head? ≠ some 0x3F
  re : k ≠ .regex → pRegexOp X = none

theorem signs_rel {X} (h : RelHead X) : Signs .relation X := by
  obtain ⟨op, Y, hop, rfl⟩ := h
  obtain ⟨e1, e2, e3, e4, e5, e6, e7, e8, e9, e10, e11, e12, e13, e14, e15⟩ := bs_ops
  obtain ⟨f1, f2⟩ := bs_rx
  unfold StrOp at hop
  cases op <;> simp only [ne_eq, not_true_eq_false, reduceCtorEq, not_false_eq_true, and_true, and_false, false_and] at hop <;>
    constructor <;> intro hk <;>
    (try simp only [relSign, pRelOp, pRegexOp, f1, f2, e1, e2, e3, e4, e5, e6, e7, e8, e9, e10, e11, e12, e13, e14]) <;>
    first | rfl | exact absurd rfl hk | simp

theorem signs_con {Y} : Signs .contains (bs "=?" ++ Y) := by
  obtain ⟨e1, e2, e3, e4, e5, e6, e7, e8, e9, e10, e11, e12, e13, e14, e15⟩ := bs_ops
  obtain ⟨f1, f2⟩ := bs_rx
  constructor <;> intro hk <;>
    (try simp only [pRelOp, pRegexOp, f1, f2, e1, e2, e3, e4, e5, e6, e7, e8, e9, e10, e11, e12, e13, e14]) <;>
    first | rfl | exact absurd rfl hk | simp

theorem signs_in {X} (h : ∃ Y, X = bs "not" ++ Y ∨ X = bs "in" ++ Y) : Signs .isIn X := by
  obtain ⟨e1, e2, e3, e4, e5, e6, e7, e8, e9, e10, e11, e12, e13, e14, e15⟩ := bs_ops
  obtain ⟨f1, f2⟩ := bs_rx
  obtain ⟨Y, rfl | rfl⟩ := h <;>
  constructor <;> intro hk <;>
    (try simp only [pRelOp, pRegexOp, f1, f2, e1, e2, e3, e4, e5, e6, e7, e8, e9, e10, e11, e12, e13, e14]) <;>
    first | rfl | exact absurd rfl hk | simp

theorem signs_ex {X} (h : X.head? = some 0x3F) : Signs .exists X := by
  obtain ⟨e1, e2, e3, e4, e5, e6, e7, e8, e9, e10, e11, e12, e13, e14, e15⟩ := bs_ops
  obtain ⟨f1, f2⟩ := bs_rx
  obtain ⟨Y, rfl⟩ : ∃ Y, X = 0x3F :: Y := by
    cases X with
    | nil => simp at h
    | cons b Y => exact ⟨Y, by simpa using h⟩
  constructor <;> intro hk <;>
    (try simp only [pRelOp, pRegexOp, f1, f2, e1, e2, e3, e4, e5, e6, e7, e8, e9, e10, e11, e12, e13, e14]) <;>
    first | rfl | exact absurd rfl hk | simp

theorem signs_re {X} (h : RegexHead X) : Signs .regex X := by
  obtain ⟨e1, e2, e3, e4, e5, e6, e7, e8, e9, e10, e11, e12, e13, e14, e15⟩ := bs_ops
  obtain ⟨f1, f2⟩ := bs_rx
  obtain ⟨inv, Y, rfl⟩ := h
  cases inv <;>
  constructor <;> intro hk <;>
    (try simp only [pRelOp, pRegexOp, f1, f2, e1, e2, e3, e4, e5, e6, e7, e8, e9, e10, e11, e12, e13, e14]) <;>
    first | rfl | exact absurd rfl hk | simp

/-- the kind of the two matchers with regular expressions -/
def SubKind.sign : SubKind → SubKind
  | .regexSet => .regex
  | k => k

theorem shape_signs {rx k i x} (h : SubKind.parser rx k i = some x) (hk : k ≠ .card) :
    CodesThen (Signs k.sign) i := by
  cases k with
  | «exists» => exact (exists_shape h).1.mono fun X => signs_ex
  | relation => exact (relation_shape h).mono fun X => signs_rel
  | contains => exact (contains_shape h).mono (by rintro X ⟨Y, rfl⟩; exact signs_con)
  | regex => exact (regex_shape h).1.mono fun X => signs_re
  | regexSet => exact (regexSet_shape h).mono fun X => signs_re
  | isIn => exact (in_shape h).mono fun X => signs_in
  | card => exact absurd rfl hk

/-- at most one kind reads an input -/
theorem kinds_exclude {rx k k' i x} (h : SubKind.parser rx k i = some x) (hk : k' ≠ k) :
    SubKind.parser rx k' i = none := by
  by_cases hc : k = .card
  · subst hc
    obtain ⟨r, hr⟩ := card_shape h
    cases k' with
    | «exists» =>
      refine map_none (withTaken_none (terminated_none ?_))
      cases i with
      | nil => rfl
      | cons b i =>
        by_cases hb : isMultispace b = true
        · exact pCodes_ws _ hb
        · rw [dws_cons _ (by simpa using hb)] at hr
          rw [hr]; rfl
    | relation => exact map_none (withTaken_none (hash_fails (sp := true) hr))
    | contains => exact map_none (withTaken_none (hash_fails (sp := false) hr))
    | regex => exact map_none (withTaken_none (hash_fails (sp := false) hr))
    | regexSet => exact map_none (withTaken_none (hash_fails (sp := false) hr))
    | isIn => exact map_none (withTaken_none (hash_fails (sp := false) hr))
    | card => exact absurd rfl hk
  · have hs := shape_signs h hc
    by_cases hre : k'.sign = k.sign
    · have : (k = .regex ∧ k' = .regexSet) ∨ (k = .regexSet ∧ k' = .regex) := by
        revert hre hk; cases k <;> cases k' <;> decide
      rcases this with ⟨rfl, rfl⟩ | ⟨rfl, rfl⟩
      · exact (regex_shape h).2
      · cases h' : SubKind.parser rx .regex i with
        | none => rfl
        | some y => rw [show SubKind.parser rx .regexSet i = none from (regex_shape h').2] at h; cases h
    · have hs' := hs
      obtain ⟨tq, q, c, S, X, rfl, hq, hcc, hX, hS⟩ := hs
      cases k' with
      | «exists» => exact exists_fails hq hcc hX (hS.ex fun e => hre (by rw [e]; rfl))
      | relation => exact relation_fails hq hcc hX (hS.rel fun e => hre (by rw [e]; rfl))
      | contains => exact contains_fails hq hcc hX (hS.con fun e => hre (by rw [e]; rfl))
      | regex => exact (regexes_fail (hs'.mono fun X hX => hX.re fun e => hre (by rw [e]; rfl))).2
      | regexSet => exact (regexes_fail (hs'.mono fun X hX => hX.re fun e => hre (by rw [e]; rfl))).1
      | isIn => exact in_fails hq hcc hX (hS.not fun e => hre (by rw [e]; rfl)) (hS.isIn fun e => hre (by rw [e]; rfl))
      | card => exact card_fails hq hcc

theorem pSubSingle_eq_some {rx i x} :
    pSubSingle rx i = some x ↔ ∃ k, SubKind.parser rx k i = some x := by
  constructor
  · intro h
    unfold pSubSingle at h
    rcases alt_eq_some.1 h with h | ⟨-, h⟩
    · exact ⟨.relation, h⟩
    rcases alt_eq_some.1 h with h | ⟨-, h⟩
    · exact ⟨.contains, h⟩
    rcases alt_eq_some.1 h with h | ⟨-, h⟩
    · exact ⟨.isIn, h⟩
    rcases alt_eq_some.1 h with h | ⟨-, h⟩
    · exact ⟨.exists, h⟩
    rcases alt_eq_some.1 h with h | ⟨-, h⟩
    · exact ⟨.card, h⟩
    rcases alt_eq_some.1 h with h | ⟨-, h⟩
    · exact ⟨.regexSet, h⟩
    · exact ⟨.regex, h⟩
  · rintro ⟨k, h⟩
    have hn : ∀ k', k' ≠ k → SubKind.parser rx k' i = none := fun k' hk' => kinds_exclude h hk'
    unfold pSubSingle
    by_cases h1 : k = .relation
    · subst h1; exact alt_eq_some.2 (.inl h)
    refine alt_eq_some.2 (.inr ⟨hn .relation (Ne.symm h1), ?_⟩)
    by_cases h1 : k = .contains
    · subst h1; exact alt_eq_some.2 (.inl h)
    refine alt_eq_some.2 (.inr ⟨hn .contains (Ne.symm h1), ?_⟩)
    by_cases h1 : k = .isIn
    · subst h1; exact alt_eq_some.2 (.inl h)
    refine alt_eq_some.2 (.inr ⟨hn .isIn (Ne.symm h1), ?_⟩)
    by_cases h1 : k = .exists
    · subst h1; exact alt_eq_some.2 (.inl h)
    refine alt_eq_some.2 (.inr ⟨hn .exists (Ne.symm h1), ?_⟩)
    by_cases h1 : k = .card
    · subst h1; exact alt_eq_some.2 (.inl h)
    refine alt_eq_some.2 (.inr ⟨hn .card (Ne.symm h1), ?_⟩)
    by_cases h1 : k = .regexSet
    · subst h1; exact alt_eq_some.2 (.inl h)
    refine alt_eq_some.2 (.inr ⟨hn .regexSet (Ne.symm h1), ?_⟩)
    have : k = .regex := by revert h; cases k <;> simp_all
    subst this; exact h

/-! ### leading white space -/

theorem pQuant_codes_dws {β : Type} {K : Parser β} (sp : Bool) (i : Bytes) :
    seq (pQuant sp) (seq (Pica.ws pCodes) K) (dws i) = seq (pQuant sp) (seq (Pica.ws pCodes) K) i := by
  have hw : ∀ {α : Type} (p : Parser α), Pica.ws p (dws i) = Pica.ws p i := by
    intro α p
    cases h : p (dws i) with
    | none => rw [ws_none' h, ws_none' (by rw [dws_dws]; exact h)]
    | some x => rw [ws_run' h, ws_run' (by rw [dws_dws]; exact h)]
  have hc := hw pCodes
  have hq := hw (if sp then terminated pQuantifier multispace1 else pQuantifier)
  cases h : Pica.ws (if sp then terminated pQuantifier multispace1 else pQuantifier) i with
  | some x =>
    have : pQuant sp (dws i) = pQuant sp i := by
      unfold pQuant map opt
      rw [hq, h]
    unfold seq
    rw [this]
  | none =>
    have h1 : pQuant sp i = some (.any, i) := by unfold pQuant; exact map_run (a := none) (opt_none h)
    have h2 : pQuant sp (dws i) = some (.any, dws i) := by
      unfold pQuant; exact map_run (a := none) (opt_none (hq.trans h))
    unfold seq
    rw [h1, h2]
    dsimp only
    rw [hc]

/-- the input after white space is read up to the same place -/
theorem single_dws {rx i x r} (h : pSubSingle rx i = some (x, r)) : ∃ x', pSubSingle rx (dws i) = some (x', r) := by
  have key : ∀ {α : Type} {f : α × Bytes → SubSingle} {p : Parser α}, p (dws i) = p i →
      map f (withTaken p) i = some (x, r) → ∃ x', map f (withTaken p) (dws i) = some (x', r) := by
    intro α f p hp h
    obtain ⟨⟨a, t⟩, h, -⟩ := map_eq_some.1 h
    obtain ⟨h, -⟩ := withTaken_eq_some.1 h
    exact ⟨_, map_eq_some.2 ⟨(a, _), withTaken_eq_some.2 ⟨hp.trans h, rfl⟩, rfl⟩⟩
  obtain ⟨k, hk⟩ := pSubSingle_eq_some.1 h
  suffices ∃ x', SubKind.parser rx k (dws i) = some (x', r) by
    obtain ⟨x', h⟩ := this
    exact ⟨x', pSubSingle_eq_some.2 ⟨k, h⟩⟩
  cases k with
  | «exists» => rw [dws_of_noWs (exists_shape hk).2]; exact ⟨x, hk⟩
  | relation => exact key (pQuant_codes_dws true i) hk
  | contains => exact key (pQuant_codes_dws false i) hk
  | regex => exact key (pQuant_codes_dws false i) hk
  | regexSet => exact key (pQuant_codes_dws false i) hk
  | isIn => exact key (pQuant_codes_dws false i) hk
  | card =>
    refine key ?_ hk
    have : Pica.ws (byte 0x23) (dws i) = Pica.ws (byte 0x23) i := by
      obtain ⟨r, hr⟩ := card_shape hk
      have h : byte 0x23 (dws i) = some (0x23, r) := by rw [hr]; exact byte_eq_some.2 ⟨rfl, rfl⟩
      rw [ws_run' h, ws_run' (by rw [dws_dws]; exact h)]
    unfold preceded seq
    simp only [map]
    rw [this]

/-- no group and no negation -/
theorem single_head {rx i x} (h : pSubSingle rx i = some x) :
    (dws i).head? ≠ some 0x28 ∧ (dws i).head? ≠ some 0x21 := by
  obtain ⟨k, hk⟩ := pSubSingle_eq_some.1 h
  by_cases hc : k = .card
  · subst hc
    obtain ⟨r, hr⟩ := card_shape hk
    rw [hr]; simp
  · obtain ⟨tq, q, c, S, X, rfl, hq, hcc, -, -⟩ := shape_signs hk hc
    obtain ⟨w1, u, w2, rfl, h1, hu, h2⟩ := hcc
    obtain ⟨b, y, rfl, hb, -⟩ := codesText_head hu
    rcases quantText_cases hq with ⟨rfl, rfl⟩ | ⟨w, w', rfl, hw, hw', -⟩
    · rw [List.nil_append, List.append_assoc, List.append_assoc, List.cons_append,
        dws_append_noWs h1 (codeHead_noWs hb _)]
      have h3 := codes_not hb (x := 0x28) (by simp)
      have h4 := codes_not hb (x := 0x21) (by simp)
      exact ⟨by simpa using h3, by simpa using h4⟩
    · rw [List.append_assoc, List.append_assoc, dws_append_noWs hw (qSign_noWs _ _)]
      cases q
      · rw [qSign, bs_ALL]; simp
      · rw [qSign, bs_ANY]; simp

/-- an operand that reads the whole input is no composite -/
theorem composite_whole {M : Type} {S : Syn M} {s : Levels} {atoms : TParser M} {i m}
    (hS : S.opAnd [] = none ∧ S.opOr [] = none) (h : atoms s (dws i) = (some (m, []), s)) :
    composite S atoms s i = (none, s) := by
  have hx : pXorOp [] = none := by
    have e : bs "^" = [0x5E] ∧ bs "XOR" = [0x58, 0x4F, 0x52] := by decide +kernel
    unfold pXorOp; rw [e.1, e.2]; rfl
  have ha : ∀ j, dws j = dws i → andChain S atoms s j = (none, s) := by
    intro j hj
    exact chain_none (tws_run (a := m) (r := []) (by rw [hj]; exact h)) hS.1
  have ha' := ha (dws i) (dws_dws i)
  have hxc : ∀ j, dws j = dws i → xorChain S atoms s j = (none, s) := by
    intro j hj
    refine chain_none (tws_run (a := m) (r := []) ?_) hx
    rw [hj, TParser.alt_right ha']
    exact h
  unfold composite
  rw [TParser.alt_right, TParser.alt_right (hxc i rfl)]
  · exact ha i rfl
  · refine chain_none (tws_run (a := m) (r := []) ?_) hS.2
    rw [TParser.alt_right ha', TParser.alt_right (hxc _ (dws_dws i))]
    exact h

theorem subGroup_none' {rx k s i} (h : (dws i).head? ≠ some 0x28) : pSubGroup rx k s i = (none, s) := by
  cases k with
  | zero => rfl
  | succ k =>
    unfold pSubGroup
    exact TParser.map_none (TParser.preceded_none (TParser.terminated_none (TParser.lift_none
      (ws_none' (byte_none_of_head h)))))

theorem subNot_none' {rx k s i} (h : (dws i).head? ≠ some 0x21) : pSubNot rx k s i = (none, s) := by
  cases k with
  | zero => rfl
  | succ k =>
    unfold pSubNot
    exact TParser.map_none (TParser.preceded_none (TParser.lift_none (ws_none' (byte_none_of_head h))))

theorem subMatcher_single {rx i m} (s : Levels) (h : pSubSingle rx i = some (m, [])) :
    pSubMatcher rx s i = (some (.single m, []), subReset s) := by
  obtain ⟨m', h'⟩ := single_dws h
  obtain ⟨h1, h2⟩ := single_head h
  have hat : ∀ k, subAtoms rx (pSubGroup rx k) (pSubNot rx k) s (dws i) = (some (.single m', []), s) := by
    intro k
    unfold subAtoms
    rw [TParser.alt_right (subGroup_none' (by rw [dws_dws]; exact h1))]
    exact TParser.alt_left (TParser.lift_run (map_run h'))
  have hc : ∀ k, pSubComposite rx k s i = (none, s) := fun k => composite_whole
    ⟨by unfold subSyn; rw [bs_and]; rfl, by unfold subSyn; rw [bs_or]; rfl⟩ (hat k)
  unfold pSubMatcher
  dsimp only
  have hm : pSubSingleM rx s i = (some (.single m, []), s) := TParser.lift_run (map_run h)
  rw [TParser.alt_right (hc _), TParser.alt_left hm]

end Pica
