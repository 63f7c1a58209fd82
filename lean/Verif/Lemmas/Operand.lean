import Verif.Spec.Sequence
import Verif.Lemmas.ExprRun
import Verif.Lemmas.ExprSound

/-! The operands of `Spec.Sequence` are read by the parsers. -/

namespace Pica
open Spec Parser

theorem codesText_head {c S} (h : CodesText c S) : ∃ b r, c = b :: r ∧
    (IsCode b ∨ b = 0x5B ∨ b = 0x2A) ∧ (b = 0x41 → r = []) := by
  cases h with
  | one c hc => exact ⟨c, [], rfl, .inl hc, fun _ => rfl⟩
  | @list t _ h => exact ⟨0x5B, t ++ [0x5D], by simp, by simp, fun h => absurd h (by decide)⟩
  | all => exact ⟨0x2A, [], rfl, by simp, fun _ => rfl⟩

theorem codes_not {b x : Byte} (h : IsCode b ∨ b = 0x5B ∨ b = 0x2A)
    (hx : x = 0x20 ∨ x = 0x09 ∨ x = 0x0D ∨ x = 0x0A ∨ x = 0x28 ∨ x = 0x21 ∨ x = 0x23 ∨ x = 0x3D ∨
      x = 0x3F ∨ x = 0x27 ∨ x = 0x22) : b ≠ x := by
  rintro rfl
  rcases h with h | h | h
  · rcases hx with rfl | rfl | rfl | rfl | rfl | rfl | rfl | rfl | rfl | rfl | rfl <;>
      revert h <;> simp only [IsCode] <;> decide
  · subst h; revert hx; decide
  · subst h; revert hx; decide

theorem codesText_noWs {c S} (h : CodesText c S) : NoWs c ∧ c ≠ [] := by
  obtain ⟨b, r, rfl, hb, _⟩ := codesText_head h
  refine ⟨noWs_cons.2 ?_, by simp⟩
  have h1 := codes_not hb (x := 0x20) (by simp)
  have h2 := codes_not hb (x := 0x09) (by simp)
  have h3 := codes_not hb (x := 0x0D) (by simp)
  have h4 := codes_not hb (x := 0x0A) (by simp)
  simp [isMultispace, h1, h2, h3, h4]

theorem bs_ALL : bs "ALL" = [0x41, 0x4C, 0x4C] := by decide +kernel
theorem bs_ANY : bs "ANY" = [0x41, 0x4E, 0x59] := by decide +kernel

/-- codes are not taken for a quantifier -/
theorem pQuantifier_none {c S} (h : CodesText c S) {r : Bytes}
    (hr : r.head? ≠ some 0x4C ∧ r.head? ≠ some 0x4E) : pQuantifier (c ++ r) = none := by
  obtain ⟨b, r', rfl, hb, hA⟩ := codesText_head h
  have key : ∀ d e : Byte, r.head? ≠ some d → lit [0x41, d, e] (b :: r' ++ r) = none := by
    intro d e hd
    by_cases hb' : b = 0x41
    · rw [hA hb', hb']
      cases r with
      | nil => rfl
      | cons x r =>
        have : x ≠ d := by simpa using hd
        simp [lit, this]
    · exact lit_none_of_head (by simp [hb'])
  unfold pQuantifier
  rw [alt_right, bs_ANY]
  · exact map_none (key _ _ hr.2)
  · rw [bs_ALL]; exact map_none (key _ _ hr.1)

theorem ws_run' {α : Type} {p : Parser α} {i a r} (h : p (dws i) = some (a, r)) :
    Pica.ws p i = some (a, dws r) :=
  delimited_run (multispace0_dws i) h (multispace0_dws r)

theorem ws_none' {α : Type} {p : Parser α} {i} (h : p (dws i) = none) : Pica.ws p i = none :=
  preceded_none' (multispace0_dws i) (terminated_none h)

theorem verify_none' {α : Type} {f : α → Bool} {p : Parser α} {i a r} (h : p i = some (a, r))
    (hf : f a = false) : verify f p i = none := by simp [verify, h, hf]

/-- codes through `ws` -/
theorem wsCodes_run {c S} (h : CodesText c S) :
    ∃ cs, (∀ r, Pica.ws pCodes (c ++ r) = some (cs, dws r)) ∧ (∀ r, pCodes (c ++ r) = some (cs, r)) ∧
      SetOf cs S := by
  obtain ⟨cs, h1, h2⟩ := pCodes_complete h
  obtain ⟨h3, h4⟩ := codesText_noWs h
  refine ⟨cs, fun r => ws_run' ?_, h1, h2⟩
  rw [dws_of_noWs (noWs_append h4 h3)]
  exact h1 r

theorem optQuant_none {c S} (h : CodesText c S) {r : Bytes}
    (hr : r.head? ≠ some 0x4C ∧ r.head? ≠ some 0x4E) :
    map Quantifier.orDefault (opt (Pica.ws (terminated pQuantifier multispace1))) (c ++ r) =
      some (.any, c ++ r) ∧
    map Quantifier.orDefault (opt (Pica.ws pQuantifier)) (c ++ r) = some (.any, c ++ r) := by
  obtain ⟨h3, h4⟩ := codesText_noWs h
  have e := dws_of_noWs (noWs_append (r := r) h4 h3)
  have h1 := pQuantifier_none h hr
  constructor
  · exact map_run (opt_none (ws_none' (by rw [e]; exact terminated_none h1)))
  · exact map_run (opt_none (ws_none' (by rw [e]; exact h1)))

theorem lit_none_of_second {a b c : Byte} {x r : Bytes} (h : c ≠ b) :
    lit (a :: b :: x) (a :: c :: r) = none := by
  simp [lit, h]

theorem bs_ops : bs "==" = [0x3D, 0x3D] ∧ bs "!=" = [0x21, 0x3D] ∧ bs "=^" = [0x3D, 0x5E] ∧
    bs "!^" = [0x21, 0x5E] ∧ bs "=$" = [0x3D, 0x24] ∧ bs "!$" = [0x21, 0x24] ∧
    bs "=*" = [0x3D, 0x2A] ∧ bs ">=" = [0x3E, 0x3D] ∧ bs ">" = [0x3E] ∧ bs "<=" = [0x3C, 0x3D] ∧
    bs "<" = [0x3C] ∧ bs "=?" = [0x3D, 0x3F] ∧ bs "in" = [0x69, 0x6E] ∧
    bs "not" = [0x6E, 0x6F, 0x74] ∧ bs "?" = [0x3F] := by decide +kernel

/-- the relational operators on strings are read -/
theorem pRelOp_run {op : RelOp} (h : StrOp op) (r : Bytes) :
    pRelOp (relSign op ++ r) = some (op, r) := by
  obtain ⟨e1, e2, e3, e4, e5, e6, e7, e8, e9, e10, e11, _⟩ := bs_ops
  unfold pRelOp
  cases op <;> simp only [relSign, e1, e2, e3, e4, e5, e6, e7, e8, e9, e10, e11] <;>
    first | rfl | (exfalso; revert h; simp [StrOp])

theorem relSign_head {op : RelOp} (h : StrOp op) (r : Bytes) :
    NoWs (relSign op ++ r) ∧ relSign op ≠ [] ∧
      ((relSign op).head? = some 0x3D ∨ (relSign op).head? = some 0x21) := by
  obtain ⟨e1, e2, e3, e4, e5, e6, e7, e8, e9, e10, e11, _⟩ := bs_ops
  cases op <;> simp only [relSign, e1, e2, e3, e4, e5, e6, e7, e8, e9, e10, e11] <;>
    first
      | (exfalso; revert h; simp [StrOp]; done)
      | exact ⟨noWs_cons.2 (by decide), by simp, by simp⟩

theorem pRelOp_none_qm (r : Bytes) : pRelOp (0x3F :: r) = none := by
  obtain ⟨e1, e2, e3, e4, e5, e6, e7, e8, e9, e10, e11, _⟩ := bs_ops
  unfold pRelOp
  simp only [e1, e2, e3, e4, e5, e6, e7, e8, e9, e10, e11]
  rfl

theorem head_ws {w r : Bytes} {x : Byte} (hw : Ws w) (hr : r.head? ≠ some x)
    (hx : isMultispace x = false) : (w ++ r).head? ≠ some x := by
  cases w with
  | nil => exact hr
  | cons b w =>
    have := (isMultispace_iff b).2 (hw b (by simp))
    intro e
    simp only [List.cons_append, List.head?_cons, Option.some.injEq] at e
    rw [e, hx] at this
    cases this

theorem dws_cons {b : Byte} (r : Bytes) (h : isMultispace b = false) : dws (b :: r) = b :: r :=
  dws_of_noWs (noWs_cons.2 h)

/-- existence of a subfield is read by the parser of simple matchers -/
theorem existsText_run (rx : Bytes → Bool) {E : Env} {o : Opts} {c S w} (hc : CodesText c S) (hw : Ws w) :
    ∃ m : SubSingle, m.eval E o = (fun sf => truth (∃ s ∈ sf, S s.code)) ∧
      ∀ rest, NoWs rest → ∃ r', pSubSingle rx (c ++ bs "?" ++ w ++ rest) = some (m, r') ∧ dws r' = rest := by
  obtain ⟨e1, e2, e3, e4, e5, e6, e7, e8, e9, e10, e11, e12, e13, e14, e15⟩ := bs_ops
  · rw [e15]
    obtain ⟨cs, h1, h2, h3⟩ := wsCodes_run hc
    refine ⟨.exists cs (c ++ [0x3F]), ?_, fun rest hr => ⟨w ++ rest, ?_, ?_⟩⟩
    · funext sf
      apply truth_of
      simp only [SetOf] at h3
      simp [h3]
    · have e : c ++ [0x3F] ++ w ++ rest = c ++ (0x3F :: (w ++ rest)) := by simp
      simp only [e]
      replace h1 := h1 (0x3F :: (w ++ rest))
      rw [dws_cons _ (by decide)] at h1
      obtain ⟨q1, q2⟩ := optQuant_none hc (r := 0x3F :: (w ++ rest)) ⟨by simp, by simp⟩
      unfold pSubSingle
      rw [alt_right, alt_right, alt_right]
      · refine alt_left (map_run (a := (cs, c ++ [0x3F]))
          (withTaken_run (terminated_run (h2 _) (byte_cons_self _ _)) (by simp)))
      · unfold pSubIn
        refine map_none (withTaken_none ?_)
        refine seq_none' q2 (seq_none' h1 (seq_none' (map_run (opt_none (ws_none' ?_)))
          (preceded_none (ws_none' ?_))))
        · rw [dws_cons _ (by decide), e14]; rfl
        · rw [dws_cons _ (by decide), e13]; rfl
      · unfold pSubContains
        refine map_none (withTaken_none ?_)
        refine seq_none' q2 (seq_none' h1 (seq_none (ws_none' ?_)))
        rw [dws_cons _ (by decide), e12]; rfl
      · unfold pSubRelation
        refine map_none (withTaken_none ?_)
        refine seq_none' q1 (seq_none' h1 (seq_none (verify_none (ws_none' ?_))))
        rw [dws_cons _ (by decide)]; exact pRelOp_none_qm _
    · rw [dws_append hw, dws_of_noWs hr]

theorem codeHead_noWs {b : Byte} (h : IsCode b ∨ b = 0x5B ∨ b = 0x2A) (r : Bytes) : NoWs (b :: r) := by
  have h1 := codes_not h (x := 0x20) (by simp)
  have h2 := codes_not h (x := 0x09) (by simp)
  have h3 := codes_not h (x := 0x0D) (by simp)
  have h4 := codes_not h (x := 0x0A) (by simp)
  exact noWs_cons.2 (by simp [isMultispace, h1, h2, h3, h4])

theorem wsByte_none {c : Byte} {i : Bytes} (h : NoWs i) (h' : i.head? ≠ some c) :
    Pica.ws (byte c) i = none := ws_none' (by rw [dws_of_noWs h]; exact byte_none_of_head h')

theorem pSubGroup_none {rx : Bytes → Bool} {k s} {i : Bytes} (h : NoWs i)
    (h' : i.head? ≠ some 0x28) : pSubGroup rx k s i = (none, s) := by
  cases k with
  | zero => simp [pSubGroup, TParser.fail]
  | succ k =>
    rw [pSubGroup]
    exact TParser.map_none (TParser.preceded_none (TParser.terminated_none
      (TParser.lift_none (wsByte_none h h'))))

theorem pSubNot_none {rx : Bytes → Bool} {k s} {i : Bytes} (h : NoWs i)
    (h' : i.head? ≠ some 0x21) : pSubNot rx k s i = (none, s) := by
  cases k with
  | zero => simp [pSubNot, TParser.fail]
  | succ k =>
    rw [pSubNot]
    exact TParser.map_none (TParser.preceded_none (TParser.lift_none (wsByte_none h h')))

theorem subSyn_runs : SynRuns subSyn where
  and_run := ⟨by rw [bs_and]; simp, fun r => ⟨r, lit_run _ _, rfl, Nat.le_refl _⟩⟩
  or_run := ⟨by rw [bs_or]; simp, fun r => ⟨r, lit_run _ _, rfl, Nat.le_refl _⟩⟩
  and_none := fun r h => by
    show lit (bs "&&") r = none
    rw [bs_and]
    refine lit_none_of_head ?_
    rcases h with (h | h) | h
    · exact stop_head h _ (by decide) (by decide)
    · rw [orSign_head h]; decide
    · rcases xorSign_head h with h | h <;> rw [h] <;> decide
  or_none := fun r h => by
    show lit (bs "||") r = none
    rw [bs_or]
    exact lit_none_of_head (stop_head h _ (by decide) (by decide))
  or_none' := fun r h => by
    show lit (bs "||") r = none
    rw [bs_or]
    refine lit_none_of_head ?_
    rcases xorSign_head h with h | h <;> rw [h] <;> decide

/-! ## Fields -/

theorem fieldSyn_runs : SynRuns fieldSyn where
  and_run := ⟨by rw [bs_and]; simp, fun r => ⟨dws r, ws_run' (by
    rw [dws_of_noWs (noWs_append (by rw [bs_and]; simp) (by rw [bs_and]; exact noWs_cons.2 (by decide)))]
    exact lit_run _ _), dws_dws r, dws_length r⟩⟩
  or_run := ⟨by rw [bs_or]; simp, fun r => ⟨dws r, ws_run' (by
    rw [dws_of_noWs (noWs_append (by rw [bs_or]; simp) (by rw [bs_or]; exact noWs_cons.2 (by decide)))]
    exact lit_run _ _), dws_dws r, dws_length r⟩⟩
  and_none := fun r h => ws_none' (by
    rw [dws_of_noWs (fAnd_noWs (.inl h))]; exact subSyn_runs.and_none r h)
  or_none := fun r h => ws_none' (by
    rw [dws_of_noWs (fAnd_noWs (.inl (.inl (.inl h))))]; exact subSyn_runs.or_none r h)
  or_none' := fun r h => ws_none' (by
    rw [dws_of_noWs (fAnd_noWs (.inl (.inr h)))]; exact subSyn_runs.or_none' r h)

theorem isTag_head {t : Bytes} (h : IsTag t) : ∃ b r, t = b :: r ∧ A0 b := by
  obtain ⟨a, b, c, d, rfl, ha, _⟩ := h
  exact ⟨a, _, rfl, ha⟩

theorem digitHead {b : Byte} (h : A0 b) : isMultispace b = false ∧ b ≠ 0x28 ∧ b ≠ 0x23 ∧ b ≠ 0x21 ∧
    b ≠ 0x41 := by
  rcases h with rfl | rfl | rfl <;> decide

theorem plainSel_iff (t : Bytes) (f : Field) :
    fieldSel (.tag t) .none f = true ↔ PlainSel t f := by
  rw [fieldSel_iff]
  unfold PlainSel
  simp only [TagMatcher.isMatch, beq_iff_eq, OccMatcher.isMatch]
  constructor
  · rintro ⟨h1, h2⟩
    refine ⟨h1.symm, ?_⟩
    cases h : f.occ with
    | none => simp
    | some x => rw [h] at h2; simp at h2; simp [h2]
  · rintro ⟨rfl, h⟩
    rcases h with h | h <;> simp [h]

theorem tagOcc_run {t : Bytes} (h : IsTag t) {r : Bytes} (hr : r.head? ≠ some 0x2F) :
    seq pTagMatcher pOccMatcher (t ++ r) = some ((.tag t, .none), r) := by
  refine seq_run (alt_left (map_run (pTag_eq_some.2 ⟨h, rfl⟩))) ?_
  unfold pOccMatcher
  rw [alt_right]
  exact preceded_none (byte_none_of_head hr)

theorem pFieldGroup_none {rx : Bytes → Bool} {k s} {i : Bytes} (h : NoWs i)
    (h' : i.head? ≠ some 0x28) : pFieldGroup rx k s i = (none, s) := by
  cases k with
  | zero => simp [pFieldGroup, TParser.fail]
  | succ k =>
    rw [pFieldGroup]
    exact TParser.map_none (TParser.preceded_none (TParser.terminated_none
      (TParser.lift_none (wsByte_none h h'))))

theorem pFieldNot_none {rx : Bytes → Bool} {k s} {i : Bytes} (h : NoWs i)
    (h' : i.head? ≠ some 0x21) : pFieldNot rx k s i = (none, s) := by
  cases k with
  | zero => simp [pFieldNot, TParser.fail]
  | succ k =>
    rw [pFieldNot]
    exact TParser.map_none (TParser.preceded_none (TParser.lift_none (wsByte_none h h')))

theorem pFieldCardM_none {rx : Bytes → Bool} {s} {i : Bytes} (h : NoWs i)
    (h' : i.head? ≠ some 0x23) : pFieldCardM rx s i = (none, s) :=
  TParser.map_none (TParser.map_none (TParser.withTaken_none
    (TParser.preceded_none (TParser.lift_none (wsByte_none h h')))))

/-! ## Sequences -/

section
variable {V X M : Type}

/-- the value of a sequence, with any values and operations -/
def AndSeq.valV (oa : V → V → V) (val : Operand X → V) (s : AndSeq X) : V := s.den oa val
def XorSeq.valV (oa ox : V → V → V) (val : Operand X → V) (s : XorSeq X) : V :=
  s.den ox (AndSeq.valV oa val)
def OrSeq.valV (oa ox oo : V → V → V) (val : Operand X → V) (s : OrSeq X) : V :=
  s.den oo (XorSeq.valV oa ox val)

variable {S : Syn M} {den : M → V} {s : Levels} {atoms : TParser M}
  {P : Operand X → Prop} {oa ox oo : V → V → V} {val : Operand X → V}

/-- the links of the tail of a sequence -/
theorem seq_links {A : Type} {txt : A → Bytes} {val : A → V} {op : V → V → V}
    {f : M → M → M} {sign : Bytes → Prop} {Q : Bytes → M → Prop} (hf : ∀ a b, den (f a b) = op (den a) (den b)) :
    ∀ (tl : List (Bytes × Bytes × A)), (∀ x ∈ tl, sign x.1 ∧ Ws x.2.1) →
      (∀ x ∈ tl, ∃ m, Q (txt x.2.2) m ∧ den m = val x.2.2) →
      ∃ ls : List (Link M), (tl ≠ [] → ls ≠ []) ∧ (∀ l ∈ ls, LinkOk sign Q l) ∧
        linksText ls = (tl.map (fun x => x.1 ++ (x.2.1 ++ txt x.2.2))).flatten ∧
        ∀ m d, den m = d → den (chainMat f m ls) = tl.foldl (fun d x => op d (val x.2.2)) d
  | [], _, _ => ⟨[], by simp, by simp, rfl, fun m d h => h⟩
  | x :: tl, hs, hq => by
    obtain ⟨ls, h1, h2, h3, h4⟩ := seq_links hf tl (fun y hy => hs y (by simp [hy]))
      (fun y hy => hq y (by simp [hy]))
    obtain ⟨m, hm, hd⟩ := hq x (by simp)
    obtain ⟨hx1, hx2⟩ := hs x (by simp)
    refine ⟨⟨x.1, x.2.1, txt x.2.2, m⟩ :: ls, by simp, ?_, ?_, ?_⟩
    · intro l hl
      rcases List.mem_cons.1 hl with rfl | hl
      · exact ⟨hx1, hx2, hm⟩
      · exact h2 l hl
    · simp [linksText, Link.text, h3]
    · intro m' d hd'
      have := h4 (f m' m) (op d (val x.2.2)) (by rw [hf, hd', hd])
      simpa [chainMat] using this

variable (hden : ∀ a b, den (S.band a b) = oa (den a) (den b))
  (hxor : ∀ a b, den (S.bxor a b) = ox (den a) (den b))
  (hor : ∀ a b, den (S.bor a b) = oo (den a) (den b))
  (hP : ∀ a, P a → ∃ m, Atom s atoms a.text m ∧ den m = val a)
include hden hP

theorem andSeq_conj (a : AndSeq X) (h : a.ok P) :
    ∃ m, den m = AndSeq.valV oa val a ∧ (a.many → Ands S s atoms a.txt m) ∧ (¬ a.many → Atom s atoms a.txt m) := by
  obtain ⟨hs, h0, ht⟩ := h
  obtain ⟨m, hm, hd⟩ := hP _ h0
  obtain ⟨ls, h1, h2, h3, h4⟩ := seq_links (txt := Operand.text) (val := val)
    (sign := AndSign) (Q := Atom s atoms) hden a.tail hs (fun x hx => hP _ (ht x hx))
  refine ⟨chainMat S.band m ls, h4 _ _ hd, fun hm' => ?_, fun hn => ?_⟩
  · have := Ands.mk (S := S) hm (h1 hm') h2
    rw [h3] at this
    exact this
  · have : a.tail = [] := Classical.not_not.1 hn
    have hls : ls = [] := by
      cases ls with
      | nil => rfl
      | cons l ls =>
        have hl := h2 l (by simp)
        rw [this] at h3
        simp only [linksText, Link.text, List.map_nil, List.flatten_nil, List.append_eq_nil_iff] at h3
        exact absurd h3.1.2.2 hl.body.ne
    subst hls
    have e : a.txt = a.head.text := by simp [AndSeq.txt, Seq.text, this]
    rw [e]; exact hm

theorem andSeq_conj' (a : AndSeq X) (h : a.ok P) : ∃ m, Conj S s atoms a.txt m ∧ den m = AndSeq.valV oa val a := by
  obtain ⟨m, h1, h2, h3⟩ := andSeq_conj hden hP a h
  by_cases hm : a.many
  · exact ⟨m, .inr (h2 hm), h1⟩
  · exact ⟨m, .inl (h3 hm), h1⟩

omit hden hP in
theorem first_split {A : Type} (Q : A → Prop) : ∀ l : List A, (∃ x ∈ l, Q x) →
    ∃ pre x post, l = pre ++ x :: post ∧ (∀ y ∈ pre, ¬ Q y) ∧ Q x
  | [], h => by simp at h
  | a :: l, h => by
    by_cases ha : Q a
    · exact ⟨[], a, l, rfl, by simp, ha⟩
    · obtain ⟨x, hx, hQ⟩ := h
      have : x ∈ l := by
        rcases List.mem_cons.1 hx with rfl | h
        · exact absurd hQ ha
        · exact h
      obtain ⟨pre, y, post, rfl, h1, h2⟩ := first_split Q l ⟨x, this, hQ⟩
      refine ⟨a :: pre, y, post, rfl, ?_, h2⟩
      intro z hz
      rcases List.mem_cons.1 hz with rfl | hz
      · exact ha
      · exact h1 z hz

omit hden hP in
theorem linksText_nil {sign : Bytes → Prop} {Q : Bytes → M → Prop} {ls : List (Link M)}
    (h : ∀ l ∈ ls, LinkOk sign Q l) (hne : ∀ sg, sign sg → sg ≠ []) (he : linksText ls = []) :
    ls = [] := by
  cases ls with
  | nil => rfl
  | cons l ls =>
    simp only [linksText, Link.text, List.append_eq_nil_iff] at he
    exact absurd he.1.1 (hne _ (h l (by simp)).sign)

omit hden hP in
theorem xorSign_ne (sg : Bytes) (h : XorSign sg) : sg ≠ [] := by
  rcases h with rfl | rfl
  · rw [bs_hat]; simp
  · rw [bs_xor]; simp

include hxor

theorem xorSeq_disj (a : XorSeq X) (h : a.ok P) :
    ∃ m, den m = XorSeq.valV oa ox val a ∧
      (a.mixed → Xors S s atoms (Ands S s atoms) a.txt m) ∧
      (¬ a.mixed → Disj S s atoms a.txt m) ∧
      (a.many → Xors S s atoms (Conj S s atoms) a.txt m) ∧
      (¬ a.many → a.txt = a.head.txt ∧ XorSeq.valV oa ox val a = AndSeq.valV oa val a.head) := by
  obtain ⟨hs, h0, ht⟩ := h
  obtain ⟨m, hm, hm1, hm2⟩ := andSeq_conj hden hP _ h0
  obtain ⟨ls, h1, h2, h3, h4⟩ := seq_links (txt := AndSeq.txt) (val := AndSeq.valV oa val)
    (sign := XorSign) (Q := Conj S s atoms) hxor a.tail hs
    (fun x hx => andSeq_conj' hden hP _ (ht x hx))
  have hc : Conj S s atoms a.head.txt m := by
    by_cases hm : a.head.many
    · exact .inr (hm1 hm)
    · exact .inl (hm2 hm)
  have etxt : a.head.txt ++ linksText ls = a.txt := by rw [h3]; rfl
  have nomany : ¬ a.many → ls = [] ∧ a.txt = a.head.txt ∧ XorSeq.valV oa ox val a = AndSeq.valV oa val a.head := by
    intro hn
    have hn' : a.tail = [] := Classical.not_not.1 hn
    refine ⟨linksText_nil h2 xorSign_ne (by rw [h3, hn']; rfl), ?_, ?_⟩
    · simp [XorSeq.txt, Seq.text, hn']
    · simp [XorSeq.valV, Seq.den, hn']
  refine ⟨chainMat S.bxor m ls, h4 _ _ hm, ?_, ?_, ?_, ?_⟩
  · rintro ⟨g1, g2⟩
    rw [← etxt]
    exact .mk (hm1 g2) (h1 g1) h2
  · intro hn
    by_cases g1 : a.many
    · by_cases g2 : a.head.many
      · exact absurd ⟨g1, g2⟩ hn
      · right
        rw [← etxt]
        exact .mk (hm2 g2) (h1 g1) h2
    · obtain ⟨rfl, e1, -⟩ := nomany g1
      rw [e1]
      exact .inl hc
  · intro g1
    rw [← etxt]
    exact .mk hc (h1 g1) h2
  · exact fun g => (nomany g).2

include hor

/-- **running a sequence**: all that the parser accepts and rejects -/
theorem orSeq_compositeV (hS : SynRuns S) (a : OrSeq X) (h : a.ok P) :
    (a.many → a.all (fun x => ¬ x.mixed) → ∃ m, den m = OrSeq.valV oa ox oo val a ∧ ∀ rest, Stop rest →
      composite S atoms s (a.txt ++ rest) = (some (m, rest), s)) ∧
    (¬ a.many → a.head.many ∨ a.head.head.many → ∃ m, den m = OrSeq.valV oa ox oo val a ∧ ∀ rest, Stop rest →
      composite S atoms s (a.txt ++ rest) = (some (m, rest), s)) ∧
    (¬ a.many → ¬ a.head.many → ¬ a.head.head.many → ∀ rest, Stop rest →
      composite S atoms s (a.txt ++ rest) = (none, s)) ∧
    (a.many → ¬ a.all (fun x => ¬ x.mixed) → ∀ rest, Stop rest → ∃ m b r', NoWs (b :: r') ∧
      composite S atoms s (a.txt ++ rest) = (some (m, b :: r'), s)) := by
  obtain ⟨hs, h0, ht⟩ := h
  obtain ⟨m0, d0, x1, x2, x3, x4⟩ := xorSeq_disj hden hxor hP _ h0
  have nomany : ¬ a.many → a.txt = a.head.txt ∧ OrSeq.valV oa ox oo val a = XorSeq.valV oa ox val a.head := by
    intro hn
    have hn' : a.tail = [] := Classical.not_not.1 hn
    simp [OrSeq.txt, OrSeq.valV, Seq.text, Seq.den, hn']
  refine ⟨?_, ?_, ?_, ?_⟩
  · intro hm hall
    obtain ⟨ls, h1, h2, h3, h4⟩ := seq_links (txt := XorSeq.txt) (val := XorSeq.valV oa ox val)
      (sign := OrSign) (Q := Disj S s atoms) hor a.tail hs (fun x hx => by
        obtain ⟨m, g1, _, g2, _⟩ := xorSeq_disj hden hxor hP _ (ht x hx)
        exact ⟨m, g2 (hall.2 x hx), g1⟩)
    refine ⟨chainMat S.bor m0 ls, h4 _ _ d0, fun rest hr => ?_⟩
    have := composite_ors hS (Ors.mk (x2 hall.1) (h1 hm) h2) hr
    rw [h3] at this
    exact this
  · intro hn hm
    obtain ⟨e1, e2⟩ := nomany hn
    by_cases hx : a.head.many
    · exact ⟨m0, by rw [d0, e2], fun rest hr => by rw [e1]; exact composite_xors hS (x3 hx) hr⟩
    · obtain ⟨e3, e4⟩ := x4 hx
      obtain ⟨m, d, c1, -⟩ := andSeq_conj (S := S) hden hP _ h0.2.1
      refine ⟨m, by rw [d, e2, e4], fun rest hr => ?_⟩
      rw [e1, e3]
      exact composite_ands hS (c1 (hm.resolve_left hx)) hr
  · intro hn hx ha rest hr
    obtain ⟨e1, e2⟩ := nomany hn
    obtain ⟨e3, e4⟩ := x4 hx
    obtain ⟨m, d, -, c2⟩ := andSeq_conj (S := S) hden hP _ h0.2.1
    rw [e1, e3]
    exact composite_atom hS (c2 ha) hr
  · intro hm hall rest hr
    by_cases hx0 : a.head.mixed
    · obtain ⟨y, tl, hy⟩ := List.exists_cons_of_ne_nil hm
      obtain ⟨g1, g2⟩ := hs y (by simp [hy])
      have e : a.txt ++ rest = a.head.txt ++ (bs "||" ++ (y.2.1 ++ (y.2.2.txt ++
          ((tl.map (fun x => x.1 ++ (x.2.1 ++ x.2.2.txt))).flatten ++ rest)))) := by
        simp [OrSeq.txt, Seq.text, hy, ← g1]
      rw [e]
      have := composite_reject_first hS (x1 hx0) (rest := bs "||" ++ (y.2.1 ++ (y.2.2.txt ++
          ((tl.map (fun x => x.1 ++ (x.2.1 ++ x.2.2.txt))).flatten ++ rest)))) ⟨_, _, rfl, rfl⟩
      rw [this]
      generalize y.2.1 ++ (y.2.2.txt ++
          ((tl.map (fun x => x.1 ++ (x.2.1 ++ x.2.2.txt))).flatten ++ rest)) = z
      rw [bs_or]
      exact ⟨m0, 0x7C, 0x7C :: z, noWs_cons.2 (by decide), rfl⟩
    · have : ∃ x ∈ a.tail, x.2.2.mixed := by
        refine Classical.not_not.1 fun hno => hall ⟨hx0, fun x hx hmx => hno ⟨x, hx, hmx⟩⟩
      obtain ⟨pre, y, post, hsplit, hpre, hy⟩ := first_split (fun x => x.2.2.mixed) a.tail this
      obtain ⟨ls, h1, h2, h3, h4⟩ := seq_links (txt := XorSeq.txt) (val := XorSeq.valV oa ox val)
        (sign := OrSign) (Q := Disj S s atoms) hor pre (fun x hx => hs x (by simp [hsplit, hx]))
        (fun x hx => by
          obtain ⟨m, g1, _, g2, _⟩ := xorSeq_disj hden hxor hP _ (ht x (by simp [hsplit, hx]))
          exact ⟨m, g2 (hpre x hx), g1⟩)
      obtain ⟨g1, g2⟩ := hs y (by simp [hsplit])
      obtain ⟨k1, k2, k3⟩ := ht y (by simp [hsplit])
      obtain ⟨mc, dc, c1, -⟩ := andSeq_conj (S := S) hden hP _ k2
      obtain ⟨xs, y1, y2, y3, y4⟩ := seq_links (txt := AndSeq.txt) (val := AndSeq.valV oa val)
        (sign := XorSign) (Q := Conj S s atoms) hxor y.2.2.tail k1
        (fun x hx => andSeq_conj' hden hP _ (k3 x hx))
      have hl : LinkOk OrSign (Ands S s atoms) ⟨y.1, y.2.1, y.2.2.head.txt, mc⟩ :=
        ⟨g1, g2, c1 hy.2⟩
      obtain ⟨z, hz⟩ := composite_reject_later hS (rest := (post.map (fun x => x.1 ++ (x.2.1 ++
        x.2.2.txt))).flatten ++ rest) (x2 hx0) h2 hl (y1 hy.1) y2
      have e : a.txt ++ rest = a.head.txt ++ (linksText ls ++
          ((⟨y.1, y.2.1, y.2.2.head.txt, mc⟩ : Link M).text ++ (linksText xs ++
            ((post.map (fun x => x.1 ++ (x.2.1 ++ x.2.2.txt))).flatten ++ rest)))) := by
        rw [h3, y3]
        simp [OrSeq.txt, Seq.text, hsplit, Link.text, XorSeq.txt]
      rw [e, hz]
      have hf := xors_follow (y1 hy.1) y2 ((post.map (fun x => x.1 ++ (x.2.1 ++
        x.2.2.txt))).flatten ++ rest)
      have hnw := fAnd_noWs (.inl (.inr hf))
      have hh := xorSign_head hf
      revert hnw hh
      generalize linksText xs ++ _ = q
      intro hnw hh
      cases q with
      | nil => simp at hh
      | cons b r' => exact ⟨z, b, r', hnw, rfl⟩

end

/-- with the meanings as values -/
theorem orSeq_composite {X M : Type} {S : Syn M} {den : M → Den X} {s : Levels} {atoms : TParser M}
    {P : Operand X → Prop} (hden : ∀ a b, den (S.band a b) = dAnd (den a) (den b))
    (hxor : ∀ a b, den (S.bxor a b) = dXor (den a) (den b))
    (hor : ∀ a b, den (S.bor a b) = dOr (den a) (den b))
    (hP : ∀ a, P a → ∃ m, Atom s atoms a.text m ∧ den m = a.den)
    (hS : SynRuns S) (a : OrSeq X) (h : a.ok P) :
    (a.many → a.all (fun x => ¬ x.mixed) → ∃ m, den m = a.val ∧ ∀ rest, Stop rest →
      composite S atoms s (a.txt ++ rest) = (some (m, rest), s)) ∧
    (¬ a.many → a.head.many ∨ a.head.head.many → ∃ m, den m = a.val ∧ ∀ rest, Stop rest →
      composite S atoms s (a.txt ++ rest) = (some (m, rest), s)) ∧
    (¬ a.many → ¬ a.head.many → ¬ a.head.head.many → ∀ rest, Stop rest →
      composite S atoms s (a.txt ++ rest) = (none, s)) ∧
    (a.many → ¬ a.all (fun x => ¬ x.mixed) → ∀ rest, Stop rest → ∃ m b r', NoWs (b :: r') ∧
      composite S atoms s (a.txt ++ rest) = (some (m, b :: r'), s)) :=
  orSeq_compositeV (val := Operand.den) hden hxor hor hP hS a h

/-- with the matchers themselves as values -/
theorem orSeq_mat {X M : Type} {S : Syn M} {s : Levels} {atoms : TParser M}
    {P : Operand X → Prop} {f : Operand X → M} (hP : ∀ a, P a → Atom s atoms a.text (f a))
    (hS : SynRuns S) (a : OrSeq X) (h : a.ok P) (hp : a.plain) (rest : Bytes) (hr : Stop rest) :
    (a.long ∧ composite S atoms s (a.txt ++ rest) =
      (some (OrSeq.valV S.band S.bxor S.bor f a, rest), s)) ∨
    (¬ a.long ∧ composite S atoms s (a.txt ++ rest) = (none, s)) := by
  obtain ⟨h1, h2, h3, -⟩ := orSeq_compositeV (S := S) (den := fun m : M => m) (val := f)
    (oa := S.band) (ox := S.bxor) (oo := S.bor) (fun _ _ => rfl) (fun _ _ => rfl) (fun _ _ => rfl)
    (fun a ha => ⟨f a, hP a ha, rfl⟩) hS a h
  by_cases hm : a.many
  · obtain ⟨m, rfl, hc⟩ := h1 hm (hp hm)
    exact .inl ⟨.inl hm, hc rest hr⟩
  · by_cases hl : a.head.many ∨ a.head.head.many
    · obtain ⟨m, rfl, hc⟩ := h2 hm hl
      exact .inl ⟨.inr hl, hc rest hr⟩
    · exact .inr ⟨fun h => h.elim hm hl, h3 hm (fun h => hl (.inl h)) (fun h => hl (.inr h)) rest hr⟩

/-- a sequence that is not long is one operand -/
theorem not_long {X : Type} {a : OrSeq X} (h : ¬ a.long) : a.txt = a.head.head.head.text ∧
    (∀ {V : Type} (oa ox oo : V → V → V) (val : Operand X → V),
      OrSeq.valV oa ox oo val a = val a.head.head.head) := by
  have hz : a.tail = [] := Classical.not_not.1 fun h' => h (.inl h')
  have hx : a.head.tail = [] := Classical.not_not.1 fun h' => h (.inr (.inl h'))
  have hy : a.head.head.tail = [] := Classical.not_not.1 fun h' => h (.inr (.inr h'))
  refine ⟨by simp [OrSeq.txt, XorSeq.txt, AndSeq.txt, Seq.text, hx, hy, hz], fun oa ox oo val => ?_⟩
  simp [OrSeq.valV, XorSeq.valV, AndSeq.valV, Seq.den, hx, hy, hz]

theorem Seq.den_hom {V W A : Type} {op : V → V → V} {op' : W → W → W} {f : A → V} {g : A → W} (k : V → W)
    (hk : ∀ a b, k (op a b) = op' (k a) (k b)) {s : Seq A} (h : s.all (fun x => k (f x) = g x)) :
    k (s.den op f) = s.den op' g := by
  obtain ⟨h1, h2⟩ := h
  unfold Seq.den
  revert h1 h2
  generalize s.tail = tl
  generalize f s.head = x
  generalize g s.head = y
  intro h1 h2
  induction tl generalizing x y with
  | nil => exact h1
  | cons z tl ih =>
    simp only [List.foldl_cons]
    exact ih (op x (f z.2.2)) (op' y (g z.2.2)) (by rw [hk, h1, h2 z (by simp)]) (fun w hw => h2 w (by simp [hw]))

/-- the meaning of the matcher of a sequence -/
theorem OrSeq.valV_hom {X M : Type} {S : Syn M} {den : M → Den X} {P : Operand X → Prop}
    (hden : ∀ a b, den (S.band a b) = dAnd (den a) (den b))
    (hxor : ∀ a b, den (S.bxor a b) = dXor (den a) (den b))
    (hor : ∀ a b, den (S.bor a b) = dOr (den a) (den b)) {f : Operand X → M}
    (hf : ∀ a, P a → den (f a) = a.den) {a : OrSeq X} (h : OrSeq.ok P a) :
    den (OrSeq.valV S.band S.bxor S.bor f a) = OrSeq.val a := by
  have hand : ∀ b : AndSeq X, AndSeq.ok P b → den (AndSeq.valV S.band f b) = AndSeq.val b := fun b hb =>
    Seq.den_hom den hden ⟨hf _ hb.2.1, fun x hx => hf _ (hb.2.2 x hx)⟩
  have hxo : ∀ b : XorSeq X, XorSeq.ok P b → den (XorSeq.valV S.band S.bxor f b) = XorSeq.val b := fun b hb =>
    Seq.den_hom den hxor ⟨hand _ hb.2.1, fun x hx => hand _ (hb.2.2 x hx)⟩
  exact Seq.den_hom den hor ⟨hxo _ h.2.1, fun x hx => hxo _ (h.2.2 x hx)⟩

end Pica
