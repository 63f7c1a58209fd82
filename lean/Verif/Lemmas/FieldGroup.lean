import Verif.Lemmas.FieldRun

/-! Field operands, sequences of them, parentheses and negation. -/

namespace Pica
open Spec Parser

/-- how an operand is read -/
inductive FldRun (rx : Bytes → Bool) (s : Levels) (k : Nat) (t : Bytes) (m : FieldMatcher) : Prop
  | single : NoWs t → t ≠ [] → t.head? ≠ some 0x28 → t.head? ≠ some 0x23 → t.head? ≠ some 0x21 →
      (∀ rest, Follow rest → ∃ r', pFieldSingleM rx s (t ++ rest) = (some (m, r'), s) ∧ dws r' = rest) →
      FldRun rx s k t m
  | card {r} : t = 0x23 :: r →
      (∀ rest, Follow rest → ∃ r', pFieldCardM rx s (t ++ rest) = (some (m, r'), s) ∧ dws r' = rest) →
      FldRun rx s k t m
  | group {r} : t = 0x28 :: r →
      (∀ rest, Follow rest → ∃ r', pFieldGroup rx k s (t ++ rest) = (some (m, r'), s) ∧ dws r' = rest) →
      FldRun rx s k t m
  | not {r} : t = 0x21 :: r →
      (∀ rest, Follow rest → ∃ r', pFieldNot rx k s (t ++ rest) = (some (m, r'), s) ∧ dws r' = rest) →
      FldRun rx s k t m

/-- `(`, `!` and `#` -/
def Lead (b : Byte) : Prop := b = 0x28 ∨ b = 0x21 ∨ b = 0x23

theorem Lead.noWs {b : Byte} (h : Lead b) : isMultispace b = false := by
  rcases h with rfl | rfl | rfl <;> decide

theorem pTagMatcher_none {b : Byte} (r : Bytes) (h : Lead b) : pTagMatcher (b :: r) = none := by
  rcases h with rfl | rfl | rfl <;> rfl

theorem pFieldHead_none {b : Byte} (r : Bytes) (h : Lead b) : pFieldHead (b :: r) = none := by
  have hq : pQuantifier (b :: r) = none := by
    refine pQuantifier_noA ?_
    rcases h with rfl | rfl | rfl <;> simp
  unfold pFieldHead
  exact seq_none' (a := .any) (map_run (a := none) (opt_none (ws_none' (by rw [dws_cons _ h.noWs]; exact hq))))
    (seq_none (pTagMatcher_none r h))

theorem pFieldExists_lead {b : Byte} (r : Bytes) (h : Lead b) : pFieldExists (b :: r) = none :=
  map_none (terminated_none (ws_none' (by rw [dws_cons _ h.noWs]; exact seq_none (pTagMatcher_none r h))))

theorem pSubfieldsBracket_lead {rx : Bytes → Bool} {s : Levels} {b : Byte} (r : Bytes) (h : Lead b) :
    pSubfieldsBracket rx s (b :: r) = (none, s) :=
  TParser.map_none (TParser.withTaken_none (TParser.seq_none (TParser.lift_none (pFieldHead_none r h))))

theorem pFieldSingleM_none {rx : Bytes → Bool} {s : Levels} {b : Byte} (r : Bytes)
    (h : Lead b) : pFieldSingleM rx s (b :: r) = (none, s) := by
  refine TParser.map_none ?_
  unfold pFieldSingle
  rw [TParser.alt_right, TParser.alt_right]
  · exact pSubfieldsBracket_lead r h
  · exact TParser.lift_none (map_none (withTaken_none (seq_none (pFieldHead_none r h))))
  · exact TParser.lift_none (pFieldExists_lead r h)

theorem pFieldExistsM_lead {b : Byte} (r : Bytes) (h : Lead b) : pFieldExistsM (b :: r) = none := by
  unfold pFieldExistsM
  rw [alt_right (map_none (pFieldExists_lead r h))]
  have hq : pQuantifier (b :: r) = none := by
    refine pQuantifier_noA ?_
    rcases h with rfl | rfl | rfl <;> simp
  exact map_none (withTaken_none (seq_none' (a := .any) (map_run (a := none) (opt_none hq)) (seq_none (pTagMatcher_none r h))))

section
variable {rx : Bytes → Bool} {s : Levels} {k : Nat} {t : Bytes} {m : FieldMatcher}

theorem head_append {t : Bytes} {b : Byte} (h : t ≠ []) (h' : t.head? ≠ some b) (r : Bytes) :
    (t ++ r).head? ≠ some b := by
  cases t with
  | nil => exact absurd rfl h
  | cons c t => simpa using h'

theorem FldRun.noWs (h : FldRun rx s k t m) : NoWs t ∧ t ≠ [] := by
  rcases h with ⟨h1, h2, _, _, _, _⟩ | ⟨rfl, _⟩ | ⟨rfl, _⟩ | ⟨rfl, _⟩
  · exact ⟨h1, h2⟩
  · exact ⟨noWs_cons.2 (by decide), by simp⟩
  · exact ⟨noWs_cons.2 (by decide), by simp⟩
  · exact ⟨noWs_cons.2 (by decide), by simp⟩

theorem FldRun.atom (h : FldRun rx s k t m) :
    Atom s (fieldAtoms rx (pFieldGroup rx k) (pFieldNot rx k)) t m := by
  refine ⟨fun rest hr => ?_, h.noWs.1, h.noWs.2⟩
  have hrn := fAnd_follow hr
  have hnw : NoWs (t ++ rest) := noWs_append h.noWs.2 h.noWs.1
  unfold fieldAtoms
  rcases h with ⟨_, h2, h3, h4, h5, h⟩ | ⟨rfl, h⟩ | ⟨rfl, h⟩ | ⟨rfl, h⟩
  · obtain ⟨r', g1, g2⟩ := h rest hrn
    refine ⟨r', ?_, g2⟩
    rw [TParser.alt_right (pFieldGroup_none hnw (head_append h2 h3 _)),
      TParser.alt_right (pFieldCardM_none hnw (head_append h2 h4 _))]
    exact TParser.alt_left g1
  · obtain ⟨r', g1, g2⟩ := h rest hrn
    refine ⟨r', ?_, g2⟩
    rw [TParser.alt_right (pFieldGroup_none hnw (by simp))]
    exact TParser.alt_left g1
  · obtain ⟨r', g1, g2⟩ := h rest hrn
    exact ⟨r', TParser.alt_left g1, g2⟩
  · obtain ⟨r', g1, g2⟩ := h rest hrn
    refine ⟨r', ?_, g2⟩
    rw [TParser.alt_right (pFieldGroup_none hnw (by simp)),
      TParser.alt_right (pFieldCardM_none hnw (by simp)), List.cons_append,
      TParser.alt_right (pFieldSingleM_none _ (.inr (.inl rfl))), ← List.cons_append]
    exact TParser.alt_left g1

/-- alone in parentheses -/
theorem FldRun.inner (h : FldRun rx s k t m) {rest : Bytes} (hrn : Follow rest) : ∃ r', dws r' = rest ∧
    TParser.alt (pFieldSingleM rx) (TParser.alt (pFieldNot rx k)
      (TParser.alt (pFieldCardM rx) (pFieldGroup rx k))) s (t ++ rest) = (some (m, r'), s) := by
  have hnw : NoWs (t ++ rest) := noWs_append h.noWs.2 h.noWs.1
  rcases h with ⟨_, h2, h3, h4, h5, h⟩ | ⟨rfl, h⟩ | ⟨rfl, h⟩ | ⟨rfl, h⟩
  · obtain ⟨r', g1, g2⟩ := h rest hrn
    exact ⟨r', g2, TParser.alt_left g1⟩
  · obtain ⟨r', g1, g2⟩ := h rest hrn
    refine ⟨r', g2, ?_⟩
    rw [List.cons_append, TParser.alt_right (pFieldSingleM_none _ (.inr (.inr rfl))), ← List.cons_append,
      TParser.alt_right (pFieldNot_none hnw (by simp))]
    exact TParser.alt_left g1
  · obtain ⟨r', g1, g2⟩ := h rest hrn
    refine ⟨r', g2, ?_⟩
    rw [List.cons_append, TParser.alt_right (pFieldSingleM_none _ (.inl rfl)), ← List.cons_append,
      TParser.alt_right (pFieldNot_none hnw (by simp)),
      TParser.alt_right (pFieldCardM_none hnw (by simp))]
    exact g1
  · obtain ⟨r', g1, g2⟩ := h rest hrn
    refine ⟨r', g2, ?_⟩
    rw [List.cons_append, TParser.alt_right (pFieldSingleM_none _ (.inr (.inl rfl))), ← List.cons_append]
    exact TParser.alt_left g1

/-- alone at the top -/
theorem FldRun.top (h : FldRun rx s k t m) {rest : Bytes} (hrn : Follow rest) : ∃ r', dws r' = rest ∧
    TParser.alt (pFieldGroup rx k) (TParser.alt (pFieldNot rx k)
      (TParser.alt (pFieldSingleM rx) (pFieldCardM rx))) s (t ++ rest) = (some (m, r'), s) := by
  have hnw : NoWs (t ++ rest) := noWs_append h.noWs.2 h.noWs.1
  rcases h with ⟨_, h2, h3, h4, h5, h⟩ | ⟨rfl, h⟩ | ⟨rfl, h⟩ | ⟨rfl, h⟩
  · obtain ⟨r', g1, g2⟩ := h rest hrn
    refine ⟨r', g2, ?_⟩
    rw [TParser.alt_right (pFieldGroup_none hnw (head_append h2 h3 _)),
      TParser.alt_right (pFieldNot_none hnw (head_append h2 h5 _))]
    exact TParser.alt_left g1
  · obtain ⟨r', g1, g2⟩ := h rest hrn
    refine ⟨r', g2, ?_⟩
    rw [TParser.alt_right (pFieldGroup_none hnw (by simp)), TParser.alt_right (pFieldNot_none hnw (by simp)),
      List.cons_append, TParser.alt_right (pFieldSingleM_none _ (.inr (.inr rfl))), ← List.cons_append]
    exact g1
  · obtain ⟨r', g1, g2⟩ := h rest hrn
    exact ⟨r', g2, TParser.alt_left g1⟩
  · obtain ⟨r', g1, g2⟩ := h rest hrn
    refine ⟨r', g2, ?_⟩
    rw [TParser.alt_right (pFieldGroup_none hnw (by simp))]
    exact TParser.alt_left g1

end

/-! ## Negation -/

/-- what may follow a `!` -/
def fldNotTail (rx : Bytes → Bool) (k : Nat) : TParser FieldMatcher :=
  TParser.alt (pFieldGroup rx k) (TParser.alt (TParser.map FieldMatcher.single (pSubfieldsBracket rx))
    (TParser.alt (TParser.lift pFieldExistsM) (pFieldNot rx k)))

def fldNots : Nat → FieldMatcher → FieldMatcher
  | 0, m => m
  | n + 1, m => .not (fldNots n m)

theorem fldNots_eval (E : Env) (o : Opts) (n : Nat) (m : FieldMatcher) :
    (fldNots n m).eval E o = dNots n (m.eval E o) := by
  induction n with
  | zero => rfl
  | succ n ih => rw [fldNots, FieldMatcher.eval_not, ih]; rfl

theorem fldBangs_run {rx : Bytes → Bool} {s : Levels} {K : Nat} {X rest : Bytes} {m : FieldMatcher}
    (hX : NoWs (X ++ rest))
    (h : ∃ r', fldNotTail rx K s (X ++ rest) = (some (m, r'), s) ∧ dws r' = rest) :
    ∀ {n b}, Bangs (n + 1) b → ∀ k, k = K + n + 1 →
      ∃ r', pFieldNot rx k s (b ++ X ++ rest) = (some (fldNots (n + 1) m, r'), s) ∧ dws r' = rest
  | 0, b, hb, k, hk => by
    rcases hb with _ | ⟨hw1, hb⟩
    cases hb
    subst hk
    obtain ⟨r', h1, h2⟩ := h
    refine ⟨r', ?_, h2⟩
    rw [show K + 0 + 1 = K + 1 by omega, pFieldNot, List.append_nil, List.append_assoc]
    exact TParser.map_run (TParser.preceded_run (TParser.lift_run (wsBang_run hw1 hX)) h1)
  | n + 1, b, hb, k, hk => by
    rcases hb with _ | ⟨hw1, hb⟩
    rename_i w1 b
    subst hk
    obtain ⟨r', h1, h2⟩ := fldBangs_run hX h hb (K + n + 1) rfl
    refine ⟨r', ?_, h2⟩
    obtain ⟨b', rfl⟩ := bangs_head hb
    have hn : NoWs (0x21 :: b' ++ X ++ rest) := noWs_cons.2 (by decide)
    have e : bs "!" ++ w1 ++ (0x21 :: b') ++ X ++ rest = bs "!" ++ w1 ++ (0x21 :: b' ++ X ++ rest) := by simp
    rw [show K + (n + 1) + 1 = (K + n + 1) + 1 by omega, pFieldNot, e]
    refine TParser.map_run (TParser.preceded_run (TParser.lift_run (wsBang_run hw1 hn)) ?_)
    have e2 : 0x21 :: b' ++ X ++ rest = 0x21 :: (b' ++ X ++ rest) := rfl
    rw [TParser.alt_right (pFieldGroup_none hn (by simp)), e2,
      TParser.alt_right (TParser.map_none (pSubfieldsBracket_lead _ (.inr (.inl rfl)))),
      TParser.alt_right (TParser.lift_none (pFieldExistsM_lead _ (.inr (.inl rfl)))), ← e2, h1]

/-- quantifiers without white space -/
theorem plainQuant {tq q} (h : tq = [] ∧ q = .any ∨ tq = bs "ANY" ∧ q = .any ∨ tq = bs "ALL" ∧ q = .all) :
    QuantText false tq q ∧ Unled tq ∧ ∀ r : Bytes, r.head? ≠ some 0x41 →
      map Quantifier.orDefault (opt pQuantifier) (tq ++ r) = some (q, r) := by
  rcases h with ⟨rfl, rfl⟩ | ⟨rfl, rfl⟩ | ⟨rfl, rfl⟩
  · exact ⟨.none, by intro b hb; simp at hb, fun r hr => map_run (a := none) (opt_none (pQuantifier_noA hr))⟩
  · refine ⟨?_, ?_, fun r hr => map_run (a := some Quantifier.any) (opt_run (pQuantifier_any r))⟩
    · have := QuantText.any (sp := false) (w := []) (w' := []) (by simp [Ws]) (by simp [Ws]) (by simp)
      simpa using this
    · rw [bs_ANY]; intro b hb; simp at hb; subst hb; simp [IsWs]
  · refine ⟨?_, ?_, fun r hr => map_run (a := some Quantifier.all) (opt_run (pQuantifier_all r))⟩
    · have := QuantText.all (sp := false) (w := []) (w' := []) (by simp [Ws]) (by simp [Ws]) (by simp)
      simpa using this
    · rw [bs_ALL]; intro b hb; simp at hb; subst hb; simp [IsWs]

/-- **field operands** are read -/
theorem fieldOperand_run (rx : Bytes → Bool) {E : Env} {o : Opts} {br : Bool} {a : Operand (List Field)}
    (h : FieldOperand rx E o br a) : ∃ m : FieldMatcher, m.eval E o = a.den ∧ ∀ s k,
      (br = true → s.sub = 0) → a.text.length ≤ k → FldRun rx s k a.text m := by
  have u0 : Unled [] := by intro b hb; simp at hb
  cases h with
  | @«exists» t to sel w w' ht hw hw' =>
    obtain ⟨m, hm, hrun⟩ := fieldExists_run (w' := w') ht hw E o
    obtain ⟨n1, n2, n3, n4, n5⟩ := fieldHead_noWs .none u0 ht (to ++ (w ++ (bs "?" ++ w')))
    have e : t ++ to ++ w ++ bs "?" ++ w' = [] ++ (t ++ (to ++ (w ++ (bs "?" ++ w')))) := by simp
    refine ⟨.single m, (FieldMatcher.eval_single E o m).trans hm, fun s k _ _ => .single (by rw [e]; exact n1)
      (by rw [e]; exact n2) (by rw [e]; exact n3) (by rw [e]; exact n4) (by rw [e]; exact n5)
      fun rest hr => ⟨w' ++ rest, ?_, dws_append_noWs hw' hr.1⟩⟩
    exact TParser.map_run (TParser.alt_left (TParser.lift_run (hrun rest)))
  | @dot tq q t to sel ts v w hq hu ht hs hw =>
    obtain ⟨m, hm, hrun⟩ := subfieldsDot_run rx hq ht hs hw
    obtain ⟨n1, n2, n3, n4, n5⟩ := fieldHead_noWs hq hu ht (to ++ (bs "." ++ (ts ++ w)))
    have e : tq ++ t ++ to ++ bs "." ++ ts ++ w = tq ++ (t ++ (to ++ (bs "." ++ (ts ++ w)))) := by simp
    refine ⟨.single m, (FieldMatcher.eval_single E o m).trans hm, fun s k _ _ => .single (by rw [e]; exact n1)
      (by rw [e]; exact n2) (by rw [e]; exact n3) (by rw [e]; exact n4) (by rw [e]; exact n5) fun rest hr => ?_⟩
    obtain ⟨r', g1, g2⟩ := hrun rest hr
    refine ⟨r', TParser.map_run ?_, g2⟩
    unfold pFieldSingle
    rw [TParser.alt_right]
    · exact TParser.alt_left (TParser.lift_run g1)
    · refine TParser.lift_none ?_
      have e' : tq ++ t ++ to ++ bs "." ++ ts ++ w ++ rest =
          tq ++ (t ++ (to ++ (0x2E :: (ts ++ (w ++ rest))))) := by rw [← bs_dot]; simp
      simp only
      rw [e']
      exact pFieldExists_none hq hu ht (OccStop.cons (by decide)) (by rw [dws_cons _ (by decide)]; simp)
  | @braces tq q t to sel tl ts v w hb hq hu ht hl hs hw =>
    obtain ⟨m, hm, hrun⟩ := subfieldsBracket_run rx hq ht hl hs hw
    obtain ⟨n1, n2, n3, n4, n5⟩ := fieldHead_noWs hq hu ht (to ++ (tl ++ (ts ++ (bs "}" ++ w))))
    have e : tq ++ t ++ to ++ tl ++ ts ++ bs "}" ++ w = tq ++ (t ++ (to ++ (tl ++ (ts ++ (bs "}" ++ w))))) := by
      simp
    refine ⟨.single m, (FieldMatcher.eval_single E o m).trans hm, fun s k h0 _ => .single (by rw [e]; exact n1)
      (by rw [e]; exact n2) (by rw [e]; exact n3) (by rw [e]; exact n4) (by rw [e]; exact n5)
      fun rest hr => ⟨rest, TParser.map_run ?_, dws_of_noWs hr.1⟩⟩
    have g1 := hrun s rest (h0 hb) hr.1
    rw [← bs_lbrace] at hl
    obtain ⟨k1, k2, -⟩ := padded_byte hl (by decide) (by decide) (ts ++ (bs "}" ++ (w ++ rest)))
    have e' : tq ++ t ++ to ++ tl ++ ts ++ bs "}" ++ w ++ rest =
        tq ++ (t ++ (to ++ (tl ++ (ts ++ (bs "}" ++ (w ++ rest)))))) := by simp
    unfold pFieldSingle
    simp only
    rw [TParser.alt_right, TParser.alt_right, g1]
    · refine TParser.lift_none ?_
      rw [e']
      refine subfieldsDot_none rx hq ht k1 ?_
      obtain ⟨wl, _, wr, rfl, h1, rfl, -⟩ := hl
      cases wl with
      | nil => simp
      | cons b wl =>
        simp only [List.cons_append, List.head?_cons, ne_eq, Option.some.injEq]
        rcases h1 b (by simp) with rfl | rfl | rfl | rfl <;> decide
    · refine TParser.lift_none ?_
      rw [e']
      exact pFieldExists_none hq hu ht k1 (by rw [k2]; simp)
  | @card w0 w1 t to sel w2 top op ds w h0 ht h1 h2 htop hop hd1 hd2 hd3 hw =>
    obtain ⟨m, hm, hrun⟩ := fieldCard_run rx (E := E) (o := o) h0 ht h1 h2 htop hop hd1 hd2 hd3 hw
    refine ⟨.card m, (FieldMatcher.eval_card E o m).trans hm, fun s k _ _ =>
      .card (r := w0 ++ t ++ w1 ++ to ++ w2 ++ top ++ ds ++ w) (by rw [← bs_hash]; simp) fun rest hr =>
        ⟨w ++ rest, TParser.map_run (hrun s rest hr), dws_append_noWs hw hr.1⟩⟩
  | @cardSub w0 w1 t to sel tl ts v w3 top op ds w hb h0 ht h1 hl hs h3 htop hop hd1 hd2 hd3 hw =>
    obtain ⟨m, hm, hrun⟩ := fieldCardSub_run rx (E := E) (o := o) h0 ht h1 hl hs h3 htop hop hd1 hd2 hd3 hw
    refine ⟨.card m, (FieldMatcher.eval_card E o m).trans hm, fun s k hs0 _ =>
      .card (r := w0 ++ t ++ w1 ++ to ++ tl ++ ts ++ bs "}" ++ w3 ++ top ++ ds ++ w)
        (by rw [← bs_hash]; simp) fun rest hr =>
        ⟨w ++ rest, TParser.map_run (hrun s rest (hs0 hb) hr), dws_append_noWs hw hr.1⟩⟩
  | @negExists n b t to sel w w' hb ht hw hw' =>
    obtain ⟨m, hm, hrun⟩ := fieldExists_run (w' := w') ht hw E o
    obtain ⟨r, hr0⟩ := bangs_head hb
    refine ⟨fldNots (n + 1) (.single m), ?_, fun s k _ hk => .not (r := r ++ (t ++ to ++ w ++ bs "?" ++ w'))
      (by simp [hr0]) fun rest hr => ?_⟩
    · rw [fldNots_eval, FieldMatcher.eval_single, hm]
    · have e : t ++ to ++ w ++ bs "?" ++ w' ++ rest = [] ++ (t ++ (to ++ (w ++ (0x3F :: (w' ++ rest))))) := by
        rw [← bs_qm]; simp
      obtain ⟨n1, n2, n3, n4, n5⟩ := fieldHead_noWs .none u0 ht (to ++ (w ++ (0x3F :: (w' ++ rest))))
      refine fldBangs_run (K := k - n - 1) (by rw [e]; exact n1) ⟨w' ++ rest, ?_, dws_append_noWs hw' hr.1⟩ hb k ?_
      · unfold fldNotTail
        rw [TParser.alt_right (pFieldGroup_none (by rw [e]; exact n1) (by rw [e]; exact n3)), TParser.alt_right]
        · exact TParser.alt_left (TParser.lift_run (alt_left (map_run (hrun rest))))
        · rw [e]
          refine TParser.map_none (subfieldsBracket_none rx .none ht (occStop_ws hw (OccStop.cons (by decide))) ?_ s)
          rw [dws_append hw, dws_cons _ (by decide)]; simp
      · have := bangs_length hb
        simp only [List.length_append] at hk; omega
  | @negDot n b tq q t to sel td ts v w hb hq ht htd hs hw =>
    obtain ⟨hq1, hu, hq2⟩ := plainQuant hq
    obtain ⟨sm, hsm, hsrun⟩ := existsParser_run (E := E) (o := o) hs
    obtain ⟨tm, om, rfl, t1, t2, t3⟩ := selects_run ht
    obtain ⟨r, hr0⟩ := bangs_head hb
    refine ⟨fldNots (n + 1) (.single (.subfields q tm om (.single sm) (tq ++ t ++ to ++ td ++ ts))), ?_, fun s k _ hk =>
      .not (r := r ++ (tq ++ t ++ to ++ td ++ ts ++ w)) (by simp [hr0]) fun rest hr => ?_⟩
    · rw [fldNots_eval, FieldMatcher.eval_single, run_fquant, SubMatcher.eval_single, hsm]
    · have e : tq ++ t ++ to ++ td ++ ts ++ w ++ rest = tq ++ (t ++ (to ++ (td ++ (ts ++ (w ++ rest))))) := by
        simp
      rw [← bs_dot] at htd
      obtain ⟨k1, k2, k3⟩ := padded_byte htd (by decide) (by decide) (ts ++ (w ++ rest))
      rw [dws_of_noWs (existsText_noWs hs _).1] at k3
      obtain ⟨n1, n2, n3, n4, n5⟩ := fieldHead_noWs hq1 hu ht (to ++ (td ++ (ts ++ (w ++ rest))))
      refine fldBangs_run (K := k - n - 1) (by rw [e]; exact n1) ⟨w ++ rest, ?_, dws_append_noWs hw hr.1⟩ hb k ?_
      · unfold fldNotTail
        rw [e, TParser.alt_right (pFieldGroup_none n1 n3), TParser.alt_right]
        · refine TParser.alt_left (TParser.lift_run ?_)
          unfold pFieldExistsM
          rw [alt_right]
          · refine map_run (a := ((q, tm, om, sm), tq ++ t ++ to ++ td ++ ts)) (withTaken_run
              (seq_run (hq2 _ (tagText_head t1 _).1)
                (seq_run (pTagMatcher_follow t1) (seq_run (pOccMatcher_follow t2 k1)
                  (preceded_run k3 (hsrun _))))) (by simp))
          · exact map_none (pFieldExists_none hq1 hu ht k1 (by rw [k2]; simp))
        · exact TParser.map_none (subfieldsBracket_none rx hq1 ht k1 (by rw [k2]; simp) s)
      · have := bangs_length hb
        simp only [List.length_append] at hk; omega
  | @negBraces n b tq q t to sel tl ts v w hbr hb hq hu ht hl hs hw =>
    obtain ⟨m, hm, hrun⟩ := subfieldsBracket_run rx hq ht hl hs hw
    obtain ⟨r, hr0⟩ := bangs_head hb
    refine ⟨fldNots (n + 1) (.single m), ?_, fun s k h0 hk =>
      .not (r := r ++ (tq ++ t ++ to ++ tl ++ ts ++ bs "}" ++ w)) (by simp [hr0]) fun rest hr => ?_⟩
    · rw [fldNots_eval, FieldMatcher.eval_single, hm]
    · have e : tq ++ t ++ to ++ tl ++ ts ++ bs "}" ++ w ++ rest =
          tq ++ (t ++ (to ++ (tl ++ (ts ++ (bs "}" ++ (w ++ rest)))))) := by simp
      obtain ⟨n1, n2, n3, n4, n5⟩ := fieldHead_noWs hq hu ht (to ++ (tl ++ (ts ++ (bs "}" ++ (w ++ rest)))))
      refine fldBangs_run (K := k - n - 1) (by rw [e]; exact n1) ⟨rest, ?_, dws_of_noWs hr.1⟩ hb k ?_
      · unfold fldNotTail
        rw [TParser.alt_right (pFieldGroup_none (by rw [e]; exact n1) (by rw [e]; exact n3))]
        exact TParser.alt_left (TParser.map_run (hrun s rest (h0 hbr) hr.1))
      · have := bangs_length hb
        simp only [List.length_append] at hk; omega

/-- a sequence of operands in parentheses or at the top -/
theorem fldSeq_run {rx : Bytes → Bool} {E : Env} {o : Opts} {s : Levels} {k : Nat}
    {P : Operand (List Field) → Prop} {a : OrSeq (List Field)}
    (hP : ∀ x, P x → ∃ m : FieldMatcher, m.eval E o = x.den ∧ FldRun rx s k x.text m)
    (h : OrSeq.ok P a) (hp : a.plain) : NoWs a.txt ∧ a.txt ≠ [] ∧
    ∃ m : FieldMatcher, m.eval E o = a.val ∧ ∀ rest, Stop rest →
      (pFieldComposite rx k s (a.txt ++ rest) = (some (m, rest), s) ∨
        (pFieldComposite rx k s (a.txt ++ rest) = (none, s) ∧ FldRun rx s k a.txt m)) := by
  obtain ⟨m0, hd0, hm0⟩ := hP _ h.2.1.2.1.2.1
  have hpre : ∃ r, a.txt = a.head.head.head.text ++ r := by
    simp only [OrSeq.txt, Seq.text, XorSeq.txt, AndSeq.txt, List.append_assoc]
    exact ⟨_, rfl⟩
  obtain ⟨r0, hpre⟩ := hpre
  refine ⟨?_, ?_, ?_⟩
  · rw [hpre]; exact noWs_append hm0.noWs.2 hm0.noWs.1
  · rw [hpre]; simp [hm0.noWs.2]
  · obtain ⟨h1, h2, h3, -⟩ := orSeq_composite (S := fieldSyn)
      (den := FieldMatcher.eval E o) (s := s)
      (atoms := fieldAtoms rx (pFieldGroup rx k) (pFieldNot rx k))
      (FieldMatcher.eval_bitand E o) (FieldMatcher.eval_bitxor E o)
      (FieldMatcher.eval_bitor E o) (fun x hx => by
        obtain ⟨m, h1, h2⟩ := hP x hx
        exact ⟨m, h2.atom, h1⟩) fieldSyn_runs a h
    by_cases hm : a.many
    · obtain ⟨m, hd, hc⟩ := h1 hm (hp hm)
      exact ⟨m, hd, fun rest hr => .inl (hc rest hr)⟩
    · by_cases hl : a.head.many ∨ a.head.head.many
      · obtain ⟨m, hd, hc⟩ := h2 hm hl
        exact ⟨m, hd, fun rest hr => .inl (hc rest hr)⟩
      · have hx : a.head.tail = [] := Classical.not_not.1 fun h => hl (.inl h)
        have hy : a.head.head.tail = [] := Classical.not_not.1 fun h => hl (.inr h)
        have hz : a.tail = [] := Classical.not_not.1 hm
        have et : a.txt = a.head.head.head.text := by
          simp [OrSeq.txt, XorSeq.txt, AndSeq.txt, Seq.text, hx, hy, hz]
        refine ⟨m0, ?_, fun rest hr =>
          .inr ⟨h3 hm (fun h => hl (.inl h)) (fun h => hl (.inr h)) rest hr, ?_⟩⟩
        · rw [hd0]
          simp [OrSeq.val, XorSeq.val, AndSeq.val, Seq.den, hx, hy, hz]
        · rw [et]; exact hm0

/-- a group -/
theorem fldGroup_run {rx : Bytes → Bool} {E : Env} {o : Opts} {s : Levels} {k : Nat}
    {P : Operand (List Field) → Prop} {a : OrSeq (List Field)} {w w' : Bytes} (hs : s.fld + 1 < 256)
    (hP : ∀ x, P x → ∃ m : FieldMatcher, m.eval E o = x.den ∧
      FldRun rx { s with fld := s.fld + 1 } k x.text m)
    (h : OrSeq.ok P a) (hp : a.plain) (hw : Ws w) (hw' : Ws w') :
    ∃ m : FieldMatcher, m.eval E o = a.val ∧ ∀ rest, NoWs rest →
      pFieldGroup rx (k + 1) s (0x28 :: (w ++ (a.txt ++ (0x29 :: (w' ++ rest))))) = (some (m, rest), s) := by
  obtain ⟨ht, ht', m, hm, hrun⟩ := fldSeq_run hP h hp
  refine ⟨.group m, (FieldMatcher.eval_group E o m).trans hm, fun rest hr => ?_⟩
  have hc := hrun (0x29 :: (w' ++ rest)) (stop_rpar _)
  have w1 : Pica.ws (byte 0x28) (0x28 :: (w ++ (a.txt ++ (0x29 :: (w' ++ rest))))) =
      some (0x28, a.txt ++ (0x29 :: (w' ++ rest))) := by
    have := ws_run' (p := byte 0x28) (i := 0x28 :: (w ++ (a.txt ++ (0x29 :: (w' ++ rest)))))
      (by rw [dws_cons _ (by decide)]; exact byte_cons_self _ _)
    rw [dws_append hw, dws_of_noWs (noWs_append ht' ht)] at this
    exact this
  have w2 : ∀ r', dws r' = 0x29 :: (w' ++ rest) → Pica.ws (byte 0x29) r' = some (0x29, rest) := by
    intro r' hr'
    have := ws_run' (p := byte 0x29) (i := r') (by rw [hr']; exact byte_cons_self _ _)
    rw [dws_append hw', dws_of_noWs hr] at this
    exact this
  have inc : TParser.terminated (TParser.lift (Pica.ws (byte 0x28))) fldInc s
      (0x28 :: (w ++ (a.txt ++ (0x29 :: (w' ++ rest))))) =
      (some (0x28, a.txt ++ (0x29 :: (w' ++ rest))), { s with fld := s.fld + 1 }) := by
    refine TParser.terminated_run (TParser.lift_run w1) (b := ()) ?_
    simp [fldInc, Nat.not_le.2 hs]
  have body : ∃ r', dws r' = 0x29 :: (w' ++ rest) ∧
      TParser.alt (composite fieldSyn (fieldAtoms rx (pFieldGroup rx k) (pFieldNot rx k)))
          (TParser.alt (pFieldSingleM rx) (TParser.alt (pFieldNot rx k)
            (TParser.alt (pFieldCardM rx) (pFieldGroup rx k)))) { s with fld := s.fld + 1 }
        (a.txt ++ (0x29 :: (w' ++ rest))) = (some (m, r'), { s with fld := s.fld + 1 }) := by
    rcases hc with hc | ⟨hc, hf⟩
    · exact ⟨_, dws_cons _ (by decide), TParser.alt_left hc⟩
    · obtain ⟨r', h1, h2⟩ := hf.inner (rest := 0x29 :: (w' ++ rest)) (stop_follow (stop_rpar _))
      refine ⟨r', h1, ?_⟩
      unfold pFieldComposite at hc
      rw [TParser.alt_right hc, h2]
  obtain ⟨r', hr', hb⟩ := body
  have dec : TParser.terminated (TParser.lift (Pica.ws (byte 0x29))) (TParser.update fldDec)
      { s with fld := s.fld + 1 } r' = (some (0x29, rest), s) :=
    TParser.terminated_run (TParser.lift_run (w2 r' hr')) (b := ()) rfl
  rw [pFieldGroup]
  exact TParser.map_run (TParser.delimited_run inc hb dec)

/-- **nested groups** of fields -/
theorem fieldNest_run (rx : Bytes → Bool) (E : Env) (o : Opts) (br : Bool) :
    ∀ (d : Nat) (x : Operand (List Field)),
    FieldNest rx E o br d x → ∀ (s : Levels) (k : Nat), (br = true → s.sub = 0) → s.fld + d < 256 →
      x.text.length ≤ k → ∃ m : FieldMatcher, m.eval E o = x.den ∧ FldRun rx s k x.text m
  | 0, x, h, s, k, h0, hs, hk => by
    obtain ⟨m, hm, hat⟩ := fieldOperand_run rx h
    exact ⟨m, hm, hat s k h0 hk⟩
  | d + 1, x, h, s, k, h0, hs, hk => by
    have ih := fieldNest_run rx E o br d
    rcases h with h | ⟨a, w, w', h, hp, hw, hw', rfl⟩ | ⟨a, n, b, w, w', h, hp, hb, hw, hw', rfl⟩
    · exact ih x h s k h0 (by omega) hk
    · have e : ∀ rest, bs "(" ++ w ++ a.txt ++ bs ")" ++ w' ++ rest =
          0x28 :: (w ++ (a.txt ++ (0x29 :: (w' ++ rest)))) := by
        intro rest; rw [bs_lpar, bs_rpar]; simp
      have hl : a.txt.length + 2 ≤ k := by
        have := congrArg List.length (e [])
        simp only [List.append_nil] at this hk
        rw [this] at hk
        simp at hk
        omega
      obtain ⟨k', rfl⟩ : ∃ k', k = k' + 1 := ⟨k - 1, by omega⟩
      obtain ⟨m, hm, hrun⟩ := fldGroup_run (rx := rx) (E := E) (o := o) (s := s) (k := k') (by omega)
        (fun x hx => ih x hx.1 _ _ h0 (by simp only; omega) (Nat.le_trans hx.2 (by omega)))
        (OrSeq.ok_short h (Nat.le_refl _)) hp hw hw'
      refine ⟨m, hm, .group (r := w ++ (a.txt ++ (0x29 :: (w' ++ [])))) ?_ fun rest hr =>
        ⟨rest, ?_, dws_of_noWs hr.1⟩⟩
      · rw [← e []]; simp
      · show pFieldGroup rx (k' + 1) s (bs "(" ++ w ++ a.txt ++ bs ")" ++ w' ++ rest) = _
        rw [e]; exact hrun rest hr.1
    · have e : ∀ rest, bs "(" ++ w ++ a.txt ++ bs ")" ++ w' ++ rest =
          0x28 :: (w ++ (a.txt ++ (0x29 :: (w' ++ rest)))) := by
        intro rest; rw [bs_lpar, bs_rpar]; simp
      have hl : (n + 1) + a.txt.length + 2 ≤ k := by
        have := bangs_length hb
        have := congrArg List.length (e [])
        simp only [List.append_nil] at this hk
        rw [List.length_append, this] at hk
        simp at hk
        omega
      obtain ⟨k', rfl⟩ : ∃ k', k = k' + 1 + n + 1 := ⟨k - n - 2, by omega⟩
      obtain ⟨m, hm, hrun⟩ := fldGroup_run (rx := rx) (E := E) (o := o) (s := s) (k := k') (by omega)
        (fun x hx => ih x hx.1 _ _ h0 (by simp only; omega) (Nat.le_trans hx.2 (by omega)))
        (OrSeq.ok_short h (Nat.le_refl _)) hp hw hw'
      obtain ⟨r, hr0⟩ := bangs_head hb
      refine ⟨fldNots (n + 1) m, ?_, .not (r := r ++ (bs "(" ++ w ++ a.txt ++ bs ")" ++ w')) (by simp [hr0])
        fun rest hr => fldBangs_run (K := k' + 1) (by rw [e]; exact noWs_cons.2 (by decide))
          ⟨rest, TParser.alt_left ?_, dws_of_noWs hr.1⟩ hb _ rfl⟩
      · rw [fldNots_eval, hm]
      · rw [e]; exact hrun rest hr.1

end Pica
