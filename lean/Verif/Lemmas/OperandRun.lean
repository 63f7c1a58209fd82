import Verif.Lemmas.SubRun
import Verif.Lemmas.Path

/-! The subfield operands of `Spec.Sequence` are read by the parsers. -/

namespace Pica
open Spec Parser

/-- what may follow an operand: neither white space nor a digit -/
def Follow (r : Bytes) : Prop := NoWs r ∧ NoDigit r

theorem fAnd_follow {r : Bytes} (h : FAnd r) : Follow r := by
  refine ⟨fAnd_noWs h, ?_⟩
  rcases fAnd_head h with rfl | ⟨b, hb, h⟩
  · intro x hx; simp at hx
  · intro x hx
    rw [hb] at hx
    cases hx
    rcases h with rfl | rfl | rfl | rfl | rfl | rfl <;> decide

theorem stop_follow {r : Bytes} (h : Stop r) : Follow r := fAnd_follow (.inl (.inl (.inl h)))

theorem follow_nil : Follow [] := stop_follow (.inl rfl)

theorem unled_noWs {t : Bytes} (h : Unled t) : NoWs t := by
  intro b hb
  cases hm : isMultispace b with
  | false => rfl
  | true => exact absurd ((isMultispace_iff b).1 hm) (h b hb)

/-- a parser of simple matchers needs more than white space, `(`, `!` -/
theorem pSubSingle_fails (rx : Bytes → Bool) {i : Bytes} (d : dws i = i) (hA : i.head? ≠ some 0x41)
    (hH : i.head? ≠ some 0x23) (hc : pCodes i = none) : pSubSingle rx i = none := by
  have hq : pQuantifier i = none := by
    unfold pQuantifier
    rw [bs_ALL, bs_ANY, alt_right]
    · exact map_none (lit_none_of_head hA)
    · exact map_none (lit_none_of_head hA)
  have q1 : map Quantifier.orDefault (opt (Pica.ws (terminated pQuantifier multispace1)))
      i = some (.any, i) :=
    map_run (a := none) (opt_none (ws_none' (by rw [d]; exact terminated_none hq)))
  have q2 : map Quantifier.orDefault (opt (Pica.ws pQuantifier)) i = some (.any, i) :=
    map_run (a := none) (opt_none (ws_none' (by rw [d]; exact hq)))
  have wc : Pica.ws pCodes i = none := ws_none' (by rw [d]; exact hc)
  unfold pSubSingle
  rw [alt_right, alt_right, alt_right, alt_right, alt_right, alt_right]
  · exact map_none (withTaken_none (seq_none' q2 (seq_none wc)))
  · exact map_none (withTaken_none (seq_none' q2 (seq_none wc)))
  · exact map_none (withTaken_none (preceded_none (ws_none' (by rw [d]; exact byte_none_of_head hH))))
  · exact map_none (withTaken_none (terminated_none hc))
  · exact map_none (withTaken_none (seq_none' q2 (seq_none wc)))
  · exact map_none (withTaken_none (seq_none' q2 (seq_none wc)))
  · exact map_none (withTaken_none (seq_none' q1 (seq_none wc)))

theorem pSubSingle_none_lpar (rx : Bytes → Bool) (r : Bytes) : pSubSingle rx (0x28 :: r) = none :=
  pSubSingle_fails rx (dws_cons _ (by decide)) (by simp) (by simp) rfl

theorem pSubSingle_none_bang (rx : Bytes → Bool) (r : Bytes) : pSubSingle rx (0x21 :: r) = none :=
  pSubSingle_fails rx (dws_cons _ (by decide)) (by simp) (by simp) rfl

theorem pSubSingle_none_nil (rx : Bytes → Bool) : pSubSingle rx [] = none :=
  pSubSingle_fails rx rfl (by simp) (by simp) rfl

/-- how a subfield operand is read -/
inductive SubOpdRun (rx : Bytes → Bool) (s : Levels) (k : Nat) (t : Bytes) : SubMatcher → Prop
  | single {m} : NoWs t → t ≠ [] → t.head? ≠ some 0x28 →
      (∀ rest, Follow rest → ∃ r', pSubSingle rx (t ++ rest) = some (m, r') ∧ dws r' = rest) →
      SubOpdRun rx s k t (.single m)
  | not {m r} : t = 0x21 :: r →
      (∀ rest, NoWs rest → ∃ r', pSubNot rx k s (t ++ rest) = (some (m, r'), s) ∧ dws r' = rest) →
      SubOpdRun rx s k t m

theorem subText_ne {rx : Bytes → Bool} {E : Env} {o : Opts} {t v} (h : SubText rx E o t v) : t ≠ [] := by
  rintro rfl
  obtain ⟨m, -, h⟩ := subText_run rx h (w := []) (by simp [Ws])
  obtain ⟨r', h, -⟩ := h [] follow_nil.1 follow_nil.2
  rw [List.append_nil, List.append_nil, pSubSingle_none_nil] at h
  cases h

theorem bangs_head {n b} (h : Bangs (n + 1) b) : ∃ r, b = 0x21 :: r := by
  cases h with
  | succ _ _ => rw [bs_bang]; exact ⟨_, rfl⟩

theorem bangs_length {n b} (h : Bangs n b) : n ≤ b.length := by
  induction h with
  | zero => simp
  | succ _ _ ih => rw [bs_bang]; simp; omega

theorem existsParser_run {E : Env} {o : Opts} {t v} (h : ExistsText t v) :
    ∃ m : SubSingle, m.eval E o = v ∧ ∀ r, pSubExists (t ++ r) = some (m, r) := by
  rcases h with @⟨c, S, hc⟩
  obtain ⟨cs, -, h2, h3⟩ := wsCodes_run hc
  refine ⟨.exists cs (c ++ bs "?"), ?_, fun r => ?_⟩
  · funext sf
    apply truth_of
    simp only [SetOf] at h3
    simp [h3]
  · unfold pSubExists
    rw [← bs_qm]
    rw [List.append_assoc]
    exact map_run (a := (cs, c ++ [0x3F])) (withTaken_run (terminated_run (h2 _) (byte_cons_self _ _)) (by simp))

theorem existsText_noWs {t v} (h : ExistsText t v) (r : Bytes) :
    NoWs (t ++ r) ∧ (t ++ r).head? ≠ some 0x28 ∧ (t ++ r).head? ≠ some 0x21 := by
  obtain ⟨hc⟩ := h
  obtain ⟨b, r', rfl, hb, -⟩ := codesText_head hc
  exact ⟨codeHead_noWs hb _, by simpa using codes_not hb (by simp), by simpa using codes_not hb (by simp)⟩

theorem wsBang_run {w r : Bytes} (hw : Ws w) (hr : NoWs r) :
    Pica.ws (byte 0x21) (bs "!" ++ w ++ r) = some (0x21, r) := by
  have := wsByte_run (b := 0x21) (w := []) (w' := w) (r := r) (by decide) (by simp [Ws]) hw
  rw [dws_of_noWs hr] at this
  rw [bs_bang]
  simpa using this

theorem bangs_noWs {n b} (h : Bangs n b) {r : Bytes} (hr : NoWs r) : NoWs (b ++ r) := by
  cases h with
  | zero => exact hr
  | succ _ _ => rw [bs_bang]; exact noWs_cons.2 (by decide)

/-- negations of existence -/
theorem subBangs_run (rx : Bytes → Bool) {E : Env} {o : Opts} {t v w} (ht : ExistsText t v) (hw : Ws w) :
    ∀ {n b}, Bangs (n + 1) b → ∃ m : SubMatcher, m.eval E o = dNots (n + 1) v ∧ ∀ k, n < k → ∀ s rest, NoWs rest →
      ∃ r', pSubNot rx k s (b ++ t ++ w ++ rest) = (some (m, r'), s) ∧ dws r' = rest
  | 0, b, h => by
    obtain ⟨m, hm, hrun⟩ := existsParser_run (E := E) (o := o) ht
    rcases h with _ | ⟨hw1, hb⟩
    cases hb
    refine ⟨.not (.single m), ?_, fun k hk s rest hr => ⟨w ++ rest, ?_, dws_append_noWs hw hr⟩⟩
    · rw [SubMatcher.eval_not, SubMatcher.eval_single, hm]; rfl
    · obtain ⟨k, rfl⟩ : ∃ k', k = k' + 1 := ⟨k - 1, by omega⟩
      obtain ⟨n1, n2, n3⟩ := existsText_noWs ht (w ++ rest)
      have := wsBang_run hw1 n1
      rw [pSubNot, List.append_nil, List.append_assoc, List.append_assoc]
      refine TParser.map_run (TParser.preceded_run (TParser.lift_run this) ?_)
      rw [TParser.alt_right (pSubGroup_none n1 n2)]
      exact TParser.alt_left (TParser.lift_run (map_run (hrun _)))
  | n + 1, b, h => by
    rcases h with _ | ⟨hw1, hb⟩
    obtain ⟨m, hm, hrun⟩ := subBangs_run rx (E := E) (o := o) ht hw hb
    refine ⟨.not m, ?_, fun k hk s rest hr => ?_⟩
    · rw [SubMatcher.eval_not, hm]; rfl
    · obtain ⟨k, rfl⟩ : ∃ k', k = k' + 1 := ⟨k - 1, by omega⟩
      rename_i w1 b
      obtain ⟨r', h1, h2⟩ := hrun k (by omega) s rest hr
      refine ⟨r', ?_, h2⟩
      obtain ⟨b', rfl⟩ := bangs_head hb
      have hn : NoWs (0x21 :: b' ++ t ++ w ++ rest) := noWs_cons.2 (by decide)
      have := wsBang_run hw1 hn
      rw [pSubNot]
      have e : bs "!" ++ w1 ++ (0x21 :: b') ++ t ++ w ++ rest = bs "!" ++ w1 ++ (0x21 :: b' ++ t ++ w ++ rest) := by simp
      rw [e]
      refine TParser.map_run (TParser.preceded_run (TParser.lift_run this) ?_)
      rw [TParser.alt_right (pSubGroup_none hn (by simp)), TParser.alt_right, h1]
      exact TParser.lift_none (map_none (map_none (withTaken_none (terminated_none rfl))))

/-- **subfield operands** are read -/
theorem subOperand_run (rx : Bytes → Bool) {E : Env} {o : Opts} {a : Operand (List Subfield)}
    (h : SubOperand rx E o a) : ∃ m : SubMatcher, m.eval E o = a.den ∧ ∀ s k, a.text.length ≤ k →
      SubOpdRun rx s k a.text m := by
  cases h with
  | @simple t v w ht hu hw =>
    obtain ⟨m, hm, hrun⟩ := subText_run rx ht hw
    have hne := subText_ne ht
    have hh : (t ++ w).head? ≠ some 0x28 := by
      intro e
      obtain ⟨r, hr⟩ : ∃ r, t ++ w = 0x28 :: r := by
        cases htw : t ++ w with
        | nil => rw [htw] at e; simp at e
        | cons b r => rw [htw] at e; simp at e; exact ⟨r, by rw [e]⟩
      obtain ⟨r', h, -⟩ := hrun [] follow_nil.1 follow_nil.2
      rw [hr, List.append_nil, pSubSingle_none_lpar] at h
      cases h
    exact ⟨.single m, (SubMatcher.eval_single E o m).trans hm, fun s k _ =>
      .single (noWs_append hne (unled_noWs hu)) (by simp [hne]) hh (fun rest hr => hrun rest hr.1 hr.2)⟩
  | @neg n b t v w hb ht hw =>
    obtain ⟨m, hm, hrun⟩ := subBangs_run rx (E := E) (o := o) ht hw hb
    obtain ⟨r, hr⟩ := bangs_head hb
    refine ⟨m, hm, fun s k hk => .not (r := r ++ t ++ w) (by simp [hr]) (fun rest hr => hrun k ?_ s rest hr)⟩
    have := bangs_length hb
    simp only [List.length_append] at hk
    omega

theorem SubOpdRun.noWs {rx s k t m} (h : SubOpdRun rx s k t m) : NoWs t ∧ t ≠ [] ∧ t.head? ≠ some 0x28 := by
  cases h with
  | single h1 h2 h3 _ => exact ⟨h1, h2, h3⟩
  | not h _ => subst h; exact ⟨noWs_cons.2 (by decide), by simp, by simp⟩

/-- one of the alternatives reads it -/
theorem SubOpdRun.alone {rx s k t m} (h : SubOpdRun rx s k t m) {rest : Bytes} (hr : Follow rest) :
    ∃ r', dws r' = rest ∧ TParser.alt (pSubSingleM rx) (pSubNot rx k) s (t ++ rest) = (some (m, r'), s) := by
  cases h with
  | single h1 h2 h3 h4 =>
    obtain ⟨r', g1, g2⟩ := h4 rest hr
    exact ⟨r', g2, TParser.alt_left (TParser.lift_run (map_run g1))⟩
  | not h h4 =>
    subst h
    obtain ⟨r', g1, g2⟩ := h4 rest hr.1
    refine ⟨r', g2, ?_⟩
    rw [TParser.alt_right, g1]
    exact TParser.lift_none (map_none (pSubSingle_none_bang rx _))

/-- operands of subfield expressions -/
theorem SubOpdRun.atom {rx s k t m} (h : SubOpdRun rx s k t m) :
    Atom s (subAtoms rx (pSubGroup rx k) (pSubNot rx k)) t m := by
  obtain ⟨h1, h2, h3⟩ := h.noWs
  refine ⟨fun rest hr => ?_, h1, h2⟩
  obtain ⟨r', g1, g2⟩ := h.alone (fAnd_follow hr)
  refine ⟨r', ?_, g1⟩
  unfold subAtoms
  rw [TParser.alt_right, g2]
  refine pSubGroup_none (noWs_append h2 h1) ?_
  cases t with
  | nil => exact absurd rfl h2
  | cons b t => exact h3

end Pica
