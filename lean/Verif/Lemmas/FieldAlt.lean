import Verif.Lemmas.SubAlt
import Verif.Lemmas.FieldGroup
import Verif.Lemmas.FieldRun
import Verif.Lemmas.Indep
import Verif.Lemmas.FormatDepth

/-! The kinds of field matchers without operators: at most one reads an input, and the parser of
all field matchers reads it in the same way. -/

namespace Pica
open Parser Spec

theorem ws_dws {α : Type} (p : Parser α) (i : Bytes) : Pica.ws p (dws i) = Pica.ws p i := by
  cases h : p (dws i) with
  | none => rw [ws_none' h, ws_none' (by rw [dws_dws]; exact h)]
  | some x => rw [ws_run' h, ws_run' (by rw [dws_dws]; exact h)]

/-! ### the counters -/

theorem subMatcher_counters (rx : Bytes → Bool) (s : Levels) (i : Bytes) :
    (pSubMatcher rx s i).2.fld = s.fld ∧ (pSubMatcher rx s i).2.fmt = s.fmt := by
  have H : SubSteps (fun a b => a = b ∧ a.fld = s.fld ∧ a.fmt = s.fmt) (fun _ => True) := by
    refine ⟨fun _ _ h => h, ?_, ?_⟩
    · refine Resp.terminated (Resp.lift (fun _ _ _ _ h => h)) ?_
      rintro j - a b ⟨rfl, h1, h2⟩
      refine ⟨rfl, ⟨rfl, ?_, ?_⟩, fun _ _ _ => trivial⟩ <;> unfold subInc <;> dsimp only <;> split <;> assumption
    · rintro a b ⟨rfl, h1, h2⟩; exact ⟨rfl, h1, h2⟩
  obtain ⟨-, ⟨-, h⟩, -⟩ := H.subMatcher rx i trivial s s ⟨rfl, rfl, rfl⟩
  exact h

theorem subMatcher_keeps {rx : Bytes → Bool} {s s' : Levels} {i x} (hs : s.sub = 0)
    (h : pSubMatcher rx s i = (some x, s')) : s' = s := by
  obtain ⟨h1, h2⟩ := subMatcher_counters rx s i
  have h3 : s'.sub = 0 := by
    unfold pSubMatcher at h
    dsimp only at h
    split at h
    · cases h; rfl
    · cases h
  rw [h] at h1 h2
  obtain ⟨a, b, c⟩ := s
  obtain ⟨a', b', c'⟩ := s'
  simp_all

/-! ### quantifier, tag and occurrence -/

theorem fieldHead_cases {i x r} (h : pFieldHead i = some (x, r)) :
    pFieldHead (dws i) = some (x, r) ∧
      ((NoWs i ∧ seq pTagMatcher pOccMatcher i = some (x.2, r)) ∨ ∃ y, dws i = 0x41 :: y) ∧
      ∀ b ∈ [0x28, 0x21, 0x23], (dws i).head? ≠ some b := by
  obtain ⟨q, tm, om⟩ := x
  have h0 := h
  unfold pFieldHead at h
  obtain ⟨i1, h1, h2⟩ := seq_eq_some.1 h
  cases hq : Pica.ws pQuantifier i with
  | some y =>
    obtain ⟨y, j⟩ := y
    obtain ⟨t, rfl, w, u, w', rfl, hw, hu, hw'⟩ := pQuantifier_reads.ws _ _ _ hq
    have hA : ∃ z, dws (w ++ u ++ w' ++ j) = 0x41 :: z := by
      rw [List.append_assoc, List.append_assoc]
      rcases hu with ⟨rfl, rfl⟩ | ⟨rfl, rfl⟩
      · rw [bs_ALL, List.cons_append, dws_append_noWs hw (noWs_cons.2 (by decide))]; exact ⟨_, rfl⟩
      · rw [bs_ANY, List.cons_append, dws_append_noWs hw (noWs_cons.2 (by decide))]; exact ⟨_, rfl⟩
    refine ⟨?_, .inr hA, ?_⟩
    · unfold pFieldHead
      refine seq_eq_some.2 ⟨i1, ?_, h2⟩
      rw [← h1]
      have : ∀ j k, Pica.ws pQuantifier j = Pica.ws pQuantifier k → Pica.ws pQuantifier k ≠ none →
          map Quantifier.orDefault (opt (Pica.ws pQuantifier)) j = map Quantifier.orDefault (opt (Pica.ws pQuantifier)) k := by
        intro j k hjk hk
        unfold map opt
        rw [hjk]
        cases h : Pica.ws pQuantifier k with
        | none => exact absurd h hk
        | some _ => rfl
      exact this _ _ (ws_dws _ _) (by rw [hq]; simp)
    · obtain ⟨z, hz⟩ := hA
      rw [hz]; simp
  | none =>
    obtain ⟨o, h1, -⟩ := map_eq_some.1 h1
    rw [opt_none hq] at h1
    obtain ⟨-, rfl⟩ := (by simpa using h1 : _ ∧ i = i1)
    obtain ⟨i2, h3, h4⟩ := seq_eq_some.1 h2
    obtain ⟨t, rfl, ht⟩ := pTagMatcher_reads _ _ _ h3
    have hn := (tagText_noWs ht i2).1
    obtain ⟨n1, n2, n3, n4⟩ := tagText_head ht i2
    rw [dws_of_noWs hn]
    refine ⟨h0, .inl ⟨hn, h2⟩, fun b hb => ?_⟩
    rcases (by simpa using hb : b = 0x28 ∨ b = 0x21 ∨ b = 0x23) with rfl | rfl | rfl <;> assumption

/-- existence is not read where a dot or brace follows -/
theorem fieldExists_none_of_head {i x r b} (h : pFieldHead i = some (x, r)) (hb : (dws r).head? = some b)
    (hne : b ≠ 0x3F) : pFieldExists i = none := by
  obtain ⟨-, h1 | ⟨y, hy⟩, -⟩ := fieldHead_cases h
  · obtain ⟨hn, h1⟩ := h1
    exact map_none (terminated_none' (ws_run' (by rw [dws_of_noWs hn]; exact h1))
      (byte_none_of_head (by rw [hb]; simpa using hne)))
  · refine map_none (terminated_none (ws_none' ?_))
    rw [hy]; exact seq_none rfl

/-! ### inversions -/

theorem TParser.withTaken_some {α : Type} {p : TParser α} {s i a r s'} (h : p s i = (some (a, r), s')) :
    TParser.withTaken p s i = (some ((a, i.take (i.length - r.length)), r), s') := by
  simp [TParser.withTaken, h]

/-! ### subfields -/

theorem seq_head_dws {β : Type} {K : Parser β} {i x j} (h : pFieldHead i = some (x, j)) :
    seq pFieldHead K (dws i) = seq pFieldHead K i := by
  unfold seq
  rw [(fieldHead_cases h).1, h]

/-- `parse_subfields_matcher` -/
abbrev pFieldSubs (rx : Bytes → Bool) : TParser FieldSingle :=
  TParser.alt (TParser.lift (pSubfieldsDot rx)) (pSubfieldsBracket rx)

theorem fieldSubs_inv {rx s i m r s'} (h : pFieldSubs rx s i = (some (m, r), s')) :
    (∃ x j b, pFieldHead i = some (x, j) ∧ (dws j).head? = some b ∧ b ≠ 0x3F) ∧
    (s.sub = 0 → s' = s) ∧
    ∃ m', pFieldSubs rx s (dws i) = (some (m', r), s') ∧ ∀ E o, m'.eval E o = m.eval E o := by
  cases hd : pSubfieldsDot rx i with
  | some y =>
    have hl : pFieldSubs rx s i = (some y, s) := TParser.alt_left (TParser.lift_run hd)
    rw [hl] at h
    obtain ⟨rfl, rfl⟩ := (by simpa using h : y = (m, r) ∧ s = s')
    unfold pSubfieldsDot at hd
    obtain ⟨⟨⟨x, v⟩, t⟩, h1, rfl⟩ := map_eq_some.1 hd
    obtain ⟨h1, -⟩ := withTaken_eq_some.1 h1
    obtain ⟨j, h2, h3⟩ := seq_eq_some.1 h1
    obtain ⟨_, j', h4, -⟩ := preceded_eq_some.1 h3
    obtain ⟨rfl, -⟩ := byte_eq_some.1 h4
    refine ⟨⟨x, _, 0x2E, h2, by rw [dws_cons _ (by decide)]; rfl, by decide⟩, fun _ => rfl, ?_⟩
    refine ⟨_, TParser.alt_left (TParser.lift_run (map_eq_some.2 ⟨((x, v), _),
      withTaken_eq_some.2 ⟨(seq_head_dws h2).trans h1, rfl⟩, rfl⟩)), fun E o => rfl⟩
  | none =>
    rw [show pFieldSubs rx s i = _ from TParser.alt_right (TParser.lift_none hd)] at h
    unfold pSubfieldsBracket at h
    obtain ⟨⟨⟨x, v⟩, t⟩, h1, rfl⟩ := TParser.map_inv h
    have h1 := TParser.withTaken_inv h1
    obtain ⟨j, s1, h2, h3⟩ := TParser.seq_inv h1
    obtain ⟨h2', rfl⟩ := TParser.lift_inv h2
    dsimp only at h2' h3
    have hd' : pSubfieldsDot rx (dws i) = none := by
      unfold pSubfieldsDot map withTaken at hd ⊢
      rw [seq_head_dws h2']
      revert hd
      cases seq pFieldHead (preceded (byte 0x2E) (pSubSingle rx)) i with
      | none => exact fun _ => rfl
      | some z => intro hd; simp at hd
    obtain ⟨_, j1, s2, h4, h5⟩ := TParser.preceded_inv h3
    obtain ⟨h4', rfl⟩ := TParser.lift_inv h4
    obtain ⟨_, j2, s3, h6, h7⟩ := TParser.terminated_inv h5
    obtain ⟨-, rfl⟩ := TParser.lift_inv h7
    obtain ⟨_, rfl, w, u, w', rfl, hw, ⟨-, rfl⟩, -⟩ := (Reads.byte 0x7B).ws _ _ _ h4'
    refine ⟨⟨x, _, 0x7B, h2', ?_, by decide⟩, fun hs => subMatcher_keeps hs h6, ?_⟩
    · rw [List.append_assoc, List.append_assoc, List.singleton_append,
        dws_append_noWs hw (noWs_cons.2 (by decide))]
      rfl
    · rw [show pFieldSubs rx s2 (dws i) = _ from TParser.alt_right (TParser.lift_none hd')]
      exact ⟨_, TParser.map_run (TParser.withTaken_some (TParser.seq_run
        (TParser.lift_run (fieldHead_cases h2').1) h3)), fun E o => rfl⟩

/-! ### cardinality -/

theorem relOp_brace (w Y : Bytes) (hw : Ws w) : Pica.ws pRelOp (w ++ 0x7B :: Y) = none := by
  refine ws_none' ?_
  rw [dws_append_noWs hw (noWs_cons.2 (by decide))]
  obtain ⟨e1, e2, e3, e4, e5, e6, e7, e8, e9, e10, e11, _⟩ := bs_ops
  unfold pRelOp
  simp only [e1, e2, e3, e4, e5, e6, e7, e8, e9, e10, e11]
  rfl

theorem fieldCard_inv {rx s i m r s'} (h : pFieldCard rx s i = (some (m, r), s')) :
    (∃ y, dws i = 0x23 :: y) ∧ (s.sub = 0 → s' = s) ∧
    ∃ m', pFieldCard rx s (dws i) = (some (m', r), s') ∧
      ∀ E o, (FieldMatcher.card m').eval E o = (FieldMatcher.card m).eval E o := by
  unfold pFieldCard at h
  obtain ⟨⟨⟨tm, om, sm, op, n⟩, t⟩, h0, rfl⟩ := TParser.map_inv h
  have h1 := TParser.withTaken_inv h0
  dsimp only at h1
  have h1' := h1
  obtain ⟨_, j1, s1, h2, h3⟩ := TParser.preceded_inv h1
  obtain ⟨h2', rfl⟩ := TParser.lift_inv h2
  refine ⟨?_, fun hs => ?_, ?_⟩
  · obtain ⟨_, rfl, w, u, w', rfl, hw, ⟨-, rfl⟩, -⟩ := (Reads.byte 0x23).ws _ _ _ h2'
    refine ⟨w' ++ j1, ?_⟩
    rw [List.append_assoc, List.append_assoc, List.singleton_append,
      dws_append_noWs hw (noWs_cons.2 (by decide))]
  · obtain ⟨j2, s2, h4, h5⟩ := TParser.seq_inv h3
    obtain ⟨-, rfl⟩ := TParser.lift_inv h4
    obtain ⟨j3, s3, h6, h7⟩ := TParser.seq_inv h5
    obtain ⟨-, rfl⟩ := TParser.lift_inv h6
    obtain ⟨j4, s4, h8, h9⟩ := TParser.seq_inv h7
    obtain ⟨h9', rfl⟩ := TParser.lift_inv h9
    cases hb : Pica.ws (byte 0x7B) j3 with
    | none =>
      unfold TParser.delimited at h8
      rw [TParser.opt_none (TParser.preceded_none (TParser.lift_none hb))] at h8
      cases h8; rfl
    | some y =>
      unfold TParser.opt at h8
      cases hd : TParser.delimited (TParser.lift (Pica.ws (byte 0x7B))) (pSubMatcher rx)
          (TParser.lift (Pica.ws (byte 0x7D))) s3 j3 with
      | mk z s5 =>
        rw [hd] at h8
        cases z with
        | some z =>
          obtain ⟨z, j5⟩ := z
          cases h8
          obtain ⟨_, k1, t1, g1, g2⟩ := TParser.preceded_inv hd
          obtain ⟨-, rfl⟩ := TParser.lift_inv g1
          obtain ⟨_, k2, t2, g3, g4⟩ := TParser.terminated_inv g2
          obtain ⟨-, rfl⟩ := TParser.lift_inv g4
          exact subMatcher_keeps hs g3
        | none =>
          cases h8
          obtain ⟨_, rfl, w, u, w', rfl, hw, ⟨-, rfl⟩, -⟩ := (Reads.byte 0x7B).ws _ _ _ hb
          obtain ⟨k, h10, -⟩ := seq_eq_some.1 h9'
          obtain ⟨h10, -⟩ := verify_eq_some.1 h10
          rw [List.append_assoc, List.append_assoc, List.singleton_append, relOp_brace _ _ hw] at h10
          cases h10
  · refine ⟨_, TParser.map_run (TParser.withTaken_some (TParser.preceded_run
      (TParser.lift_run ((ws_dws _ _).trans h2')) h3)), fun E o => rfl⟩

/-! ### the parser of all field matchers -/

theorem fieldSyn_nil : fieldSyn.opAnd [] = none ∧ fieldSyn.opOr [] = none := by
  unfold fieldSyn
  exact ⟨ws_none' (by rw [bs_and]; rfl), ws_none' (by rw [bs_or]; rfl)⟩

theorem fieldSingle_exists {rx s i m r} (h : pFieldExists i = some (m, r)) :
    pFieldSingle rx s i = (some (m, r), s) := TParser.alt_left (TParser.lift_run h)

theorem fieldExists_inv {i m r} (h : pFieldExists i = some (m, r)) :
    pFieldExists (dws i) = some (m, r) ∧ ∀ b ∈ [0x28, 0x21, 0x23], (dws i).head? ≠ some b := by
  constructor
  · rw [← h]
    unfold pFieldExists map terminated map seq
    rw [ws_dws]
  · intro b hb
    cases hd : dws i with
    | nil => simp
    | cons c y =>
      rw [List.head?_cons]
      intro e
      obtain rfl : c = b := by simpa using e
      have hl : Lead c := by unfold Lead; simpa using hb
      rw [show pFieldExists i = none from map_none (terminated_none (ws_none' (by
        rw [hd]; exact seq_none (pTagMatcher_none y hl))))] at h
      cases h

theorem fieldSingle_inv {rx s i m r s'} (h : pFieldSingle rx s i = (some (m, r), s')) :
    (∀ b ∈ [0x28, 0x21, 0x23], (dws i).head? ≠ some b) ∧ (s.sub = 0 → s' = s) ∧
    ∃ m', pFieldSingle rx s (dws i) = (some (m', r), s') ∧ ∀ E o, m'.eval E o = m.eval E o := by
  cases he : pFieldExists i with
  | some y =>
    rw [show pFieldSingle rx s i = _ from TParser.alt_left (TParser.lift_run he)] at h
    obtain ⟨rfl, rfl⟩ := (by simpa using h : y = (m, r) ∧ s = s')
    obtain ⟨h1, h2⟩ := fieldExists_inv he
    exact ⟨h2, fun _ => rfl, m, fieldSingle_exists h1, fun _ _ => rfl⟩
  | none =>
    rw [show pFieldSingle rx s i = _ from TParser.alt_right (TParser.lift_none he)] at h
    obtain ⟨⟨x, j, b, h1, h2, h3⟩, h4, m', h5, h6⟩ := fieldSubs_inv h
    refine ⟨(fieldHead_cases h1).2.2, h4, m', ?_, h6⟩
    rw [show pFieldSingle rx s (dws i) = _ from TParser.alt_right (TParser.lift_none
      (fieldExists_none_of_head (fieldHead_cases h1).1 h2 h3))]
    exact h5

theorem fieldMatcher_of {rx i m s} (ha : ∀ k, fieldAtoms rx (pFieldGroup rx k) (pFieldNot rx k) s (dws i) =
      (some (m, []), s))
    (hp : (dws i).head? ≠ some 0x28 ∧ (dws i).head? ≠ some 0x21)
    (hs : TParser.alt (pFieldSingleM rx) (pFieldCardM rx) s (dws i) = (some (m, []), s)) :
    FieldMatcher.new rx s i = (some m, fldReset s) := by
  have hc : ∀ k, pFieldComposite rx k s (dws i) = (none, s) := fun k =>
    composite_whole fieldSyn_nil (by rw [dws_dws]; exact ha k)
  refine TParser.parseAll_eq_some.2 ?_
  unfold pFieldMatcher
  dsimp only
  rw [tws_run (a := m) (r := []) (s' := s)]
  · rfl
  · rw [TParser.alt_right (hc _), TParser.alt_right (pFieldGroup_none (dws_noWs i) hp.1),
      TParser.alt_right (pFieldNot_none (dws_noWs i) hp.2)]
    exact hs

theorem fieldMatcher_single {rx s i m s'} (hs : s.sub = 0) (h : pFieldSingle rx s i = (some (m, []), s')) :
    ∃ m', FieldMatcher.new rx s i = (some (.single m'), fldReset s) ∧ ∀ E o, m'.eval E o = m.eval E o := by
  obtain ⟨h1, h2, m', h3, h4⟩ := fieldSingle_inv h
  obtain rfl := h2 hs
  have hm : pFieldSingleM rx s' (dws i) = (some (.single m', []), s') := TParser.map_run h3
  refine ⟨m', fieldMatcher_of (fun k => ?_) ⟨h1 _ (by simp), h1 _ (by simp)⟩ (TParser.alt_left hm), h4⟩
  unfold fieldAtoms
  rw [TParser.alt_right (pFieldGroup_none (dws_noWs i) (h1 _ (by simp))),
    TParser.alt_right (pFieldCardM_none (dws_noWs i) (h1 _ (by simp)))]
  exact TParser.alt_left hm

theorem fieldMatcher_card {rx s i m s'} (hs : s.sub = 0) (h : pFieldCard rx s i = (some (m, []), s')) :
    ∃ m', FieldMatcher.new rx s i = (some (.card m'), fldReset s) ∧
      ∀ E o, (FieldMatcher.card m').eval E o = (FieldMatcher.card m).eval E o := by
  obtain ⟨⟨y, hy⟩, h2, m', h3, h4⟩ := fieldCard_inv h
  obtain rfl := h2 hs
  have hm : pFieldCardM rx s' (dws i) = (some (.card m', []), s') := TParser.map_run h3
  have hn : pFieldSingleM rx s' (dws i) = (none, s') := by rw [hy]; exact pFieldSingleM_none _ (.inr (.inr rfl))
  refine ⟨m', fieldMatcher_of (fun k => ?_) (by rw [hy]; simp) ?_, h4⟩
  · unfold fieldAtoms
    rw [TParser.alt_right (pFieldGroup_none (dws_noWs i) (by rw [hy]; simp))]
    exact TParser.alt_left hm
  · rw [TParser.alt_right hn]; exact hm

end Pica
