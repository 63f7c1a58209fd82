import Verif.Lemmas.Expr
import Verif.Lemmas.SubText
import Verif.Lemmas.Selector

/-! Every accepted expression has the meaning the grammar gives to its text. -/

namespace Pica
open Spec Parser

/-! ## Combination of matchers -/

theorem run_and (l : Option Bool) (r : Unit → Option Bool) :
    BoolOp.and.run l r = match l with | some true => r () | x => x := by
  rcases l with _ | _ | _ <;> rfl
theorem run_or (l : Option Bool) (r : Unit → Option Bool) :
    BoolOp.or.run l r = match l with | some false => r () | x => x := by
  rcases l with _ | _ | _ <;> rfl
theorem run_xor (l : Option Bool) (r : Unit → Option Bool) :
    BoolOp.xor.run l r = match l, r () with | some p, some q => some (p != q) | _, _ => none := by
  rcases l with _ | l
  · rfl
  · cases h : r () <;> simp [BoolOp.run, h]

namespace SubMatcher
variable (E : Env) (o : Opts)

theorem eval_groupOrXor (m : SubMatcher) : m.groupOrXor.eval E o = m.eval E o := by
  rcases m with _ | _ | _ | ⟨l, op, r⟩
  · rfl
  · rfl
  · rfl
  · cases op <;> (funext sf; simp [groupOrXor, eval])

theorem eval_groupOr (m : SubMatcher) : m.groupOr.eval E o = m.eval E o := by
  rcases m with _ | _ | _ | ⟨l, op, r⟩
  · rfl
  · rfl
  · rfl
  · cases op <;> (funext sf; simp [groupOr, eval])

theorem eval_bitand (a b : SubMatcher) : (a.bitand b).eval E o = dAnd (a.eval E o) (b.eval E o) := by
  funext sf
  simp only [bitand, eval, run_and, eval_groupOrXor, dAnd]
  rcases a.eval E o sf with _ | _ | _ <;> rfl

theorem eval_bitor (a b : SubMatcher) : (a.bitor b).eval E o = dOr (a.eval E o) (b.eval E o) := by
  funext sf
  simp only [bitor, eval, run_or, dOr]
  rcases a.eval E o sf with _ | _ | _ <;> rfl

theorem eval_bitxor (a b : SubMatcher) : (a.bitxor b).eval E o = dXor (a.eval E o) (b.eval E o) := by
  funext sf
  simp only [bitxor, eval, run_xor, eval_groupOr, dXor]
  rcases a.eval E o sf with _ | _ <;> rcases b.eval E o sf with _ | _ <;> rfl

theorem eval_not (a : SubMatcher) : (SubMatcher.not a).eval E o = dNot (a.eval E o) := by
  funext sf
  simp only [eval, dNot]
  cases a.eval E o sf <;> rfl

theorem eval_group (a : SubMatcher) : (SubMatcher.group a).eval E o = a.eval E o := by
  funext sf; simp only [eval]

theorem eval_single (m : SubSingle) : (SubMatcher.single m).eval E o = m.eval E o := by
  funext sf; simp only [eval]

theorem eval_bitnot (a : SubMatcher) : a.bitnot.eval E o = dNot (a.eval E o) := by
  unfold bitnot
  split
  · rw [eval_not]
  · rw [eval_not]
  · rw [eval_not]
  · rw [eval_not, eval_group]

end SubMatcher

namespace FieldMatcher
variable (E : Env) (o : Opts)

theorem eval_groupOrXor (m : FieldMatcher) : m.groupOrXor.eval E o = m.eval E o := by
  rcases m with _ | _ | _ | _ | ⟨l, op, r⟩
  · rfl
  · rfl
  · rfl
  · rfl
  · cases op <;> (funext sf; simp [groupOrXor, eval])

theorem eval_groupOr (m : FieldMatcher) : m.groupOr.eval E o = m.eval E o := by
  rcases m with _ | _ | _ | _ | ⟨l, op, r⟩
  · rfl
  · rfl
  · rfl
  · rfl
  · cases op <;> (funext sf; simp [groupOr, eval])

theorem eval_bitand (a b : FieldMatcher) : (a.bitand b).eval E o = dAnd (a.eval E o) (b.eval E o) := by
  funext sf
  simp only [bitand, eval, run_and, eval_groupOrXor, dAnd]
  rcases a.eval E o sf with _ | _ | _ <;> rfl

theorem eval_bitor (a b : FieldMatcher) : (a.bitor b).eval E o = dOr (a.eval E o) (b.eval E o) := by
  funext sf
  simp only [bitor, eval, run_or, dOr]
  rcases a.eval E o sf with _ | _ | _ <;> rfl

theorem eval_bitxor (a b : FieldMatcher) : (a.bitxor b).eval E o = dXor (a.eval E o) (b.eval E o) := by
  funext sf
  simp only [bitxor, eval, run_xor, eval_groupOr, dXor]
  rcases a.eval E o sf with _ | _ <;> rcases b.eval E o sf with _ | _ <;> rfl

theorem eval_not (a : FieldMatcher) : (FieldMatcher.not a).eval E o = dNot (a.eval E o) := by
  funext sf
  simp only [eval, dNot]
  cases a.eval E o sf <;> rfl

theorem eval_group (a : FieldMatcher) : (FieldMatcher.group a).eval E o = a.eval E o := by
  funext sf; simp only [eval]

theorem eval_single (m : FieldSingle) : (FieldMatcher.single m).eval E o = m.eval E o := by
  funext sf; simp only [eval]

theorem eval_card (m : FieldCard) : (FieldMatcher.card m).eval E o = m.eval E o := by
  funext sf; simp only [eval]

theorem eval_bitnot (a : FieldMatcher) : a.bitnot.eval E o = dNot (a.eval E o) := by
  unfold bitnot
  split
  · rw [eval_not]
  · rw [eval_not]
  · rw [eval_not]
  · rw [eval_not, eval_group]

end FieldMatcher

/-! ## Subfield expressions -/

section sub
variable (rx : Bytes → Bool) (E : Env) (o : Opts)

theorem subSyn_ok : SynOk subSyn (SubMatcher.eval E o) where
  opAnd := fun i u r h => ⟨[], [], by simpa using lit_eq_some.1 h, ws_nil, ws_nil⟩
  opOr := fun i u r h => ⟨[], [], by simpa using lit_eq_some.1 h, ws_nil, ws_nil⟩
  band := SubMatcher.eval_bitand E o
  bor := SubMatcher.eval_bitor E o
  bxor := SubMatcher.eval_bitxor E o

theorem pSubSingleM_sound : TParser.Sound (pSubSingleM rx)
    (fun m t => AtomT (SubText rx E o) ExistsText t (m.eval E o)) :=
  TParser.Sound.lift (((pSubSingle_reads rx E o).map SubMatcher.single).mono (by
    rintro m t ⟨a, rfl, h⟩
    rw [SubMatcher.eval_single]
    have := AtomT.single (Neg := ExistsText) ws_nil h ws_nil
    simpa using this))

theorem subInc_sound : TParser.Sound subInc (fun _ t => t = []) := by
  intro s i a r s' h
  simp only [subInc] at h
  split at h
  · simp at h
  · simp only [Prod.mk.injEq, Option.some.injEq] at h
    obtain ⟨⟨_, rfl⟩, _⟩ := h
    exact ⟨[], rfl, rfl⟩

/-- an opening parenthesis / closing parenthesis with white space -/
theorem wsByte_sound (b : Byte) : TParser.Sound (TParser.lift (ws (byte b)))
    (fun _ t => Padded (· = [b]) t) := TParser.Sound.lift (wsByte_reads b)

theorem sub_sound : ∀ k,
    TParser.Sound (pSubGroup rx k) (fun m t => AtomT (SubText rx E o) ExistsText t (m.eval E o) ∧
      NegT (SubText rx E o) ExistsText t (m.eval E o)) ∧
    TParser.Sound (pSubNot rx k) (fun m t => AtomT (SubText rx E o) ExistsText t (m.eval E o) ∧
      NegT (SubText rx E o) ExistsText t (m.eval E o)) := by
  intro k
  induction k with
  | zero => exact ⟨TParser.Sound.fail, TParser.Sound.fail⟩
  | succ k ih =>
    obtain ⟨ihg, ihn⟩ := ih
    have atoms : TParser.Sound (subAtoms rx (pSubGroup rx k) (pSubNot rx k))
        (fun m t => AtomT (SubText rx E o) ExistsText t (m.eval E o)) :=
      (ihg.mono (fun _ _ h => h.1)).alt ((pSubSingleM_sound rx E o).alt (ihn.mono (fun _ _ h => h.1)))
    constructor
    · rw [pSubGroup]
      have inner : TParser.Sound (TParser.alt
          (composite subSyn (subAtoms rx (pSubGroup rx k) (pSubNot rx k)))
          (TParser.alt (pSubSingleM rx) (TParser.alt (pSubNot rx k) (pSubGroup rx k))))
          (fun m t => OrT (SubText rx E o) ExistsText t (m.eval E o)) :=
        (composite_sound (subSyn_ok E o) atoms).alt
          (((pSubSingleM_sound rx E o).mono (fun _ _ h => AtomT.toOr h)).alt
            ((ihn.mono (fun _ _ h => AtomT.toOr h.1)).alt (ihg.mono (fun _ _ h => AtomT.toOr h.1))))
      refine ((((wsByte_sound 0x28).terminated subInc_sound).delimited inner
        (wsByte_sound 0x29)).map _).mono ?_
      rintro m t ⟨m', rfl, _, _, t1, t2, t3, rfl, ⟨_, u1, u2, rfl, ⟨w1, _, w2, rfl, h1, rfl, h2⟩, rfl⟩,
        h3, ⟨w3, _, w4, rfl, h4, rfl, h5⟩⟩
      rw [SubMatcher.eval_group]
      have h3' := orT_pad h3 h2 h4
      constructor
      · have := AtomT.group h1 h3' h5
        rw [bs_lpar, bs_rpar] at this
        simpa using this
      · have := NegT.group h1 h3' h5
        rw [bs_lpar, bs_rpar] at this
        simpa using this
    · rw [pSubNot]
      have leaf : TParser.Sound (TParser.lift (map SubMatcher.single pSubExists))
          (fun m t => NegT (SubText rx E o) ExistsText t (m.eval E o)) :=
        TParser.Sound.lift (((pSubExists_reads E o).map SubMatcher.single).mono (by
          rintro m t ⟨a, rfl, h⟩
          rw [SubMatcher.eval_single]
          have := NegT.leaf (Single := SubText rx E o) ws_nil h ws_nil
          simpa using this))
      refine (((wsByte_sound 0x21).preceded ((ihg.mono (fun _ _ h => h.2)).alt
        (leaf.alt (ihn.mono (fun _ _ h => h.2))))).map _).mono ?_
      rintro m t ⟨m', rfl, _, t1, t2, rfl, ⟨w1, _, w2, rfl, h1, rfl, h2⟩, h3⟩
      rw [SubMatcher.eval_not]
      have h3' := negT_pad h3 h2 ws_nil
      constructor
      · have := AtomT.not h1 h3' ws_nil
        rw [bs_bang] at this
        simpa using this
      · have := NegT.not h1 h3' ws_nil
        rw [bs_bang] at this
        simpa using this

theorem pSubMatcher_sound : TParser.Sound (pSubMatcher rx)
    (fun m t => SubExprText rx E o t (m.eval E o)) := by
  intro s i m r s' h
  unfold pSubMatcher at h
  simp only at h
  split at h
  · rename_i x s1 hx
    simp only [Prod.mk.injEq, Option.some.injEq] at h
    obtain ⟨rfl, _⟩ := h
    obtain ⟨hg, hn⟩ := sub_sound rx E o (i.length + 1)
    have atoms : TParser.Sound (subAtoms rx (pSubGroup rx (i.length + 1)) (pSubNot rx (i.length + 1)))
        (fun m t => AtomT (SubText rx E o) ExistsText t (m.eval E o)) :=
      (hg.mono (fun _ _ h => h.1)).alt ((pSubSingleM_sound rx E o).alt (hn.mono (fun _ _ h => h.1)))
    have all := (composite_sound (subSyn_ok E o) atoms).alt
      (((pSubSingleM_sound rx E o).mono (fun _ _ h => AtomT.toOr h)).alt
        ((hg.mono (fun _ _ h => AtomT.toOr h.1)).alt (hn.mono (fun _ _ h => AtomT.toOr h.1))))
    exact all _ _ _ _ _ hx
  · simp at h

end sub

/-! ## Field expressions -/

section fld
variable (rx : Bytes → Bool) (E : Env) (o : Opts)

theorem fieldSel_iff {m : TagMatcher} {om : OccMatcher}
    (f : Field) : fieldSel m om f = true ↔ m.isMatch f.tag = true ∧ om.isMatch f.occ = true := by
  simp [fieldSel]

theorem selects_intro {t to : Bytes} {m : TagMatcher} {om : OccMatcher}
    (h1 : TagMatcher.new t = some m) (h2 : OccMatcher.new to = some om) :
    Selects t to (fun f => fieldSel m om f = true) :=
  ⟨m, om, h1, h2, by funext f; simp [fieldSel]⟩

theorem any_sel_truth (m : TagMatcher) (om : OccMatcher) :
    (FieldSingle.exists m om).eval E o = fun fs => truth (∃ f ∈ fs, fieldSel m om f = true) := by
  funext fs
  apply truth_of
  rw [List.any_eq_true]

theorem run_fquant (q : Quantifier) (m : TagMatcher) (om : OccMatcher) (sm : SubMatcher) (raw : Bytes) :
    (FieldSingle.subfields q m om sm raw).eval E o =
      FQuant q (fun f => fieldSel m om f = true) (sm.eval E o) := by
  funext fs
  simp only [FieldSingle.eval]
  induction fs with
  | nil => cases q <;> rfl
  | cons f fs ih =>
    rw [FQuant.eq_def]
    simp only
    by_cases hs : fieldSel m om f = true
    · rw [if_pos hs, List.filter_cons, if_pos hs]
      cases q with
      | any =>
        rw [Quantifier.run, anyP]
        rw [Quantifier.run] at ih
        rw [ih]
        generalize sm.eval E o f.subfields = x
        rcases x with _ | _ | _ <;> rfl
      | all =>
        rw [Quantifier.run, allP]
        rw [Quantifier.run] at ih
        rw [ih]
        generalize sm.eval E o f.subfields = x
        rcases x with _ | _ | _ <;> rfl
    · rw [if_neg hs, List.filter_cons, if_neg hs]
      exact ih

theorem countP_fcount_none (m : TagMatcher) (om : OccMatcher) (fs : List Field) :
    countP (fun f => some (fieldSel m om f)) fs =
    FCount (fun f => fieldSel m om f = true) (fun _ => some true) fs := by
  induction fs with
  | nil => rfl
  | cons f fs ih =>
    rw [countP, FCount, ih]
    by_cases hs : fieldSel m om f = true
    · rw [if_pos hs]
      simp only [hs]
      cases FCount (fun f => fieldSel m om f = true) (fun _ => some true) fs <;> rfl
    · rw [if_neg hs]
      have hs' : fieldSel m om f = false := by simpa using hs
      simp only [hs']
      cases FCount (fun f => fieldSel m om f = true) (fun _ => some true) fs <;> rfl

theorem countP_fcount_some (m : TagMatcher) (om : OccMatcher) (sm : SubMatcher) (fs : List Field) :
    countP (fun f => if fieldSel m om f then sm.eval E o f.subfields else some false) fs =
    FCount (fun f => fieldSel m om f = true) (sm.eval E o) fs := by
  induction fs with
  | nil => rfl
  | cons f fs ih =>
    rw [countP, FCount, ih]
    by_cases hs : fieldSel m om f = true
    · rw [if_pos hs]
      simp only [hs, if_true]
      cases sm.eval E o f.subfields with
      | none => rfl
      | some b =>
        simp only
        cases FCount (fun f => fieldSel m om f = true) (sm.eval E o) fs <;> rfl
    · rw [if_neg hs]
      have hs' : fieldSel m om f = false := by simpa using hs
      simp only [hs', Bool.false_eq_true, if_false]
      cases FCount (fun f => fieldSel m om f = true) (sm.eval E o) fs <;> rfl

/-- what the optional subfield expression of a cardinality matcher says -/
def FieldCard.subDen (m : FieldCard) : Den (List Subfield) :=
  match m.sub with
  | some sm => sm.eval E o
  | none => fun _ => some true

theorem eval_fcard {m : FieldCard} (h : m.op.usizeOk = true) :
    m.eval E o = fun fs => (FCount (fun f => fieldSel m.tag m.occ f = true)
      (m.subDen E o) fs).bind (fun n => truth (NumHolds m.op n m.value)) := by
  funext fs
  rcases m with ⟨tm, om, sm, op, n⟩
  have key : ∀ c : Option Nat, (match c with
      | none => none
      | some k => SubSingle.cardCheck op k n) = c.bind (fun k => truth (NumHolds op k n)) := by
    intro c
    cases c with
    | none => rfl
    | some k => exact cardCheck_some h k n
  cases sm with
  | none =>
    simp only [FieldCard.eval, FieldCard.subDen]
    rw [countP_fcount_none]
    exact key _
  | some sm =>
    simp only [FieldCard.eval, FieldCard.subDen]
    rw [countP_fcount_some]
    exact key _

theorem fieldSyn_ok : SynOk fieldSyn (FieldMatcher.eval E o) where
  opAnd := fun i u r h => by
    obtain ⟨t, rfl, w, _, w', rfl, h1, rfl, h2⟩ := (Reads.lit (bs "&&")).ws _ _ _ h
    exact ⟨w, w', rfl, h1, h2⟩
  opOr := fun i u r h => by
    obtain ⟨t, rfl, w, _, w', rfl, h1, rfl, h2⟩ := (Reads.lit (bs "||")).ws _ _ _ h
    exact ⟨w, w', rfl, h1, h2⟩
  band := FieldMatcher.eval_bitand E o
  bor := FieldMatcher.eval_bitor E o
  bxor := FieldMatcher.eval_bitxor E o

theorem bs_qm : ([0x3F] : Bytes) = bs "?" := by decide +kernel
theorem bs_hash : ([0x23] : Bytes) = bs "#" := by decide +kernel
theorem bs_dot : ([0x2E] : Bytes) = bs "." := by decide +kernel
theorem bs_lbrace : ([0x7B] : Bytes) = bs "{" := by decide +kernel
theorem bs_rbrace : ([0x7D] : Bytes) = bs "}" := by decide +kernel

theorem pFieldExists_reads : Reads pFieldExists (fun m t =>
    FldText rx E o t (m.eval E o) ∧ FldNegText rx E o t (m.eval E o)) := by
  unfold pFieldExists
  refine (((pTagMatcher_reads.seq pOccMatcher_reads).ws.terminated (Reads.byte 0x3F)).map _).mono ?_
  rintro m t ⟨⟨tm, om⟩, rfl, _, t1, t2, rfl, ⟨w, u, w', rfl, h1, ⟨t3, t4, rfl, h2, h3⟩, h4⟩, _, rfl⟩
  rw [any_sel_truth, bs_qm]
  exact ⟨.exists h1 (selects_intro h2 h3) h4, .exists h1 (selects_intro h2 h3) h4⟩

theorem pFieldHead_reads : Reads pFieldHead (fun x t => ∃ tq t1 t2, t = tq ++ t1 ++ t2 ∧
    QuantText false tq x.1 ∧ TagMatcher.new t1 = some x.2.1 ∧ OccMatcher.new t2 = some x.2.2) := by
  unfold pFieldHead
  refine (quant_reads.seq (pTagMatcher_reads.seq pOccMatcher_reads)).mono ?_
  rintro ⟨q, m, om⟩ t ⟨tq, t', rfl, h1, t1, t2, rfl, h2, h3⟩
  exact ⟨tq, t1, t2, by simp, h1, h2, h3⟩

theorem pSubfieldsDot_reads : Reads (pSubfieldsDot rx) (fun m t => FldText rx E o t (m.eval E o)) := by
  unfold pSubfieldsDot
  refine ((pFieldHead_reads.seq ((Reads.byte 0x2E).preceded (pSubSingle_reads rx E o))).withTaken.map _).mono ?_
  rintro m t ⟨⟨⟨⟨q, tm, om⟩, sm⟩, raw⟩, rfl, ⟨t1, t2, rfl, ⟨tq, t3, t4, rfl, h1, h2, h3⟩, _, t5, t6, rfl,
    ⟨_, rfl⟩, h4⟩, -⟩
  rw [run_fquant, SubMatcher.eval_single]
  have := FldText.dot (rx := rx) (E := E) (o := o) h1 (selects_intro h2 h3) ws_nil ws_nil h4
  rw [← bs_dot] at this
  simpa using this

theorem pSubfieldsBracket_sound : TParser.Sound (pSubfieldsBracket rx)
    (fun m t => FldText rx E o t (m.eval E o) ∧ FldNegText rx E o t (m.eval E o)) := by
  unfold pSubfieldsBracket
  refine ((pFieldHead_reads.lift.seq ((wsByte_sound 0x7B).delimited (pSubMatcher_sound rx E o)
    (wsByte_sound 0x7D))).withTaken.map _).mono ?_
  rintro m t ⟨⟨⟨⟨q, tm, om⟩, sm⟩, raw⟩, rfl, ⟨t1, t2, rfl, ⟨tq, t3, t4, rfl, h1, h2, h3⟩, _, _, t5, t6, t7, rfl,
    h4, h5, h6⟩, -⟩
  rw [run_fquant]
  rw [bs_lbrace] at h4
  rw [bs_rbrace] at h6
  constructor
  · have := FldText.braces (rx := rx) (E := E) (o := o) h1 (selects_intro h2 h3) h4 h5 h6
    simpa using this
  · have := FldNegText.braces (rx := rx) (E := E) (o := o) h1 (selects_intro h2 h3) h4 h5 h6
    simpa using this

theorem pFieldSingle_sound : TParser.Sound (pFieldSingle rx)
    (fun m t => FldText rx E o t (m.eval E o)) := by
  unfold pFieldSingle
  exact (((pFieldExists_reads rx E o).mono (fun _ _ h => h.1)).lift).alt
    ((pSubfieldsDot_reads rx E o).lift.alt ((pSubfieldsBracket_sound rx E o).mono (fun _ _ h => h.1)))

theorem pFieldCard_sound : TParser.Sound (pFieldCard rx)
    (fun m t => FldText rx E o t (m.eval E o)) := by
  unfold pFieldCard
  refine (((wsByte_sound 0x23).preceded (pTagMatcher_reads.ws.lift.seq (pOccMatcher_reads.ws.lift.seq
    ((((wsByte_sound 0x7B).delimited (pSubMatcher_sound rx E o) (wsByte_sound 0x7D)).opt).seq
      ((pRelOp_reads.padded.verify _).seq pUsize_reads).lift)))).withTaken.map _).mono ?_
  rintro m t ⟨⟨⟨tm, om, sm, op, n⟩, raw⟩, rfl, ⟨_, t1, t2, rfl, h1, t3, t4, rfl,
    ⟨w1, u1, w2, rfl, h2, h3, h4⟩, t5, t6, rfl, ⟨w3, u2, w4, rfl, h5, h6, h7⟩, t7, t8, rfl, h8,
    t9, t10, rfl, ⟨h9, h10⟩, h11, h12, h13, h14⟩, -⟩
  simp only at h1 h2 h3 h4 h5 h6 h7 h8 h9 h10 h11 h12 h13 h14 ⊢
  rw [eval_fcard E o (m := ⟨tm, om, sm, op, n, raw⟩) h10]
  rw [bs_hash] at h1
  cases sm with
  | none =>
    simp only at h8
    subst h8
    simp only [h13, FieldCard.subDen]
    have := FldText.card (rx := rx) (E := E) (o := o) h1 h2 (selects_intro h3 h6) h4 h5 h7 h9
      (usizeOk_iff.1 h10) h11 h12 h14
    simpa using this
  | some sm =>
    simp only at h8
    obtain ⟨_, _, t11, t12, t13, rfl, h15, h16, h17⟩ := h8
    rw [bs_lbrace] at h15
    rw [bs_rbrace] at h17
    simp only [h13, FieldCard.subDen]
    have := FldText.cardSub (rx := rx) (E := E) (o := o) h1 h2 (selects_intro h3 h6) h4 h5 h7 h15 h16
      h17 h9 (usizeOk_iff.1 h10) h11 h12 h14
    simpa using this

theorem quantPlain_reads : Reads (map Quantifier.orDefault (opt pQuantifier))
    (fun q t => QuantText false t q) :=
  (pQuantifier_reads.opt.map _).mono (by
    rintro q t ⟨o, rfl, ⟨a, rfl, h2⟩ | ⟨rfl, rfl⟩⟩
    · rcases h2 with ⟨rfl, rfl⟩ | ⟨rfl, rfl⟩
      · have := QuantText.all (sp := false) ws_nil ws_nil (by simp)
        simpa [Quantifier.orDefault] using this
      · have := QuantText.any (sp := false) ws_nil ws_nil (by simp)
        simpa [Quantifier.orDefault] using this
    · exact .none)

theorem pFieldExistsM_reads : Reads pFieldExistsM (fun m t =>
    FldText rx E o t (m.eval E o) ∧ FldNegText rx E o t (m.eval E o)) := by
  unfold pFieldExistsM
  refine (((pFieldExists_reads rx E o).map FieldMatcher.single).alt
    ((quantPlain_reads.seq (pTagMatcher_reads.seq (pOccMatcher_reads.seq
      ((wsByte_reads 0x2E).preceded (pSubExists_reads E o))))).withTaken.map _)).mono ?_
  rintro m t (⟨a, rfl, h⟩ | ⟨⟨⟨q, tm, om, sm⟩, raw⟩, rfl, ⟨tq, t2, rfl, h1, t3, t4, rfl, h2, t5, t6, rfl, h3,
    _, t7, t8, rfl, ⟨w, _, w', rfl, h4, rfl, h5⟩, h6⟩, -⟩)
  · rw [FieldMatcher.eval_single]; exact h
  · rw [FieldMatcher.eval_single, run_fquant, SubMatcher.eval_single, bs_dot]
    constructor
    · have := FldText.dot (rx := rx) (E := E) (o := o) h1 (selects_intro h2 h3) h4 h5
        (existsText_subText rx E o h6)
      simpa using this
    · have := FldNegText.dot (rx := rx) (E := E) (o := o) h1 (selects_intro h2 h3) h4 h5 h6
      simpa using this

theorem AtomT.ofSingle {X : Type} {Single Neg : Bytes → Den X → Prop} {t v} (h : Single t v) :
    AtomT Single Neg t v := by
  have := AtomT.single (Neg := Neg) ws_nil h ws_nil
  simpa using this

theorem NegT.ofLeaf {X : Type} {Single Neg : Bytes → Den X → Prop} {t v} (h : Neg t v) :
    NegT Single Neg t v := by
  have := NegT.leaf (Single := Single) ws_nil h ws_nil
  simpa using this

theorem pFieldSingleM_sound : TParser.Sound (pFieldSingleM rx)
    (fun m t => AtomT (FldText rx E o) (FldNegText rx E o) t (m.eval E o)) :=
  ((pFieldSingle_sound rx E o).map _).mono (by
    rintro m t ⟨a, rfl, h⟩
    rw [FieldMatcher.eval_single]
    exact AtomT.ofSingle h)

theorem pFieldCardM_sound : TParser.Sound (pFieldCardM rx)
    (fun m t => AtomT (FldText rx E o) (FldNegText rx E o) t (m.eval E o)) :=
  ((pFieldCard_sound rx E o).map _).mono (by
    rintro m t ⟨a, rfl, h⟩
    rw [FieldMatcher.eval_card]
    exact AtomT.ofSingle h)

theorem fldInc_sound : TParser.Sound fldInc (fun _ t => t = []) := by
  intro s i a r s' h
  simp only [fldInc] at h
  split at h
  · simp at h
  · simp only [Prod.mk.injEq, Option.some.injEq] at h
    obtain ⟨⟨_, rfl⟩, _⟩ := h
    exact ⟨[], rfl, rfl⟩

theorem fieldAtoms_sound {g n : TParser FieldMatcher}
    (hg : TParser.Sound g (fun m t => AtomT (FldText rx E o) (FldNegText rx E o) t (m.eval E o)))
    (hn : TParser.Sound n (fun m t => AtomT (FldText rx E o) (FldNegText rx E o) t (m.eval E o))) :
    TParser.Sound (fieldAtoms rx g n)
      (fun m t => AtomT (FldText rx E o) (FldNegText rx E o) t (m.eval E o)) :=
  hg.alt ((pFieldCardM_sound rx E o).alt ((pFieldSingleM_sound rx E o).alt (hn.alt
    (((pFieldExistsM_reads rx E o).mono (fun _ _ h => AtomT.ofSingle h.1)).lift))))

theorem fld_sound : ∀ k,
    TParser.Sound (pFieldGroup rx k)
      (fun m t => AtomT (FldText rx E o) (FldNegText rx E o) t (m.eval E o) ∧
        NegT (FldText rx E o) (FldNegText rx E o) t (m.eval E o)) ∧
    TParser.Sound (pFieldNot rx k)
      (fun m t => AtomT (FldText rx E o) (FldNegText rx E o) t (m.eval E o) ∧
        NegT (FldText rx E o) (FldNegText rx E o) t (m.eval E o)) := by
  intro k
  induction k with
  | zero => exact ⟨TParser.Sound.fail, TParser.Sound.fail⟩
  | succ k ih =>
    obtain ⟨ihg, ihn⟩ := ih
    have atoms := fieldAtoms_sound rx E o (ihg.mono (fun _ _ h => h.1)) (ihn.mono (fun _ _ h => h.1))
    constructor
    · rw [pFieldGroup]
      have inner : TParser.Sound (TParser.alt
          (composite fieldSyn (fieldAtoms rx (pFieldGroup rx k) (pFieldNot rx k)))
          (TParser.alt (pFieldSingleM rx) (TParser.alt (pFieldNot rx k)
            (TParser.alt (pFieldCardM rx) (pFieldGroup rx k)))))
          (fun m t => FldExprText rx E o t (m.eval E o)) :=
        (composite_sound (fieldSyn_ok E o) atoms).alt
          (((pFieldSingleM_sound rx E o).mono (fun _ _ h => AtomT.toOr h)).alt
            ((ihn.mono (fun _ _ h => AtomT.toOr h.1)).alt
              (((pFieldCardM_sound rx E o).mono (fun _ _ h => AtomT.toOr h)).alt
                (ihg.mono (fun _ _ h => AtomT.toOr h.1)))))
      refine ((((wsByte_sound 0x28).terminated fldInc_sound).delimited inner
        ((wsByte_sound 0x29).terminated (TParser.Sound.update fldDec))).map _).mono ?_
      rintro m t ⟨m', rfl, _, _, t1, t2, t3, rfl, ⟨_, u1, u2, rfl, ⟨w1, _, w2, rfl, h1, rfl, h2⟩, rfl⟩,
        h3, ⟨_, u3, u4, rfl, ⟨w3, _, w4, rfl, h4, rfl, h5⟩, rfl⟩⟩
      rw [FieldMatcher.eval_group]
      have h3' := orT_pad h3 h2 h4
      constructor
      · have := AtomT.group h1 h3' h5
        rw [bs_lpar, bs_rpar] at this
        simpa using this
      · have := NegT.group h1 h3' h5
        rw [bs_lpar, bs_rpar] at this
        simpa using this
    · rw [pFieldNot]
      have leaf1 : TParser.Sound (TParser.map FieldMatcher.single (pSubfieldsBracket rx))
          (fun m t => NegT (FldText rx E o) (FldNegText rx E o) t (m.eval E o)) :=
        ((pSubfieldsBracket_sound rx E o).map _).mono (by
          rintro m t ⟨a, rfl, h⟩
          rw [FieldMatcher.eval_single]
          exact NegT.ofLeaf h.2)
      have leaf2 : TParser.Sound (TParser.lift pFieldExistsM)
          (fun m t => NegT (FldText rx E o) (FldNegText rx E o) t (m.eval E o)) :=
        ((pFieldExistsM_reads rx E o).mono (fun _ _ h => NegT.ofLeaf h.2)).lift
      refine (((wsByte_sound 0x21).preceded ((ihg.mono (fun _ _ h => h.2)).alt
        (leaf1.alt (leaf2.alt (ihn.mono (fun _ _ h => h.2)))))).map _).mono ?_
      rintro m t ⟨m', rfl, _, t1, t2, rfl, ⟨w1, _, w2, rfl, h1, rfl, h2⟩, h3⟩
      rw [FieldMatcher.eval_not]
      have h3' := negT_pad h3 h2 ws_nil
      constructor
      · have := AtomT.not h1 h3' ws_nil
        rw [bs_bang] at this
        simpa using this
      · have := NegT.not h1 h3' ws_nil
        rw [bs_bang] at this
        simpa using this

theorem pFieldMatcher_sound : TParser.Sound (pFieldMatcher rx)
    (fun m t => FldExprText rx E o t (m.eval E o)) := by
  intro s i m r s' h
  unfold pFieldMatcher at h
  simp only at h
  split at h
  · rename_i x s1 hx
    simp only [Prod.mk.injEq, Option.some.injEq] at h
    obtain ⟨rfl, _⟩ := h
    obtain ⟨hg, hn⟩ := fld_sound rx E o (i.length + 1)
    have atoms := fieldAtoms_sound rx E o (hg.mono (fun _ _ h => h.1)) (hn.mono (fun _ _ h => h.1))
    have all := (composite_sound (fieldSyn_ok E o) atoms).alt
      ((hg.mono (fun _ _ h => AtomT.toOr h.1)).alt ((hn.mono (fun _ _ h => AtomT.toOr h.1)).alt
        (((pFieldSingleM_sound rx E o).mono (fun _ _ h => AtomT.toOr h)).alt
          ((pFieldCardM_sound rx E o).mono (fun _ _ h => AtomT.toOr h)))))
    obtain ⟨t, h1, w, u, w', rfl, h2, h3, h4⟩ := tws_sound all _ _ _ _ _ hx
    exact ⟨_, h1, orT_pad h3 h2 h4⟩
  · simp at h

end fld

end Pica
