import Verif.Lemmas.Display

/-! Matchers made by the parsers and the operators print to texts with the same
meaning. -/

namespace Pica
open Spec Parser

/-! ## Subfield matchers -/

section sub
variable (rx : Bytes → Bool) (E : Env) (o : Opts)

/-- the printed text denotes the matcher, at the level of its outermost operator -/
def SubOk (m : SubMatcher) : Prop :=
  match m with
  | .single s => SubText rx E o s.display (s.eval E o) ∧
      ((∃ c raw, s = .exists c raw) → ExistsText s.display (s.eval E o))
  | .group _ | .not _ => AtomT (SubText rx E o) ExistsText m.display (m.eval E o) ∧
      NegT (SubText rx E o) ExistsText m.display (m.eval E o)
  | .comp _ .and _ => AndT (SubText rx E o) ExistsText m.display (m.eval E o)
  | .comp _ .xor _ => XorT (SubText rx E o) ExistsText m.display (m.eval E o)
  | .comp _ .or _ => OrT (SubText rx E o) ExistsText m.display (m.eval E o)

variable {rx E o}

theorem SubOk.toOr {m : SubMatcher} (h : SubOk rx E o m) :
    OrT (SubText rx E o) ExistsText m.display (m.eval E o) := by
  rcases m with s | m | m | ⟨l, _ | _ | _, r⟩
  · rw [SubMatcher.eval_single]; exact AtomT.toOr (AtomT.ofSingle h.1)
  · exact AtomT.toOr h.1
  · exact AtomT.toOr h.1
  · exact .one (.one h)
  · exact h
  · exact .one h

theorem SubOk.group {m : SubMatcher} (h : SubOk rx E o m) : SubOk rx E o (.group m) := by
  have := groupT h.toOr
  simp only [SubOk, SubMatcher.display]
  rw [SubMatcher.eval_group]
  exact this

theorem SubOk.groupOrXor {m : SubMatcher} (h : SubOk rx E o m) :
    AndT (SubText rx E o) ExistsText m.groupOrXor.display (m.groupOrXor.eval E o) := by
  rcases m with s | m | m | ⟨l, _ | _ | _, r⟩
  · simp only [SubMatcher.groupOrXor]
    rw [SubMatcher.eval_single]; exact .one (AtomT.ofSingle h.1)
  · exact .one h.1
  · exact .one h.1
  · exact h
  · exact .one h.group.1
  · exact .one h.group.1

theorem SubOk.groupOr {m : SubMatcher} (h : SubOk rx E o m) :
    XorT (SubText rx E o) ExistsText m.groupOr.display (m.groupOr.eval E o) := by
  rcases m with s | m | m | ⟨l, _ | _ | _, r⟩
  · simp only [SubMatcher.groupOr]
    rw [SubMatcher.eval_single]; exact .one (.one (AtomT.ofSingle h.1))
  · exact .one (.one h.1)
  · exact .one (.one h.1)
  · exact .one h
  · exact .one (.one h.group.1)
  · exact h

theorem SubOk.bitand {a b : SubMatcher} (ha : SubOk rx E o a) (hb : SubOk rx E o b) :
    SubOk rx E o (a.bitand b) := by
  have := andT_spaced ha.groupOrXor hb.groupOrXor
  have e := SubMatcher.eval_bitand E o a b
  rw [SubMatcher.eval_groupOrXor, SubMatcher.eval_groupOrXor, ← e] at this
  exact this

theorem SubOk.bitxor {a b : SubMatcher} (ha : SubOk rx E o a) (hb : SubOk rx E o b) :
    SubOk rx E o (a.bitxor b) := by
  have := xorT_spaced ha.groupOr hb.groupOr
  have e := SubMatcher.eval_bitxor E o a b
  rw [SubMatcher.eval_groupOr, SubMatcher.eval_groupOr, ← e] at this
  exact this

theorem SubOk.bitor {a b : SubMatcher} (ha : SubOk rx E o a) (hb : SubOk rx E o b) :
    SubOk rx E o (a.bitor b) := by
  have := orT_spaced ha.toOr hb.toOr
  have e := SubMatcher.eval_bitor E o a b
  rw [← e] at this
  exact this

theorem subOk_not {m : SubMatcher}
    (h : NegT (SubText rx E o) ExistsText m.display (m.eval E o)) : SubOk rx E o (.not m) := by
  have := notT h
  rw [← SubMatcher.eval_not] at this
  exact this

theorem SubOk.bitnot {a : SubMatcher} (h : SubOk rx E o a) : SubOk rx E o a.bitnot := by
  unfold SubMatcher.bitnot
  split
  · rename_i c raw
    refine subOk_not ?_
    rw [SubMatcher.eval_single]
    exact NegT.ofLeaf (h.2 ⟨c, raw, rfl⟩)
  · exact subOk_not h.2
  · exact subOk_not h.2
  · exact subOk_not h.group.2

variable (rx E o)

theorem pSubSingle_ok : Reads (pSubSingle rx) (fun m t => SubText rx E o t (m.eval E o) ∧
    SubText rx E o m.display (m.eval E o) ∧
    ((∃ c raw, m = .exists c raw) → m.display = t ∧ ExistsText t (m.eval E o))) := by
  intro i m r h
  obtain ⟨t, rfl, h1⟩ := pSubSingle_reads rx E o _ _ _ h
  obtain ⟨h2, h3⟩ := pSubSingle_raw h rfl
  refine ⟨t, rfl, h1, ?_, fun hm => ?_⟩
  · rcases h2 with h2 | h2
    · rw [h2]; exact h1
    · rw [h2]; exact subText_trim rx E o h1
  · obtain ⟨h4, h5⟩ := h3 hm
    obtain ⟨t', e, h6⟩ := pSubExists_reads E o _ _ _ h5
    obtain rfl := List.append_cancel_right e
    exact ⟨h4, h6⟩

theorem pSubExists_ok : Reads pSubExists (fun m t => m.display = t ∧ ExistsText t (m.eval E o)) := by
  intro i m r h
  obtain ⟨t, rfl, h1⟩ := pSubExists_reads E o _ _ _ h
  obtain ⟨x, rfl⟩ := raw_of_taken h rfl
  exact ⟨t, rfl, rfl, h1⟩

theorem pSubSingleM_ok : TParser.Sound (pSubSingleM rx) (fun m _ => SubOk rx E o m) :=
  TParser.Sound.lift (((pSubSingle_ok rx E o).map SubMatcher.single).mono (by
    rintro m t ⟨a, rfl, -, h2, h3⟩
    refine ⟨h2, fun hm => ?_⟩
    obtain ⟨h4, h5⟩ := h3 hm
    rw [h4]; exact h5))

/-- the operators of the parsers preserve a property of matchers -/
structure SynKeeps {M : Type} (S : Syn M) (P : M → Prop) : Prop where
  opAnd : ∀ i u r, S.opAnd i = some (u, r) → ∃ t, i = t ++ r
  opOr : ∀ i u r, S.opOr i = some (u, r) → ∃ t, i = t ++ r
  band : ∀ a b, P a → P b → P (S.band a b)
  bor : ∀ a b, P a → P b → P (S.bor a b)
  bxor : ∀ a b, P a → P b → P (S.bxor a b)

theorem chain_keeps {M : Type} {op : Parser Unit} {atom : TParser M} {f : M → M → M} {P : M → Prop}
    (hP : TParser.Sound atom (fun m _ => P m)) (hO : ∀ i u r, op i = some (u, r) → ∃ t, i = t ++ r)
    (hf : ∀ a b, P a → P b → P (f a b)) : TParser.Sound (chain op atom f) (fun m _ => P m) :=
  chain_sound (O := fun _ => True) (P := fun m _ => P m) (Q := fun m _ => P m) hP
    (fun i u r h => by obtain ⟨t, h⟩ := hO i u r h; exact ⟨t, h, trivial⟩) (fun _ _ h => h)
    (fun m _ _ m' _ h _ h' => hf m m' h h')

theorem composite_keeps {M : Type} {S : Syn M} {atoms : TParser M} {P : M → Prop} (hS : SynKeeps S P)
    (hA : TParser.Sound atoms (fun m _ => P m)) :
    TParser.Sound (composite S atoms) (fun m _ => P m) := by
  have tw : ∀ {p : TParser M}, TParser.Sound p (fun m _ => P m) → TParser.Sound (tws p) (fun m _ => P m) :=
    fun h => (tws_sound h).mono (by rintro m t ⟨w, u, w', -, -, h, -⟩; exact h)
  have h1 : TParser.Sound (andChain S atoms) (fun m _ => P m) := chain_keeps (tw hA) hS.opAnd hS.band
  have h2 : TParser.Sound (xorChain S atoms) (fun m _ => P m) :=
    chain_keeps (tw (h1.alt hA)) (fun i u r h => by
      obtain ⟨t, h, -⟩ := xorOp_sound i u r h; exact ⟨t, h⟩) hS.bxor
  have h3 : TParser.Sound (orChain S atoms) (fun m _ => P m) :=
    chain_keeps (tw (h1.alt (h2.alt hA))) hS.opOr hS.bor
  exact h3.alt (h2.alt h1)

theorem subSyn_keeps : SynKeeps subSyn (SubOk rx E o) where
  opAnd := fun i u r h => ⟨_, lit_eq_some.1 h⟩
  opOr := fun i u r h => ⟨_, lit_eq_some.1 h⟩
  band := fun _ _ h h' => h.bitand h'
  bor := fun _ _ h h' => h.bitor h'
  bxor := fun _ _ h h' => h.bitxor h'

theorem sub_ok : ∀ k,
    TParser.Sound (pSubGroup rx k) (fun m _ => SubOk rx E o m ∧
      NegT (SubText rx E o) ExistsText m.display (m.eval E o)) ∧
    TParser.Sound (pSubNot rx k) (fun m _ => SubOk rx E o m ∧
      NegT (SubText rx E o) ExistsText m.display (m.eval E o)) := by
  intro k
  induction k with
  | zero => exact ⟨TParser.Sound.fail, TParser.Sound.fail⟩
  | succ k ih =>
    obtain ⟨ihg, ihn⟩ := ih
    have ihg1 := ihg.mono (R' := fun m _ => SubOk rx E o m) (fun _ _ h => h.1)
    have ihn1 := ihn.mono (R' := fun m _ => SubOk rx E o m) (fun _ _ h => h.1)
    have atoms : TParser.Sound (subAtoms rx (pSubGroup rx k) (pSubNot rx k)) (fun m _ => SubOk rx E o m) :=
      ihg1.alt ((pSubSingleM_ok rx E o).alt ihn1)
    constructor
    · rw [pSubGroup]
      have inner := (composite_keeps (subSyn_keeps rx E o) atoms).alt
          ((pSubSingleM_ok rx E o).alt (ihn1.alt ihg1))
      refine ((((wsByte_sound 0x28).terminated subInc_sound).delimited inner
        (wsByte_sound 0x29)).map _).mono ?_
      rintro m t ⟨m', rfl, _, _, t1, t2, t3, -, -, h3, -⟩
      exact ⟨h3.group, h3.group.2⟩
    · rw [pSubNot]
      have leaf : TParser.Sound (TParser.lift (map SubMatcher.single pSubExists))
          (fun m _ => NegT (SubText rx E o) ExistsText m.display (m.eval E o)) :=
        TParser.Sound.lift (((pSubExists_ok E o).map SubMatcher.single).mono (by
          rintro m t ⟨a, rfl, h1, h2⟩
          rw [SubMatcher.eval_single]
          simp only [SubMatcher.display]
          rw [h1]
          exact NegT.ofLeaf h2))
      refine (((wsByte_sound 0x21).preceded ((ihg.mono
        (R' := fun m _ => NegT (SubText rx E o) ExistsText m.display (m.eval E o)) (fun _ _ h => h.2)).alt
        (leaf.alt (ihn.mono (fun _ _ h => h.2))))).map _).mono ?_
      rintro m t ⟨m', rfl, _, t1, t2, -, -, h3⟩
      exact ⟨subOk_not h3, (subOk_not h3).2⟩

theorem pSubMatcher_ok : TParser.Sound (pSubMatcher rx) (fun m _ => SubOk rx E o m) := by
  intro s i m r s' h
  unfold pSubMatcher at h
  simp only at h
  split at h
  · rename_i x s1 hx
    simp only [Prod.mk.injEq, Option.some.injEq] at h
    obtain ⟨rfl, _⟩ := h
    obtain ⟨hg, hn⟩ := sub_ok rx E o (i.length + 1)
    have hg1 := hg.mono (R' := fun m _ => SubOk rx E o m) (fun _ _ h => h.1)
    have hn1 := hn.mono (R' := fun m _ => SubOk rx E o m) (fun _ _ h => h.1)
    have atoms : TParser.Sound (subAtoms rx (pSubGroup rx (i.length + 1)) (pSubNot rx (i.length + 1)))
        (fun m _ => SubOk rx E o m) := hg1.alt ((pSubSingleM_ok rx E o).alt hn1)
    exact ((composite_keeps (subSyn_keeps rx E o) atoms).alt
      ((pSubSingleM_ok rx E o).alt (hg1.alt hn1))) _ _ _ _ _ hx
  · simp at h

theorem subMatcher_new_ok {rx : Bytes → Bool} {s s' : Levels} {t : Bytes} {m : SubMatcher}
    (h : SubMatcher.new rx s t = (some m, s')) : SubOk rx E o m := by
  unfold SubMatcher.new TParser.parseAll at h
  split at h
  · rename_i a s1 hp
    simp only [Prod.mk.injEq, Option.some.injEq] at h
    obtain ⟨rfl, -⟩ := h
    obtain ⟨_, -, h⟩ := pSubMatcher_ok rx E o _ _ _ _ _ hp
    exact h
  · simp at h

end sub

/-! ## Field matchers -/

section fld
variable (rx : Bytes → Bool) (E : Env) (o : Opts)

/-- as `SubOk`, for field matchers -/
def FldOk (m : FieldMatcher) : Prop :=
  match m with
  | .single s => FldText rx E o s.display (s.eval E o) ∧
      ((∃ q t oc c raw raw', s = .subfields q t oc (.single (.exists c raw)) raw') →
        FldNegText rx E o s.display (s.eval E o))
  | .card c => FldText rx E o c.raw (c.eval E o)
  | .group _ | .not _ => AtomT (FldText rx E o) (FldNegText rx E o) m.display (m.eval E o) ∧
      NegT (FldText rx E o) (FldNegText rx E o) m.display (m.eval E o)
  | .comp _ .and _ => AndT (FldText rx E o) (FldNegText rx E o) m.display (m.eval E o)
  | .comp _ .xor _ => XorT (FldText rx E o) (FldNegText rx E o) m.display (m.eval E o)
  | .comp _ .or _ => OrT (FldText rx E o) (FldNegText rx E o) m.display (m.eval E o)

variable {rx E o}

theorem FldOk.toOr {m : FieldMatcher} (h : FldOk rx E o m) :
    OrT (FldText rx E o) (FldNegText rx E o) m.display (m.eval E o) := by
  rcases m with s | c | m | m | ⟨l, _ | _ | _, r⟩
  · rw [FieldMatcher.eval_single]; exact AtomT.toOr (AtomT.ofSingle h.1)
  · rw [FieldMatcher.eval_card]; exact AtomT.toOr (AtomT.ofSingle h)
  · exact AtomT.toOr h.1
  · exact AtomT.toOr h.1
  · exact .one (.one h)
  · exact h
  · exact .one h

theorem FldOk.group {m : FieldMatcher} (h : FldOk rx E o m) : FldOk rx E o (.group m) := by
  have := groupT h.toOr
  simp only [FldOk, FieldMatcher.display]
  rw [FieldMatcher.eval_group]
  exact this

theorem FldOk.groupOrXor {m : FieldMatcher} (h : FldOk rx E o m) :
    AndT (FldText rx E o) (FldNegText rx E o) m.groupOrXor.display (m.groupOrXor.eval E o) := by
  rcases m with s | c | m | m | ⟨l, _ | _ | _, r⟩
  · simp only [FieldMatcher.groupOrXor]
    rw [FieldMatcher.eval_single]; exact .one (AtomT.ofSingle h.1)
  · simp only [FieldMatcher.groupOrXor]
    rw [FieldMatcher.eval_card]; exact .one (AtomT.ofSingle h)
  · exact .one h.1
  · exact .one h.1
  · exact h
  · exact .one h.group.1
  · exact .one h.group.1

theorem FldOk.groupOr {m : FieldMatcher} (h : FldOk rx E o m) :
    XorT (FldText rx E o) (FldNegText rx E o) m.groupOr.display (m.groupOr.eval E o) := by
  rcases m with s | c | m | m | ⟨l, _ | _ | _, r⟩
  · simp only [FieldMatcher.groupOr]
    rw [FieldMatcher.eval_single]; exact .one (.one (AtomT.ofSingle h.1))
  · simp only [FieldMatcher.groupOr]
    rw [FieldMatcher.eval_card]; exact .one (.one (AtomT.ofSingle h))
  · exact .one (.one h.1)
  · exact .one (.one h.1)
  · exact .one h
  · exact .one (.one h.group.1)
  · exact h

theorem FldOk.bitand {a b : FieldMatcher} (ha : FldOk rx E o a) (hb : FldOk rx E o b) :
    FldOk rx E o (a.bitand b) := by
  have := andT_spaced ha.groupOrXor hb.groupOrXor
  have e := FieldMatcher.eval_bitand E o a b
  rw [FieldMatcher.eval_groupOrXor, FieldMatcher.eval_groupOrXor, ← e] at this
  exact this

theorem FldOk.bitxor {a b : FieldMatcher} (ha : FldOk rx E o a) (hb : FldOk rx E o b) :
    FldOk rx E o (a.bitxor b) := by
  have := xorT_spaced ha.groupOr hb.groupOr
  have e := FieldMatcher.eval_bitxor E o a b
  rw [FieldMatcher.eval_groupOr, FieldMatcher.eval_groupOr, ← e] at this
  exact this

theorem FldOk.bitor {a b : FieldMatcher} (ha : FldOk rx E o a) (hb : FldOk rx E o b) :
    FldOk rx E o (a.bitor b) := by
  have := orT_spaced ha.toOr hb.toOr
  have e := FieldMatcher.eval_bitor E o a b
  rw [← e] at this
  exact this

theorem fldOk_not {m : FieldMatcher}
    (h : NegT (FldText rx E o) (FldNegText rx E o) m.display (m.eval E o)) : FldOk rx E o (.not m) := by
  have := notT h
  rw [← FieldMatcher.eval_not] at this
  exact this

theorem FldOk.bitnot {a : FieldMatcher} (h : FldOk rx E o a) : FldOk rx E o a.bitnot := by
  unfold FieldMatcher.bitnot
  split
  · refine fldOk_not ?_
    rw [FieldMatcher.eval_single]
    exact NegT.ofLeaf (h.2 ⟨_, _, _, _, _, _, rfl⟩)
  · exact fldOk_not h.2
  · exact fldOk_not h.2
  · exact fldOk_not h.group.2

variable (rx E o)

theorem pFieldExists_ok : Reads pFieldExists (fun m _ => FldText rx E o m.display (m.eval E o) ∧
    FldNegText rx E o m.display (m.eval E o) ∧ ∃ t oc, m = .exists t oc) := by
  unfold pFieldExists
  refine (((pTagMatcher_reads.seq pOccMatcher_reads).ws.terminated (Reads.byte 0x3F)).map _).mono ?_
  rintro m t ⟨⟨tm, om⟩, rfl, _, t1, t2, rfl, ⟨w, u, w', rfl, h1, ⟨t3, t4, rfl, h2, h3⟩, h4⟩, _, rfl⟩
  rw [any_sel_truth]
  simp only at h2 h3
  have e := tag_display h2
  obtain ⟨-, h5⟩ := occ_display h3
  rw [← e] at h2
  simp only [FieldSingle.display]
  have h6 := FldText.exists (rx := rx) (E := E) (o := o) ws_nil (selects_intro h2 h5) ws_nil
  have h7 := FldNegText.exists (rx := rx) (E := E) (o := o) ws_nil (selects_intro h2 h5) ws_nil
  simp only [List.nil_append, List.append_nil] at h6 h7
  exact ⟨h6, h7, tm, om, rfl⟩

theorem pSubfieldsDot_ok : Reads (pSubfieldsDot rx) (fun m _ => FldText rx E o m.display (m.eval E o) ∧
    ((∃ q t oc c raw raw', m = .subfields q t oc (.single (.exists c raw)) raw') →
      FldNegText rx E o m.display (m.eval E o))) := by
  unfold pSubfieldsDot
  refine ((pFieldHead_reads.seq ((Reads.byte 0x2E).preceded (pSubSingle_ok rx E o))).withTaken.map _).mono ?_
  rintro m t ⟨⟨⟨⟨q, tm, om⟩, sm⟩, raw⟩, rfl, ⟨t1, t2, rfl, ⟨tq, t3, t4, rfl, h1, h2, h3⟩, _, t5, t6, rfl,
    ⟨_, rfl⟩, h4, h5, h6⟩, hraw⟩
  simp only at h1 h2 h3 h4 h5 h6 hraw
  subst hraw
  simp only [FieldSingle.display]
  rw [run_fquant, SubMatcher.eval_single]
  obtain ⟨u, w, rfl, g1, g2, g3⟩ := subText_right rx E o h4
  have e : trimEndAscii (tq ++ t3 ++ t4 ++ ([0x2E] ++ (u ++ w))) = tq ++ t3 ++ t4 ++ bs "." ++ u := by
    have := trimEnd_solid (g3.append (tq ++ t3 ++ t4 ++ bs ".")) g1
    rw [← bs_dot] at this ⊢
    simpa using this
  rw [e]
  constructor
  · have := FldText.dot (rx := rx) (E := E) (o := o) h1 (selects_intro h2 h3) ws_nil ws_nil g2
    simpa using this
  · rintro ⟨q', t', oc', c, raw, raw', he⟩
    simp only [FieldSingle.subfields.injEq, SubMatcher.single.injEq] at he
    obtain ⟨-, -, -, hs, -⟩ := he
    obtain ⟨-, h7⟩ := h6 ⟨c, raw, hs⟩
    have hw : w = [] := by
      obtain ⟨x, b, e1, hb⟩ := existsText_right h7
      rcases List.eq_nil_or_concat w with rfl | ⟨w', c', rfl⟩
      · rfl
      · rw [List.concat_eq_append, ← List.append_assoc] at e1
        obtain ⟨-, e2⟩ := List.append_inj' e1 rfl
        simp only [List.cons.injEq, and_true] at e2
        have := (isMultispace_iff c').2 (g1 c' (by simp))
        rw [e2, hb] at this
        cases this
    subst hw
    rw [List.append_nil] at h7
    have := FldNegText.dot (rx := rx) (E := E) (o := o) h1 (selects_intro h2 h3) ws_nil ws_nil h7
    simpa using this

theorem traw_of_taken {α β : Type} {f : α × Bytes → β} {q : TParser α} {s s' : Levels} {i t r : Bytes}
    {m : β} (h : TParser.map f (TParser.withTaken q) s i = (some (m, r), s')) (hi : i = t ++ r) :
    ∃ x, m = f (x, t) := by
  unfold TParser.map TParser.withTaken at h
  cases hq : q s i with
  | mk a s1 =>
    rw [hq] at h
    rcases a with _ | ⟨a, r1⟩
    · simp at h
    · simp only [Prod.mk.injEq, Option.some.injEq] at h
      obtain ⟨⟨rfl, rfl⟩, -⟩ := h
      subst hi
      exact ⟨a, by simp⟩

theorem pSubfieldsBracket_ok : TParser.Sound (pSubfieldsBracket rx)
    (fun m _ => FldText rx E o m.display (m.eval E o) ∧ FldNegText rx E o m.display (m.eval E o)) := by
  intro s i m r s' h
  obtain ⟨t, rfl, h1⟩ := pSubfieldsBracket_sound rx E o _ _ _ _ _ h
  obtain ⟨x, rfl⟩ := traw_of_taken h rfl
  exact ⟨t, rfl, h1⟩

theorem pFieldCardM_ok : TParser.Sound (pFieldCardM rx) (fun m _ => FldOk rx E o m) := by
  have : TParser.Sound (pFieldCard rx) (fun m _ => FldText rx E o m.raw (m.eval E o)) := by
    intro s i m r s' h
    obtain ⟨t, rfl, h1⟩ := pFieldCard_sound rx E o _ _ _ _ _ h
    obtain ⟨x, rfl⟩ := traw_of_taken h rfl
    exact ⟨t, rfl, h1⟩
  exact (this.map _).mono (by
    rintro m t ⟨a, rfl, h⟩
    exact h)

theorem pFieldExistsM_ok : Reads pFieldExistsM (fun m _ => FldOk rx E o m ∧
    NegT (FldText rx E o) (FldNegText rx E o) m.display (m.eval E o)) := by
  intro i m r h
  obtain ⟨t, rfl, h1, h2⟩ := pFieldExistsM_reads rx E o _ _ _ h
  refine ⟨t, rfl, ?_⟩
  unfold pFieldExistsM at h
  rcases alt_eq_some.1 h with h | ⟨-, h⟩
  · obtain ⟨a, h3, rfl⟩ := map_eq_some.1 h
    obtain ⟨_, -, h4, h5, tm, om, rfl⟩ := pFieldExists_ok rx E o _ _ _ h3
    refine ⟨⟨h4, by rintro ⟨_, _, _, _, _, _, h⟩; cases h⟩, ?_⟩
    rw [FieldMatcher.eval_single]
    exact NegT.ofLeaf h5
  · obtain ⟨x, rfl⟩ := raw_of_taken h rfl
    rw [FieldMatcher.eval_single] at h1 h2
    refine ⟨⟨h1, fun _ => h2⟩, ?_⟩
    rw [FieldMatcher.eval_single]
    exact NegT.ofLeaf h2

theorem pFieldSingleM_ok : TParser.Sound (pFieldSingleM rx) (fun m _ => FldOk rx E o m) := by
  have : TParser.Sound (pFieldSingle rx) (fun m _ => FldOk rx E o (.single m)) := by
    unfold pFieldSingle
    refine ((((pFieldExists_ok rx E o).mono ?_).lift).alt
      (((pSubfieldsDot_ok rx E o).mono ?_).lift.alt ((pSubfieldsBracket_ok rx E o).mono ?_)))
    · rintro m t ⟨h1, h2, tm, om, rfl⟩
      exact ⟨h1, fun _ => h2⟩
    · rintro m t ⟨h1, h2⟩
      exact ⟨h1, h2⟩
    · rintro m t ⟨h1, h2⟩
      exact ⟨h1, fun _ => h2⟩
  exact (this.map _).mono (by
    rintro m t ⟨a, rfl, h⟩
    exact h)

theorem fieldSyn_keeps : SynKeeps fieldSyn (FldOk rx E o) where
  opAnd := fun i u r h => by
    obtain ⟨t, h, -⟩ := (Reads.lit (bs "&&")).ws _ _ _ h
    exact ⟨t, h⟩
  opOr := fun i u r h => by
    obtain ⟨t, h, -⟩ := (Reads.lit (bs "||")).ws _ _ _ h
    exact ⟨t, h⟩
  band := fun _ _ h h' => h.bitand h'
  bor := fun _ _ h h' => h.bitor h'
  bxor := fun _ _ h h' => h.bitxor h'

theorem fieldAtoms_ok {g n : TParser FieldMatcher} (hg : TParser.Sound g (fun m _ => FldOk rx E o m))
    (hn : TParser.Sound n (fun m _ => FldOk rx E o m)) :
    TParser.Sound (fieldAtoms rx g n) (fun m _ => FldOk rx E o m) :=
  hg.alt ((pFieldCardM_ok rx E o).alt ((pFieldSingleM_ok rx E o).alt (hn.alt
    (((pFieldExistsM_ok rx E o).mono (fun _ _ h => h.1)).lift))))

theorem fld_ok : ∀ k,
    TParser.Sound (pFieldGroup rx k) (fun m _ => FldOk rx E o m ∧
      NegT (FldText rx E o) (FldNegText rx E o) m.display (m.eval E o)) ∧
    TParser.Sound (pFieldNot rx k) (fun m _ => FldOk rx E o m ∧
      NegT (FldText rx E o) (FldNegText rx E o) m.display (m.eval E o)) := by
  intro k
  induction k with
  | zero => exact ⟨TParser.Sound.fail, TParser.Sound.fail⟩
  | succ k ih =>
    obtain ⟨ihg, ihn⟩ := ih
    have ihg1 := ihg.mono (R' := fun m _ => FldOk rx E o m) (fun _ _ h => h.1)
    have ihn1 := ihn.mono (R' := fun m _ => FldOk rx E o m) (fun _ _ h => h.1)
    have atoms := fieldAtoms_ok rx E o ihg1 ihn1
    constructor
    · rw [pFieldGroup]
      have inner := (composite_keeps (fieldSyn_keeps rx E o) atoms).alt
          ((pFieldSingleM_ok rx E o).alt (ihn1.alt ((pFieldCardM_ok rx E o).alt ihg1)))
      refine ((((wsByte_sound 0x28).terminated fldInc_sound).delimited inner
        ((wsByte_sound 0x29).terminated (TParser.Sound.update fldDec))).map _).mono ?_
      rintro m t ⟨m', rfl, _, _, t1, t2, t3, -, -, h3, -⟩
      exact ⟨h3.group, h3.group.2⟩
    · rw [pFieldNot]
      have leaf1 : TParser.Sound (TParser.map FieldMatcher.single (pSubfieldsBracket rx))
          (fun m _ => NegT (FldText rx E o) (FldNegText rx E o) m.display (m.eval E o)) :=
        ((pSubfieldsBracket_ok rx E o).map _).mono (by
          rintro m t ⟨a, rfl, h⟩
          rw [FieldMatcher.eval_single]
          exact NegT.ofLeaf h.2)
      refine (((wsByte_sound 0x21).preceded ((ihg.mono
        (R' := fun m _ => NegT (FldText rx E o) (FldNegText rx E o) m.display (m.eval E o))
          (fun _ _ h => h.2)).alt
        (leaf1.alt ((((pFieldExistsM_ok rx E o).mono (fun _ _ h => h.2)).lift).alt
          (ihn.mono (fun _ _ h => h.2)))))).map _).mono ?_
      rintro m t ⟨m', rfl, _, t1, t2, -, -, h3⟩
      exact ⟨fldOk_not h3, (fldOk_not h3).2⟩

theorem pFieldMatcher_ok : TParser.Sound (pFieldMatcher rx) (fun m _ => FldOk rx E o m) := by
  intro s i m r s' h
  have hs := pFieldMatcher_sound rx E o _ _ _ _ _ h
  obtain ⟨t, ht, -⟩ := hs
  refine ⟨t, ht, ?_⟩
  unfold pFieldMatcher at h
  simp only at h
  split at h
  · rename_i x s1 hx
    simp only [Prod.mk.injEq, Option.some.injEq] at h
    obtain ⟨rfl, _⟩ := h
    obtain ⟨hg, hn⟩ := fld_ok rx E o (i.length + 1)
    have hg1 := hg.mono (R' := fun m _ => FldOk rx E o m) (fun _ _ h => h.1)
    have hn1 := hn.mono (R' := fun m _ => FldOk rx E o m) (fun _ _ h => h.1)
    have all := (composite_keeps (fieldSyn_keeps rx E o) (fieldAtoms_ok rx E o hg1 hn1)).alt
      (hg1.alt (hn1.alt ((pFieldSingleM_ok rx E o).alt (pFieldCardM_ok rx E o))))
    obtain ⟨t, -, w, u, w', -, -, h3, -⟩ := tws_sound all _ _ _ _ _ hx
    exact h3
  · simp at h

theorem fieldMatcher_new_ok {rx : Bytes → Bool} {s s' : Levels} {t : Bytes} {m : FieldMatcher}
    (h : FieldMatcher.new rx s t = (some m, s')) : FldOk rx E o m := by
  unfold FieldMatcher.new TParser.parseAll at h
  split at h
  · rename_i a s1 hp
    simp only [Prod.mk.injEq, Option.some.injEq] at h
    obtain ⟨rfl, -⟩ := h
    obtain ⟨_, -, h⟩ := pFieldMatcher_ok rx E o _ _ _ _ _ hp
    exact h
  · simp at h

end fld

end Pica
