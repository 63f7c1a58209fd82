import Verif.Lemmas.ExprSound

/-!
How parsers depend on the group counters: `Resp R G p` says that on inputs with
`G`, `p` has the same result in states related by `R`, and the states stay
related.
-/

namespace Pica
open Spec Parser

section
variable {α β γ M : Type} {R : Levels → Levels → Prop} {G : Bytes → Prop}

/-- see above; what remains of the input has `G` again -/
def Resp (R : Levels → Levels → Prop) (G : Bytes → Prop) (p : TParser α) : Prop :=
  ∀ i, G i → ∀ s s', R s s' → (p s i).1 = (p s' i).1 ∧ R (p s i).2 (p s' i).2 ∧
    ∀ a r, (p s i).1 = some (a, r) → G r

/-- a parser leaves inputs with `G` -/
def Keeps (G : Bytes → Prop) (p : Parser α) : Prop := ∀ i a r, p i = some (a, r) → G i → G r

theorem Keeps.of_reads {Q : α → Bytes → Prop} {p : Parser α} (hG : ∀ t r, G (t ++ r) → G r)
    (h : Reads p Q) : Keeps G p := fun i a r hp hi => by
  obtain ⟨t, rfl, -⟩ := h i a r hp
  exact hG t r hi

theorem Resp.lift {p : Parser α} (h : Keeps G p) : Resp R G (TParser.lift p) :=
  fun i hi _ _ hs => ⟨rfl, hs, fun a r hp => h i a r hp hi⟩

theorem Resp.map {p : TParser α} (h : Resp R G p) (f : α → β) : Resp R G (TParser.map f p) := by
  intro i hi s s' hs
  obtain ⟨h1, h2, h3⟩ := h i hi s s' hs
  revert h1 h2 h3
  simp only [TParser.map]
  generalize p s i = x
  generalize p s' i = y
  obtain ⟨x | ⟨a, r⟩, t⟩ := x <;> obtain ⟨y | ⟨b, r'⟩, t'⟩ := y <;> intro h1 h2 h3 <;> simp_all

theorem Resp.withTaken {p : TParser α} (h : Resp R G p) : Resp R G (TParser.withTaken p) := by
  intro i hi s s' hs
  obtain ⟨h1, h2, h3⟩ := h i hi s s' hs
  revert h1 h2 h3
  simp only [TParser.withTaken]
  generalize p s i = x
  generalize p s' i = y
  obtain ⟨x | ⟨a, r⟩, t⟩ := x <;> obtain ⟨y | ⟨b, r'⟩, t'⟩ := y <;> intro h1 h2 h3 <;> simp_all

theorem Resp.seq {p : TParser α} {q : TParser β} (h : Resp R G p) (h' : Resp R G q) :
    Resp R G (TParser.seq p q) := by
  intro i hi s s' hs
  obtain ⟨h1, h2, h3⟩ := h i hi s s' hs
  revert h1 h2 h3
  simp only [TParser.seq]
  generalize p s i = x
  generalize p s' i = y
  obtain ⟨x | ⟨a, r⟩, t⟩ := x <;> obtain ⟨y | ⟨b, r'⟩, t'⟩ := y <;> intro h1 h2 h3 <;> simp at h1 h2 h3 ⊢
  · exact h2
  · obtain ⟨rfl, rfl⟩ := h1
    obtain ⟨k1, k2, k3⟩ := h' r h3 _ _ h2
    revert k1 k2 k3
    generalize q t r = x
    generalize q t' r = y
    obtain ⟨x | ⟨a, r⟩, t⟩ := x <;> obtain ⟨y | ⟨b, r'⟩, t'⟩ := y <;> intro k1 k2 k3 <;> simp_all

theorem Resp.preceded {p : TParser α} {q : TParser β} (h : Resp R G p) (h' : Resp R G q) :
    Resp R G (TParser.preceded p q) := (h.seq h').map _
theorem Resp.terminated {p : TParser α} {q : TParser β} (h : Resp R G p) (h' : Resp R G q) :
    Resp R G (TParser.terminated p q) := (h.seq h').map _
theorem Resp.delimited {p : TParser α} {q : TParser β} {q' : TParser γ} (h : Resp R G p)
    (h' : Resp R G q) (h'' : Resp R G q') : Resp R G (TParser.delimited p q q') :=
  h.preceded (h'.terminated h'')

theorem Resp.alt {p q : TParser α} (h : Resp R G p) (h' : Resp R G q) :
    Resp R G (TParser.alt p q) := by
  intro i hi s s' hs
  obtain ⟨h1, h2, h3⟩ := h i hi s s' hs
  revert h1 h2 h3
  simp only [TParser.alt]
  generalize p s i = x
  generalize p s' i = y
  obtain ⟨x | ⟨a, r⟩, t⟩ := x <;> obtain ⟨y | ⟨b, r'⟩, t'⟩ := y <;> intro h1 h2 h3 <;> simp at h1 h2 h3 ⊢
  · exact h' i hi t t' h2
  · exact ⟨h1, h2, h3⟩

theorem Resp.fail : Resp R G (TParser.fail : TParser α) := fun _ _ _ _ hs => ⟨rfl, hs, by simp [TParser.fail]⟩

theorem Resp.opt {p : TParser α} (h : Resp R G p) : Resp R G (TParser.opt p) := by
  intro i hi s s' hs
  obtain ⟨h1, h2, h3⟩ := h i hi s s' hs
  revert h1 h2 h3
  simp only [TParser.opt]
  generalize p s i = x
  generalize p s' i = y
  obtain ⟨x | ⟨a, r⟩, t⟩ := x <;> obtain ⟨y | ⟨b, r'⟩, t'⟩ := y <;> intro h1 h2 h3 <;> simp at h1 h2 h3 ⊢
  · exact ⟨h2, hi⟩
  · exact ⟨h1, h2, h3⟩

/-- `group_level_reset` after success -/
theorem Resp.after {q : Nat → TParser α} {f : Levels → Levels} (h : ∀ k, Resp R G (q k))
    (hf : ∀ s s', R s s' → R (f s) (f s')) :
    Resp R G (fun s i => ((q (i.length + 1) s i).1,
      if (q (i.length + 1) s i).1.isSome then f (q (i.length + 1) s i).2
      else (q (i.length + 1) s i).2)) := by
  intro i hi s s' hs
  obtain ⟨h1, h2, h3⟩ := h (i.length + 1) i hi s s' hs
  revert h1 h2 h3
  simp only
  generalize q (i.length + 1) s i = x
  generalize q (i.length + 1) s' i = y
  obtain ⟨x | ⟨a, r⟩, t⟩ := x <;> obtain ⟨y | ⟨b, r'⟩, t'⟩ := y <;> intro h1 h2 h3 <;> simp at h1 h2 h3 ⊢
  · exact h2
  · exact ⟨h1, hf _ _ h2, h3⟩

theorem Resp.repeat0Aux {p : TParser α} (h : Resp R G p) : ∀ n, Resp R G (TParser.repeat0Aux p n)
  | 0 => fun i hi s s' hs => ⟨rfl, hs, by simp only [TParser.repeat0Aux]; rintro a r h; cases h; exact hi⟩
  | n + 1 => by
    intro i hi s s' hs
    obtain ⟨h1, h2, h3⟩ := h i hi s s' hs
    revert h1 h2 h3
    simp only [TParser.repeat0Aux]
    generalize p s i = x
    generalize p s' i = y
    obtain ⟨x | ⟨a, r⟩, t⟩ := x <;> obtain ⟨y | ⟨b, r'⟩, t'⟩ := y <;> intro h1 h2 h3 <;> simp at h1 h2 h3 ⊢
    · exact ⟨h2, hi⟩
    · obtain ⟨rfl, rfl⟩ := h1
      split
      · obtain ⟨k1, k2, k3⟩ := Resp.repeat0Aux h n r h3 _ _ h2
        revert k1 k2 k3
        generalize TParser.repeat0Aux p n t r = x
        generalize TParser.repeat0Aux p n t' r = y
        obtain ⟨x | ⟨a, r⟩, t⟩ := x <;> obtain ⟨y | ⟨b, r'⟩, t'⟩ := y <;> intro k1 k2 k3 <;> simp_all
      · exact ⟨rfl, h2, by simp⟩

theorem Resp.repeat1 {p : TParser α} (h : Resp R G p) : Resp R G (TParser.repeat1 p) := by
  intro i hi s s' hs
  obtain ⟨h1, h2, h3⟩ := h i hi s s' hs
  revert h1 h2 h3
  simp only [TParser.repeat1]
  generalize p s i = x
  generalize p s' i = y
  obtain ⟨x | ⟨a, r⟩, t⟩ := x <;> obtain ⟨y | ⟨b, r'⟩, t'⟩ := y <;> intro h1 h2 h3 <;> simp at h1 h2 h3 ⊢
  · exact h2
  · obtain ⟨rfl, rfl⟩ := h1
    obtain ⟨k1, k2, k3⟩ := Resp.repeat0Aux h (r.length + 1) r h3 _ _ h2
    simp only [TParser.repeat0]
    revert k1 k2 k3
    generalize TParser.repeat0Aux p (r.length + 1) t r = x
    generalize TParser.repeat0Aux p (r.length + 1) t' r = y
    obtain ⟨x | ⟨a, r⟩, t⟩ := x <;> obtain ⟨y | ⟨b, r'⟩, t'⟩ := y <;> intro k1 k2 k3 <;> simp_all

variable (hG : ∀ t r, G (t ++ r) → G r)
include hG

theorem Keeps.multispace0 : Keeps G Pica.multispace0 := fun i a r hp hi => by
  simp only [Pica.multispace0, Option.some.injEq, Prod.mk.injEq] at hp
  rw [← List.takeWhile_append_dropWhile (p := isMultispace) (l := i)] at hi
  rw [← hp.2]
  exact hG _ _ hi

theorem Resp.tws {p : TParser α} (h : Resp R G p) : Resp R G (Pica.tws p) :=
  Resp.delimited (Resp.lift (Keeps.multispace0 hG)) h (Resp.lift (Keeps.multispace0 hG))

theorem Keeps.wsByte (b : Byte) : Keeps G (Pica.ws (byte b)) := .of_reads hG (Reads.byte b).ws

theorem Resp.composite {S : Syn M} {p : TParser M} (ha : Keeps G S.opAnd) (ho : Keeps G S.opOr)
    (h : Resp R G p) : Resp R G (Pica.composite S p) := by
  have hx : Keeps G pXorOp := Keeps.of_reads hG (Reads.alt (Reads.lit _) (Reads.lit _))
  have chain : ∀ {op : Parser Unit} {q : TParser M} (f : M → M → M), Keeps G op → Resp R G q →
      Resp R G (Pica.chain op (Pica.tws q) f) := fun f hop hq =>
    Resp.map (Resp.seq (hq.tws hG) (Resp.repeat1 (Resp.preceded (Resp.lift hop) (hq.tws hG)))) _
  have h1 : Resp R G (andChain S p) := chain _ ha h
  have h2 : Resp R G (xorChain S p) := chain _ hx (h1.alt h)
  have h3 : Resp R G (orChain S p) := chain _ ho (h1.alt (h2.alt h))
  exact h3.alt (h2.alt h1)

end

/-- the assumptions about the steps that touch the counters -/
structure SubSteps (R : Levels → Levels → Prop) (G : Bytes → Prop) : Prop where
  suffix : ∀ t r, G (t ++ r) → G r
  sub : Resp R G (TParser.terminated (TParser.lift (ws (byte 0x28))) subInc)
  subReset : ∀ s s', R s s' → R (subReset s) (subReset s')

/-- the same for fields -/
structure Steps (R : Levels → Levels → Prop) (G : Bytes → Prop) : Prop extends SubSteps R G where
  fld : Resp R G (TParser.terminated (TParser.lift (ws (byte 0x28))) fldInc)
  dec : ∀ s s', R s s' → R (fldDec s) (fldDec s')
  fldReset : ∀ s s', R s s' → R (fldReset s) (fldReset s')

section
variable {R : Levels → Levels → Prop} {G : Bytes → Prop} (rx : Bytes → Bool)

/-- some environment: the texts read do not depend on it -/
def anyEnv : Env := ⟨id, fun _ _ _ => false, fun _ _ => none, fun _ _ => none⟩

/-- some options -/
def anyOpts : Opts := ⟨false⟩

theorem subSingle_keeps (hG : ∀ t r, G (t ++ r) → G r) : Keeps G (pSubSingle rx) :=
  .of_reads hG (pSubSingle_reads rx anyEnv anyOpts)

variable (H : SubSteps R G)
include H

theorem SubSteps.lift {α : Type} {Q : α → Bytes → Prop} {p : Parser α} (h : Reads p Q) :
    Resp R G (TParser.lift p) := .lift (.of_reads H.suffix h)

theorem SubSteps.wsByte (b : Byte) : Resp R G (TParser.lift (ws (byte b))) := H.lift (Reads.byte b).ws

theorem SubSteps.subSingleM : Resp R G (pSubSingleM rx) :=
  H.lift ((pSubSingle_reads rx anyEnv anyOpts).map _)

theorem SubSteps.subs : ∀ k, Resp R G (pSubGroup rx k) ∧ Resp R G (pSubNot rx k)
  | 0 => by
    constructor
    · rw [show pSubGroup rx 0 = TParser.fail from by rw [pSubGroup]]; exact Resp.fail
    · rw [show pSubNot rx 0 = TParser.fail from by rw [pSubNot]]; exact Resp.fail
  | k + 1 => by
    obtain ⟨hg, hn⟩ := SubSteps.subs k
    have hs := H.subSingleM rx
    have hc := Resp.composite (S := subSyn) H.suffix (.of_reads H.suffix (Reads.lit _))
      (.of_reads H.suffix (Reads.lit _)) (show Resp R G (subAtoms rx (pSubGroup rx k) (pSubNot rx k)) from
        hg.alt (hs.alt hn))
    constructor
    · rw [pSubGroup]
      exact Resp.map (Resp.delimited H.sub (hc.alt (hs.alt (hn.alt hg))) (H.wsByte _)) _
    · rw [pSubNot]
      exact Resp.map (Resp.preceded (H.wsByte _) (hg.alt (Resp.alt
        (H.lift ((pSubExists_reads anyEnv anyOpts).map _)) hn))) _

attribute [local irreducible] pSubGroup pSubNot pFieldGroup pFieldNot pSubComposite pFieldComposite
  pSubSingleM pFieldSingleM pFieldCardM tws TParser.alt in
theorem SubSteps.subMatcher : Resp R G (pSubMatcher rx) := by
  have e : pSubMatcher rx = fun s i => (((fun k => TParser.alt (pSubComposite rx k)
      (TParser.alt (pSubSingleM rx) (TParser.alt (pSubGroup rx k) (pSubNot rx k)))) (i.length + 1) s i).1,
      if ((fun k => TParser.alt (pSubComposite rx k)
      (TParser.alt (pSubSingleM rx) (TParser.alt (pSubGroup rx k) (pSubNot rx k)))) (i.length + 1) s i).1.isSome then
        Pica.subReset ((fun k => TParser.alt (pSubComposite rx k)
      (TParser.alt (pSubSingleM rx) (TParser.alt (pSubGroup rx k) (pSubNot rx k)))) (i.length + 1) s i).2
      else ((fun k => TParser.alt (pSubComposite rx k)
      (TParser.alt (pSubSingleM rx) (TParser.alt (pSubGroup rx k) (pSubNot rx k)))) (i.length + 1) s i).2) := by
    funext s i
    unfold pSubMatcher
    simp only
    generalize TParser.alt _ _ s i = x
    obtain ⟨x | x, s'⟩ := x <;> rfl
  rw [e]
  refine Resp.after (q := fun k => TParser.alt (pSubComposite rx k)
      (TParser.alt (pSubSingleM rx) (TParser.alt (pSubGroup rx k) (pSubNot rx k)))) (fun k => ?_) H.subReset
  obtain ⟨hg, hn⟩ := H.subs rx k
  have h1 := H.subSingleM rx
  have hc := Resp.composite (S := subSyn) H.suffix (.of_reads H.suffix (Reads.lit _))
      (.of_reads H.suffix (Reads.lit _)) (show Resp R G (subAtoms rx _ _) from hg.alt (h1.alt hn))
  exact Resp.alt (by unfold pSubComposite; exact hc) (h1.alt (hg.alt hn))

end

section
variable {R : Levels → Levels → Prop} {G : Bytes → Prop} (rx : Bytes → Bool) (H : SubSteps R G)
include H

theorem SubSteps.bracket : Resp R G (pSubfieldsBracket rx) :=
  Resp.map (Resp.withTaken (Resp.seq (H.lift pFieldHead_reads)
    (Resp.delimited (H.wsByte _) (H.subMatcher rx) (H.wsByte _)))) _

theorem SubSteps.fieldSingleM : Resp R G (pFieldSingleM rx) :=
  Resp.map (Resp.alt (H.lift (pFieldExists_reads rx anyEnv anyOpts))
    (Resp.alt (H.lift (pSubfieldsDot_reads rx anyEnv anyOpts)) (H.bracket rx))) _

theorem SubSteps.fieldCardM : Resp R G (pFieldCardM rx) :=
  Resp.map (Resp.map (Resp.withTaken (Resp.preceded (H.wsByte _) (Resp.seq (H.lift pTagMatcher_reads.ws)
    (Resp.seq (H.lift pOccMatcher_reads.ws) (Resp.seq
      (Resp.opt (Resp.delimited (H.wsByte _) (H.subMatcher rx) (H.wsByte _)))
      (H.lift ((pRelOp_reads.ws.verify _).seq pUsize_reads))))))) _) _

end

section
variable {R : Levels → Levels → Prop} {G : Bytes → Prop} (rx : Bytes → Bool) (H : Steps R G)
include H

theorem Steps.fields : ∀ k, Resp R G (pFieldGroup rx k) ∧ Resp R G (pFieldNot rx k)
  | 0 => by
    constructor
    · rw [show pFieldGroup rx 0 = TParser.fail from by rw [pFieldGroup]]; exact Resp.fail
    · rw [show pFieldNot rx 0 = TParser.fail from by rw [pFieldNot]]; exact Resp.fail
  | k + 1 => by
    obtain ⟨hg, hn⟩ := Steps.fields k
    have hs := H.fieldSingleM rx
    have hcard := H.fieldCardM rx
    have he : Resp R G (TParser.lift pFieldExistsM) := H.lift (pFieldExistsM_reads rx anyEnv anyOpts)
    have hc := Resp.composite (S := fieldSyn) H.suffix (.of_reads H.suffix (Reads.lit _).ws)
      (.of_reads H.suffix (Reads.lit _).ws) (show Resp R G (fieldAtoms rx (pFieldGroup rx k) (pFieldNot rx k)) from
        hg.alt (hcard.alt (hs.alt (hn.alt he))))
    have hdec : Resp R G (TParser.update fldDec) := fun i hi s s' hs =>
      ⟨rfl, H.dec _ _ hs, by rintro a r h; cases h; exact hi⟩
    constructor
    · rw [pFieldGroup]
      exact Resp.map (Resp.delimited H.fld (hc.alt (hs.alt (hn.alt (hcard.alt hg))))
        ((H.wsByte _).terminated hdec)) _
    · rw [pFieldNot]
      exact Resp.map (Resp.preceded (H.wsByte _) (hg.alt (Resp.alt ((H.bracket rx).map _) (he.alt hn)))) _

attribute [local irreducible] pSubGroup pSubNot pFieldGroup pFieldNot pSubComposite pFieldComposite
  pSubSingleM pFieldSingleM pFieldCardM tws TParser.alt in
theorem Steps.fieldMatcher : Resp R G (pFieldMatcher rx) := by
  have e : pFieldMatcher rx = fun s i => (((fun k => tws (TParser.alt (pFieldComposite rx k) (TParser.alt (pFieldGroup rx k)
      (TParser.alt (pFieldNot rx k) (TParser.alt (pFieldSingleM rx) (pFieldCardM rx)))))) (i.length + 1) s i).1,
      if ((fun k => tws (TParser.alt (pFieldComposite rx k) (TParser.alt (pFieldGroup rx k)
      (TParser.alt (pFieldNot rx k) (TParser.alt (pFieldSingleM rx) (pFieldCardM rx)))))) (i.length + 1) s i).1.isSome then
        Pica.fldReset ((fun k => tws (TParser.alt (pFieldComposite rx k) (TParser.alt (pFieldGroup rx k)
      (TParser.alt (pFieldNot rx k) (TParser.alt (pFieldSingleM rx) (pFieldCardM rx)))))) (i.length + 1) s i).2
      else ((fun k => tws (TParser.alt (pFieldComposite rx k) (TParser.alt (pFieldGroup rx k)
      (TParser.alt (pFieldNot rx k) (TParser.alt (pFieldSingleM rx) (pFieldCardM rx)))))) (i.length + 1) s i).2) := by
    funext s i
    unfold pFieldMatcher
    simp only
    generalize tws _ s i = x
    obtain ⟨x | x, s'⟩ := x <;> rfl
  rw [e]
  refine Resp.after (q := fun k => tws (TParser.alt (pFieldComposite rx k) (TParser.alt (pFieldGroup rx k)
      (TParser.alt (pFieldNot rx k) (TParser.alt (pFieldSingleM rx) (pFieldCardM rx))))))
    (fun k => ?_) H.fldReset
  obtain ⟨hg, hn⟩ := H.fields rx k
  have h1 := H.fieldSingleM rx
  have h4 := H.fieldCardM rx
  have he : Resp R G (TParser.lift pFieldExistsM) := H.lift (pFieldExistsM_reads rx anyEnv anyOpts)
  have hc := Resp.composite (S := fieldSyn) H.suffix (.of_reads H.suffix (Reads.lit _).ws)
      (.of_reads H.suffix (Reads.lit _).ws) (show Resp R G (fieldAtoms rx _ _) from
        hg.alt (h4.alt (h1.alt (hn.alt he))))
  exact (Resp.alt (by unfold pFieldComposite; exact hc) (hg.alt (hn.alt (h1.alt h4)))).tws H.suffix

end

/-- the result of a complete parse -/
theorem Resp.parseAll {α : Type} {R : Levels → Levels → Prop} {G : Bytes → Prop} {p : TParser α}
    (h : Resp R G p) {i : Bytes} (hi : G i) {s s' : Levels} (hs : R s s') :
    (TParser.parseAll p s i).1 = (TParser.parseAll p s' i).1 ∧
    R (TParser.parseAll p s i).2 (TParser.parseAll p s' i).2 := by
  obtain ⟨h1, h2, -⟩ := h i hi s s' hs
  revert h1 h2
  simp only [TParser.parseAll]
  generalize p s i = x
  generalize p s' i = y
  obtain ⟨x | ⟨a, _ | r⟩, t⟩ := x <;> obtain ⟨y | ⟨b, _ | r'⟩, t'⟩ := y <;> intro h1 h2 <;> simp at h1 h2 ⊢ <;>
    simp_all

theorem SubSteps.new {R : Levels → Levels → Prop} {G : Bytes → Prop} (H : SubSteps R G)
    (rx : Bytes → Bool) {i : Bytes} (hi : G i) {s s' : Levels} (hs : R s s') :
    (SubMatcher.new rx s i).1 = (SubMatcher.new rx s' i).1 ∧
    R (SubMatcher.new rx s i).2 (SubMatcher.new rx s' i).2 := (H.subMatcher rx).parseAll hi hs

theorem Steps.new {R : Levels → Levels → Prop} {G : Bytes → Prop} (H : Steps R G)
    (rx : Bytes → Bool) {i : Bytes} (hi : G i) {s s' : Levels} (hs : R s s') :
    (FieldMatcher.new rx s i).1 = (FieldMatcher.new rx s' i).1 ∧
    R (FieldMatcher.new rx s i).2 (FieldMatcher.new rx s' i).2 := (H.fieldMatcher rx).parseAll hi hs

/-! ## Instances -/

/-- subfield matchers do not touch the counter for fields -/
theorem subNew_fld (rx : Bytes → Bool) (s : Levels) (t : Bytes) :
    (SubMatcher.new rx s t).2.fld = s.fld := by
  have H : SubSteps (fun a b => a = b ∧ a.fld = s.fld) (fun _ => True) :=
    { suffix := fun _ _ _ => trivial
      sub := (Resp.lift fun _ _ _ _ _ => trivial).terminated fun i _ a b h => by
        obtain ⟨rfl, h⟩ := h
        simp only [subInc]
        split <;> simp [h]
      subReset := by rintro a _ ⟨rfl, h⟩; exact ⟨rfl, h⟩ }
  exact (H.new rx (i := t) trivial ⟨rfl, rfl⟩).2.2

/-- nor that for formats -/
theorem subNew_fmt (rx : Bytes → Bool) (s : Levels) (t : Bytes) :
    (SubMatcher.new rx s t).2.fmt = s.fmt := by
  have H : SubSteps (fun a b => a = b ∧ a.fmt = s.fmt) (fun _ => True) :=
    { suffix := fun _ _ _ => trivial
      sub := (Resp.lift fun _ _ _ _ _ => trivial).terminated fun i _ a b h => by
        obtain ⟨rfl, h⟩ := h
        simp only [subInc]
        split <;> simp [h]
      subReset := by rintro a _ ⟨rfl, h⟩; exact ⟨rfl, h⟩ }
  exact (H.new rx (i := t) trivial ⟨rfl, rfl⟩).2.2

/-- an accepted subfield matcher resets its counter -/
theorem subNew_sub {rx : Bytes → Bool} {s : Levels} {t : Bytes}
    (h : (SubMatcher.new rx s t).1.isSome = true) : (SubMatcher.new rx s t).2.sub = 0 := by
  revert h
  unfold SubMatcher.new TParser.parseAll pSubMatcher
  simp only
  generalize TParser.alt _ _ s t = x
  obtain ⟨x | ⟨a, _ | r⟩, s'⟩ := x <;> simp [subReset]

/-- an accepted field matcher resets its counter -/
theorem fieldNew_fld {rx : Bytes → Bool} {s : Levels} {t : Bytes}
    (h : (FieldMatcher.new rx s t).1.isSome = true) : (FieldMatcher.new rx s t).2.fld = 0 := by
  revert h
  unfold FieldMatcher.new TParser.parseAll pFieldMatcher
  simp only
  generalize tws _ s t = x
  obtain ⟨x | ⟨a, _ | r⟩, s'⟩ := x <;> simp [fldReset]

/-- no opening parenthesis -/
def NoParen (t : Bytes) : Prop := 0x28 ∉ t

theorem noParen_suffix (t r : Bytes) (h : NoParen (t ++ r)) : NoParen r := fun h' => h (by simp [h'])

theorem wsLpar_none {i : Bytes} (h : NoParen i) : ws (byte 0x28) i = none := by
  cases e : ws (byte 0x28) i with
  | none => rfl
  | some x =>
    obtain ⟨t, rfl, w, u, w', rfl, -, ⟨-, rfl⟩, -⟩ := (Reads.byte 0x28).ws i x.1 x.2 e
    exact absurd (by simp) h

/-- without parentheses the counters are not used -/
theorem steps_noParen {R : Levels → Levels → Prop} (h1 : ∀ s s', R s s' → R (fldDec s) (fldDec s'))
    (h2 : ∀ s s', R s s' → R (subReset s) (subReset s'))
    (h3 : ∀ s s', R s s' → R (fldReset s) (fldReset s')) : Steps R NoParen where
  suffix := noParen_suffix
  sub := fun i hi s s' hs => by
    have : ∀ s, TParser.terminated (TParser.lift (ws (byte 0x28))) subInc s i = (none, s) := fun s => by
      simp [TParser.terminated, TParser.map, TParser.seq, TParser.lift, wsLpar_none hi]
    rw [this, this]
    exact ⟨rfl, hs, by simp⟩
  fld := fun i hi s s' hs => by
    have : ∀ s, TParser.terminated (TParser.lift (ws (byte 0x28))) fldInc s i = (none, s) := fun s => by
      simp [TParser.terminated, TParser.map, TParser.seq, TParser.lift, wsLpar_none hi]
    rw [this, this]
    exact ⟨rfl, hs, by simp⟩
  dec := h1
  subReset := h2
  fldReset := h3

/-- the result depends on the two counters only -/
theorem steps_counters : Steps (fun s s' => s.sub = s'.sub ∧ s.fld = s'.fld) (fun _ => True) where
  suffix := fun _ _ _ => trivial
  sub := (Resp.lift fun _ _ _ _ _ => trivial).terminated fun i _ s s' hs => by
    simp only [subInc, hs.1]
    split <;> simp [hs.2]
  fld := (Resp.lift fun _ _ _ _ _ => trivial).terminated fun i _ s s' hs => by
    simp only [fldInc, hs.2]
    split <;> simp [hs.1]
  dec := fun s s' h => ⟨h.1, by simp [fldDec, h.2]⟩
  subReset := fun s s' h => ⟨rfl, h.2⟩
  fldReset := fun s s' h => ⟨h.1, rfl⟩

end Pica
