import Verif.Lemmas.Indep
import Verif.Lemmas.Query

/-! How the parsers of paths, formats and queries depend on the group counters. -/

namespace Pica
open Spec Parser

section
variable {α β : Type} {R : Levels → Levels → Prop} {G : Bytes → Prop}

theorem Resp.separatedAux {p : TParser α} {sep : Parser β} (h : Resp R G p) (hs : Keeps G sep) :
    ∀ n, Resp R G (TParser.separatedAux p sep n)
  | 0 => fun i hi s s' hs => ⟨rfl, hs, by simp only [TParser.separatedAux]; rintro a r h; cases h; exact hi⟩
  | n + 1 => by
    intro i hi s s' hR
    simp only [TParser.separatedAux]
    cases he : sep i with
    | none => exact ⟨rfl, hR, by rintro a r h; cases h; exact hi⟩
    | some x =>
      obtain ⟨u, r0⟩ := x
      dsimp only
      obtain ⟨h1, h2, h3⟩ := h r0 (hs _ _ _ he hi) s s' hR
      revert h1 h2 h3
      generalize p s r0 = x
      generalize p s' r0 = y
      obtain ⟨x | ⟨a, r⟩, t⟩ := x <;> obtain ⟨y | ⟨b, r'⟩, t'⟩ := y <;> intro h1 h2 h3 <;> simp at h1 h2 h3 ⊢
      · exact ⟨h2, hi⟩
      · obtain ⟨rfl, rfl⟩ := h1
        obtain ⟨k1, k2, k3⟩ := Resp.separatedAux h hs n r h3 _ _ h2
        revert k1 k2 k3
        generalize TParser.separatedAux p sep n t r = x
        generalize TParser.separatedAux p sep n t' r = y
        obtain ⟨x | ⟨a, r⟩, t⟩ := x <;> obtain ⟨y | ⟨b, r'⟩, t'⟩ := y <;> intro k1 k2 k3 <;> simp_all

theorem Resp.separated {p : TParser α} {sep : Parser β} (min : Nat) (h : Resp R G p)
    (hs : Keeps G sep) : Resp R G (TParser.separated min p sep) := by
  intro i hi s s' hR
  obtain ⟨h1, h2, h3⟩ := h i hi s s' hR
  revert h1 h2 h3
  simp only [TParser.separated]
  generalize p s i = x
  generalize p s' i = y
  obtain ⟨x | ⟨a, r⟩, t⟩ := x <;> obtain ⟨y | ⟨b, r'⟩, t'⟩ := y <;> intro h1 h2 h3 <;> simp at h1 h2 h3 ⊢
  · exact h2
  · obtain ⟨rfl, rfl⟩ := h1
    obtain ⟨k1, k2, k3⟩ := Resp.separatedAux h hs (r.length + 1) r h3 _ _ h2
    revert k1 k2 k3
    generalize TParser.separatedAux p sep (r.length + 1) t r = x
    generalize TParser.separatedAux p sep (r.length + 1) t' r = y
    obtain ⟨x | ⟨a, r⟩, t⟩ := x <;> obtain ⟨y | ⟨b, r'⟩, t'⟩ := y <;> intro k1 k2 k3 <;> simp at k1 k2 k3 ⊢
    · exact k2
    · obtain ⟨rfl, rfl⟩ := k1
      split
      · exact ⟨rfl, k2, by rintro a r h; cases h; exact k3⟩
      · exact ⟨rfl, k2, by rintro a r h; cases h⟩

end

/-- the same as `Steps` for formats -/
structure FmtSteps (R : Levels → Levels → Prop) (G : Bytes → Prop) : Prop extends Steps R G where
  fmt : Resp R G (TParser.terminated (TParser.lift (ws (byte 0x28))) fmtInc)
  fmtDec : ∀ s s', R s s' → R (fmtDec s) (fmtDec s')

/-- some environment: the texts read do not depend on it -/
def anyFmt : FmtEnv := { anyEnv with trim := id, upper := id }

section
variable {R : Levels → Levels → Prop} {G : Bytes → Prop} (rx : Bytes → Bool)

theorem SubSteps.filterOpt (H : SubSteps R G) : Resp R G (pFilterOpt rx) :=
  Resp.opt (Resp.preceded (H.wsByte _) (H.subMatcher rx))

attribute [local irreducible] pSubMatcher in
theorem SubSteps.path (H : SubSteps R G) : Resp R G (pPath rx) := by
  refine Resp.alt (H.lift ((pTagMatcher_reads.seq (pOccMatcher_reads.seq
      ((Reads.byte 0x2E).preceded pCodes_of))).ws.withTaken.map _)) (Resp.map (Resp.withTaken (Resp.tws H.suffix
    (Resp.seq (H.lift pTagMatcher_reads) (Resp.seq (H.lift pOccMatcher_reads)
      (Resp.delimited (H.wsByte _) (Resp.seq (H.lift pPathCodes_reads) (H.filterOpt rx)) (H.wsByte _)))))) _)

variable (H : FmtSteps R G)
include H

theorem FmtSteps.value : Resp R G (TParser.lift (map Fragments.value pFmtValue)) :=
  H.lift ((pFmtValue_reads anyFmt ⟨false, false⟩).map _)

theorem FmtSteps.list {g : TParser Fragments} (hg : Resp R G g) : Resp R G (pFmtList g) := by
  have h1 : Resp R G (pAndThen g) :=
    Resp.map (Resp.separated 2 (hg.alt H.value) (.of_reads H.suffix (wsLit_reads _))) _
  have h2 : Resp R G (pCons g) :=
    Resp.map (Resp.separated 2 (h1.alt (hg.alt H.value)) (.of_reads H.suffix (wsLit_reads _))) _
  exact h2.alt h1

theorem FmtSteps.wsValue : Resp R G (TParser.lift (ws (map Fragments.value pFmtValue))) :=
  H.lift ((pFmtValue_reads anyFmt ⟨false, false⟩).map Fragments.value).ws

theorem FmtSteps.group : ∀ k, Resp R G (pFmtGroup k)
  | 0 => by rw [show pFmtGroup 0 = TParser.fail from by rw [pFmtGroup]]; exact Resp.fail
  | k + 1 => by
    have ih := FmtSteps.group k
    have hdec : Resp R G (TParser.update Pica.fmtDec) := fun i hi s s' hs =>
      ⟨rfl, H.fmtDec _ _ hs, by rintro a r h; cases h; exact hi⟩
    rw [pFmtGroup]
    exact Resp.map (Resp.preceded H.fmt (Resp.seq (H.lift (pModifier_reads anyFmt))
      (Resp.seq (((H.list ih).tws H.suffix).alt H.wsValue)
        (Resp.preceded ((H.wsByte _).terminated hdec) (H.lift (pBound_reads usizeMax)))))) _

theorem FmtSteps.fragments (k : Nat) : Resp R G (pFragments k) :=
  ((H.list (H.group k)).tws H.suffix).alt (((H.group k).tws H.suffix).alt H.wsValue)

attribute [local irreducible] pFragments pSubMatcher in
theorem FmtSteps.format : Resp R G (pFormat rx) := by
  intro i
  exact (Resp.map (Resp.withTaken (Resp.seq (H.lift pTagMatcher_reads)
    (Resp.seq (H.lift pOccMatcher_reads) (Resp.delimited (H.wsByte _)
      (Resp.seq (H.fragments (i.length + 1)) (H.filterOpt rx)) (H.wsByte _))))) _) i

theorem FmtSteps.query : Resp R G (pQuery rx) :=
  Resp.map (Resp.withTaken (Resp.separated 1 (Resp.alt ((H.path rx).map _)
    (Resp.alt (H.lift (pString_reads.map _)) ((H.format rx).map _)))
    (.of_reads H.suffix (wsByte_reads 0x2C)))) _

end

theorem FmtSteps.newPath {R : Levels → Levels → Prop} {G : Bytes → Prop} (H : FmtSteps R G)
    (rx : Bytes → Bool) {i : Bytes} (hi : G i) {s s' : Levels} (hs : R s s') :
    (Path.new rx s i).1 = (Path.new rx s' i).1 ∧
    R (Path.new rx s i).2 (Path.new rx s' i).2 := (H.path rx).parseAll hi hs

theorem FmtSteps.newFormat {R : Levels → Levels → Prop} {G : Bytes → Prop} (H : FmtSteps R G)
    (rx : Bytes → Bool) {i : Bytes} (hi : G i) {s s' : Levels} (hs : R s s') :
    (Format.new rx s i).1 = (Format.new rx s' i).1 ∧
    R (Format.new rx s i).2 (Format.new rx s' i).2 := (H.format rx).parseAll hi hs

theorem FmtSteps.newQuery {R : Levels → Levels → Prop} {G : Bytes → Prop} (H : FmtSteps R G)
    (rx : Bytes → Bool) {i : Bytes} (hi : G i) {s s' : Levels} (hs : R s s') :
    (Query.new rx s i).1 = (Query.new rx s' i).1 ∧
    R (Query.new rx s i).2 (Query.new rx s' i).2 := (H.query rx).parseAll hi hs

/-- without parentheses the counters are not used -/
theorem fmtSteps_noParen {R : Levels → Levels → Prop} (h1 : ∀ s s', R s s' → R (fldDec s) (fldDec s'))
    (h2 : ∀ s s', R s s' → R (subReset s) (subReset s'))
    (h3 : ∀ s s', R s s' → R (fldReset s) (fldReset s'))
    (h4 : ∀ s s', R s s' → R (fmtDec s) (fmtDec s')) : FmtSteps R NoParen where
  toSteps := steps_noParen h1 h2 h3
  fmt := fun i hi s s' hs => by
    have : ∀ s, TParser.terminated (TParser.lift (ws (byte 0x28))) fmtInc s i = (none, s) := fun s => by
      simp [TParser.terminated, TParser.map, TParser.seq, TParser.lift, wsLpar_none hi]
    rw [this, this]
    exact ⟨rfl, hs, by simp⟩
  fmtDec := h4

/-- the result depends on the counters only -/
theorem fmtSteps_counters : FmtSteps (fun s s' => s = s') (fun _ => True) where
  suffix := fun _ _ _ => trivial
  sub := (Resp.lift fun _ _ _ _ _ => trivial).terminated fun i _ s s' hs => by subst hs; exact ⟨rfl, rfl, fun _ _ _ => trivial⟩
  fld := (Resp.lift fun _ _ _ _ _ => trivial).terminated fun i _ s s' hs => by subst hs; exact ⟨rfl, rfl, fun _ _ _ => trivial⟩
  fmt := (Resp.lift fun _ _ _ _ _ => trivial).terminated fun i _ s s' hs => by subst hs; exact ⟨rfl, rfl, fun _ _ _ => trivial⟩
  dec := fun s s' h => by rw [h]
  subReset := fun s s' h => by rw [h]
  fldReset := fun s s' h => by rw [h]
  fmtDec := fun s s' h => by rw [h]

end Pica
