import Verif.Model.Attempts
import Verif.Lemmas.FieldGroup
import Verif.Lemmas.Group
import Verif.Lemmas.Indep
import Mathlib.Tactic.Ring

/-! The parsers that count attempts: the same results, and bounds. -/

namespace Pica
open Spec Parser

/-! ## The same results -/

/-- the counters of matchers are the same -/
def SameLevels (s s' : Levels) : Prop := s.sub = s'.sub ∧ s.fld = s'.fld

/-- two parsers have the same results -/
def Alike {α : Type} (p q : TParser α) : Prop :=
  ∀ i s s', SameLevels s s' → (p s i).1 = (q s' i).1 ∧ SameLevels (p s i).2 (q s' i).2

section
variable {α β γ M : Type} {p p' : TParser α} {q q' : TParser β}

theorem Alike.map (h : Alike p p') (f : α → β) : Alike (TParser.map f p) (TParser.map f p') := by
  intro i s s' hs
  obtain ⟨h1, h2⟩ := h i s s' hs
  revert h1 h2
  simp only [TParser.map]
  generalize p s i = x
  generalize p' s' i = y
  obtain ⟨x | ⟨a, r⟩, t⟩ := x <;> obtain ⟨y | ⟨b, r'⟩, t'⟩ := y <;> intro h1 h2 <;> simp_all

theorem Alike.seq (h : Alike p p') (h' : Alike q q') : Alike (TParser.seq p q) (TParser.seq p' q') := by
  intro i s s' hs
  obtain ⟨h1, h2⟩ := h i s s' hs
  revert h1 h2
  simp only [TParser.seq]
  generalize p s i = x
  generalize p' s' i = y
  obtain ⟨x | ⟨a, r⟩, t⟩ := x <;> obtain ⟨y | ⟨b, r'⟩, t'⟩ := y <;> intro h1 h2 <;> simp at h1 h2 ⊢
  · exact h2
  · obtain ⟨rfl, rfl⟩ := h1
    obtain ⟨k1, k2⟩ := h' r _ _ h2
    revert k1 k2
    generalize q t r = x
    generalize q' t' r = y
    obtain ⟨x | ⟨a, r⟩, t⟩ := x <;> obtain ⟨y | ⟨b, r'⟩, t'⟩ := y <;> intro k1 k2 <;> simp_all

theorem Alike.preceded (h : Alike p p') (h' : Alike q q') :
    Alike (TParser.preceded p q) (TParser.preceded p' q') := (h.seq h').map _
theorem Alike.terminated (h : Alike p p') (h' : Alike q q') :
    Alike (TParser.terminated p q) (TParser.terminated p' q') := (h.seq h').map _
theorem Alike.delimited {r r' : TParser γ} (h : Alike p p') (h' : Alike q q') (h'' : Alike r r') :
    Alike (TParser.delimited p q r) (TParser.delimited p' q' r') := h.preceded (h'.terminated h'')

theorem Alike.alt {q q' : TParser α} (h : Alike p p') (h' : Alike q q') :
    Alike (TParser.alt p q) (TParser.alt p' q') := by
  intro i s s' hs
  obtain ⟨h1, h2⟩ := h i s s' hs
  revert h1 h2
  simp only [TParser.alt]
  generalize p s i = x
  generalize p' s' i = y
  obtain ⟨x | ⟨a, r⟩, t⟩ := x <;> obtain ⟨y | ⟨b, r'⟩, t'⟩ := y <;> intro h1 h2 <;> simp at h1 h2 ⊢
  · exact h' i t t' h2
  · exact ⟨h1, h2⟩

theorem Alike.repeat0Aux (h : Alike p p') : ∀ n, Alike (TParser.repeat0Aux p n) (TParser.repeat0Aux p' n)
  | 0 => fun i s s' hs => ⟨rfl, hs⟩
  | n + 1 => by
    intro i s s' hs
    obtain ⟨h1, h2⟩ := h i s s' hs
    revert h1 h2
    simp only [TParser.repeat0Aux]
    generalize p s i = x
    generalize p' s' i = y
    obtain ⟨x | ⟨a, r⟩, t⟩ := x <;> obtain ⟨y | ⟨b, r'⟩, t'⟩ := y <;> intro h1 h2 <;> simp at h1 h2 ⊢
    · exact h2
    · obtain ⟨rfl, rfl⟩ := h1
      split
      · obtain ⟨k1, k2⟩ := Alike.repeat0Aux h n r _ _ h2
        revert k1 k2
        generalize TParser.repeat0Aux p n t r = x
        generalize TParser.repeat0Aux p' n t' r = y
        obtain ⟨x | ⟨a, r⟩, t⟩ := x <;> obtain ⟨y | ⟨b, r'⟩, t'⟩ := y <;> intro k1 k2 <;> simp_all
      · exact ⟨rfl, h2⟩

theorem Alike.repeat1 (h : Alike p p') : Alike (TParser.repeat1 p) (TParser.repeat1 p') := by
  intro i s s' hs
  obtain ⟨h1, h2⟩ := h i s s' hs
  revert h1 h2
  simp only [TParser.repeat1]
  generalize p s i = x
  generalize p' s' i = y
  obtain ⟨x | ⟨a, r⟩, t⟩ := x <;> obtain ⟨y | ⟨b, r'⟩, t'⟩ := y <;> intro h1 h2 <;> simp at h1 h2 ⊢
  · exact h2
  · obtain ⟨rfl, rfl⟩ := h1
    obtain ⟨k1, k2⟩ := Alike.repeat0Aux h (r.length + 1) r _ _ h2
    simp only [TParser.repeat0]
    revert k1 k2
    generalize TParser.repeat0Aux p (r.length + 1) t r = x
    generalize TParser.repeat0Aux p' (r.length + 1) t' r = y
    obtain ⟨x | ⟨a, r⟩, t⟩ := x <;> obtain ⟨y | ⟨b, r'⟩, t'⟩ := y <;> intro k1 k2 <;> simp_all

theorem Alike.lift (f : Parser α) : Alike (TParser.lift f) (TParser.lift f) := fun _ _ _ hs => ⟨rfl, hs⟩

theorem Alike.tws (h : Alike p p') : Alike (Pica.tws p) (Pica.tws p') :=
  Alike.delimited (Alike.lift _) h (Alike.lift _)

theorem Alike.composite {S : Syn M} {p p' : TParser M} (h : Alike p p') :
    Alike (Pica.composite S p) (Pica.composite S p') := by
  have chain : ∀ {op : Parser Unit} {q q' : TParser M} (f : M → M → M), Alike q q' →
      Alike (Pica.chain op (Pica.tws q) f) (Pica.chain op (Pica.tws q') f) := fun f hq =>
    Alike.map (Alike.seq hq.tws (Alike.repeat1 (Alike.preceded (Alike.lift _) hq.tws))) _
  have h1 : Alike (andChain S p) (andChain S p') := chain _ h
  have h2 : Alike (xorChain S p) (xorChain S p') := chain _ (h1.alt h)
  have h3 : Alike (orChain S p) (orChain S p') := chain _ (h1.alt (h2.alt h))
  exact h3.alt (h2.alt h1)

theorem Alike.of_resp (h : Resp SameLevels (fun _ => True) p) : Alike p p :=
  fun i s s' hs => ⟨(h i trivial s s' hs).1, (h i trivial s s' hs).2.1⟩

end

theorem subSteps_same : SubSteps SameLevels (fun _ => True) where
  suffix := fun _ _ _ => trivial
  sub := by
    refine Resp.terminated (Resp.lift (fun _ _ _ _ _ => trivial)) ?_
    rintro i - ⟨a, b, c⟩ ⟨a', b', c'⟩ ⟨h1, h2⟩
    dsimp only at h1 h2
    subst h1 h2
    unfold subInc
    dsimp only
    split <;> exact ⟨rfl, ⟨rfl, rfl⟩, fun _ _ _ => trivial⟩
  subReset := fun _ _ h => ⟨rfl, h.2⟩

theorem tickPar (s : Levels) (i : Bytes) :
    TParser.terminated (TParser.lift (ws (byte 0x28))) (TParser.update tick) s i =
      (ws (byte 0x28) i, if (ws (byte 0x28) i).isSome then tick s else s) := by
  unfold TParser.terminated TParser.seq TParser.map TParser.lift TParser.update
  dsimp only
  cases ws (byte 0x28) i with
  | none => rfl
  | some x => rfl

theorem fields_alike (rx : Bytes → Bool) : ∀ k, Alike (tFieldGroup rx k) (pFieldGroup rx k) ∧
    Alike (tFieldNot rx k) (pFieldNot rx k)
  | 0 => by
    simp only [tFieldGroup, tFieldNot, pFieldGroup, pFieldNot]
    exact ⟨fun _ _ _ hs => ⟨rfl, hs⟩, fun _ _ _ hs => ⟨rfl, hs⟩⟩
  | k + 1 => by
    obtain ⟨hg, hn⟩ := fields_alike rx k
    have hs := Alike.of_resp (subSteps_same.fieldSingleM rx)
    have hcard := Alike.of_resp (subSteps_same.fieldCardM rx)
    have hc := Alike.composite (S := fieldSyn) (show Alike (fieldAtoms rx (tFieldGroup rx k) (tFieldNot rx k))
      (fieldAtoms rx (pFieldGroup rx k) (pFieldNot rx k)) from
        hg.alt (hcard.alt (hs.alt (hn.alt (Alike.lift _)))))
    constructor
    · rw [tFieldGroup, pFieldGroup]
      refine Alike.map (Alike.delimited ?_ (hc.alt (hs.alt (hn.alt (hcard.alt hg))))
        (Alike.terminated (Alike.lift _) ?_)) _
      · refine Alike.terminated ?_ ?_
        · intro i s s' hs
          rw [tickPar]
          refine ⟨rfl, ?_⟩
          show SameLevels (if _ then tick s else s) s'
          split <;> exact hs
        · rintro i ⟨a, b, c⟩ ⟨a', b', c'⟩ ⟨h1, h2⟩
          dsimp only at h1 h2
          subst h1 h2
          unfold fldInc
          dsimp only
          split <;> exact ⟨rfl, ⟨rfl, rfl⟩⟩
      · intro i s s' hs
        exact ⟨rfl, ⟨hs.1, by simp only [TParser.update, fldDec, hs.2]⟩⟩
    · rw [tFieldNot, pFieldNot]
      exact Alike.map (Alike.preceded (Alike.lift _) (hg.alt (Alike.alt
        ((Alike.of_resp (subSteps_same.bracket rx)).map _) ((Alike.lift _).alt hn)))) _

theorem fieldMatcher_alike (rx : Bytes → Bool) : Alike (tFieldMatcher rx) (pFieldMatcher rx) := by
  intro i s s' hs
  obtain ⟨hg, hn⟩ := fields_alike rx (i.length + 1)
  have h1 := Alike.of_resp (subSteps_same.fieldSingleM rx)
  have h4 := Alike.of_resp (subSteps_same.fieldCardM rx)
  have hc := Alike.composite (S := fieldSyn) (show Alike (fieldAtoms rx (tFieldGroup rx (i.length + 1)) (tFieldNot rx (i.length + 1)))
      (fieldAtoms rx (pFieldGroup rx (i.length + 1)) (pFieldNot rx (i.length + 1))) from
        hg.alt (h4.alt (h1.alt (hn.alt (Alike.lift _)))))
  have ht : Alike (Pica.tws (TParser.alt (tFieldComposite rx (i.length + 1)) (TParser.alt (tFieldGroup rx (i.length + 1))
      (TParser.alt (tFieldNot rx (i.length + 1)) (TParser.alt (pFieldSingleM rx) (pFieldCardM rx))))))
      (Pica.tws (TParser.alt (pFieldComposite rx (i.length + 1)) (TParser.alt (pFieldGroup rx (i.length + 1))
      (TParser.alt (pFieldNot rx (i.length + 1)) (TParser.alt (pFieldSingleM rx) (pFieldCardM rx)))))) :=
    Alike.tws (Alike.alt hc (hg.alt (hn.alt (h1.alt h4))))
  obtain ⟨k1, k2⟩ := ht i s s' hs
  unfold tFieldMatcher pFieldMatcher
  dsimp only
  revert k1 k2
  generalize Pica.tws _ s i = x
  generalize Pica.tws _ s' i = y
  obtain ⟨x | x, t⟩ := x <;> obtain ⟨y | y, t'⟩ := y <;> intro k1 k2 <;> simp at k1 k2 ⊢
  · exact k2
  · exact ⟨k1, k2.1, rfl⟩

/-! ## Upper bound -/

/-- opening parentheses -/
def parens (i : Bytes) : Nat := i.count 0x28

/-- on texts of at most `L` bytes with at most `n` opening parentheses, `p` tries groups at most `c` times,
and what remains is not longer and has no more parentheses -/
def Within {α : Type} (L n c : Nat) (p : TParser α) : Prop :=
  ∀ i s, i.length ≤ L → parens i ≤ n → (p s i).2.fmt ≤ s.fmt + c ∧
    ∀ a r, (p s i).1 = some (a, r) → r.length ≤ i.length ∧ parens r ≤ parens i

section
variable {α β γ M : Type} {L n c d : Nat}

theorem Within.mono {p : TParser α} (h : Within L n c p) (hc : c ≤ d) : Within L n d p :=
  fun i s h1 h2 => ⟨Nat.le_trans (h i s h1 h2).1 (by omega), (h i s h1 h2).2⟩

theorem Within.map {p : TParser α} (h : Within L n c p) (f : α → β) : Within L n c (TParser.map f p) := by
  intro i s h1 h2
  obtain ⟨k1, k2⟩ := h i s h1 h2
  revert k1 k2
  simp only [TParser.map]
  generalize p s i = x
  obtain ⟨x | ⟨a, r⟩, t⟩ := x <;> intro k1 k2 <;> simp_all

theorem Within.seq {p : TParser α} {q : TParser β} (h : Within L n c p) (h' : Within L n d q) :
    Within L n (c + d) (TParser.seq p q) := by
  intro i s h1 h2
  obtain ⟨k1, k2⟩ := h i s h1 h2
  revert k1 k2
  simp only [TParser.seq]
  generalize p s i = x
  obtain ⟨x | ⟨a, r⟩, t⟩ := x <;> intro k1 k2
  · exact ⟨by dsimp only at k1 ⊢; omega, by simp⟩
  · obtain ⟨k3, k4⟩ := k2 a r rfl
    obtain ⟨k5, k6⟩ := h' r t (by omega) (by omega)
    revert k5 k6
    dsimp only at k1 ⊢
    generalize q t r = x
    obtain ⟨x | ⟨b, r'⟩, t'⟩ := x <;> intro k5 k6
    · exact ⟨by dsimp only at k5 ⊢; omega, by simp⟩
    · obtain ⟨k7, k8⟩ := k6 b r' rfl
      refine ⟨by dsimp only at k5 ⊢; omega, ?_⟩
      rintro _ _ hh
      cases hh
      omega

theorem Within.preceded {p : TParser α} {q : TParser β} (h : Within L n c p) (h' : Within L n d q) :
    Within L n (c + d) (TParser.preceded p q) := (h.seq h').map _
theorem Within.terminated {p : TParser α} {q : TParser β} (h : Within L n c p) (h' : Within L n d q) :
    Within L n (c + d) (TParser.terminated p q) := (h.seq h').map _

theorem Within.alt {p q : TParser α} (h : Within L n c p) (h' : Within L n d q) :
    Within L n (c + d) (TParser.alt p q) := by
  intro i s h1 h2
  obtain ⟨k1, k2⟩ := h i s h1 h2
  revert k1 k2
  simp only [TParser.alt]
  generalize p s i = x
  obtain ⟨x | ⟨a, r⟩, t⟩ := x <;> intro k1 k2
  · obtain ⟨k3, k4⟩ := h' i t h1 h2
    dsimp only at k1 ⊢
    exact ⟨by omega, k4⟩
  · exact ⟨by dsimp only at k1 ⊢; omega, k2⟩

theorem Within.repeat0Aux {p : TParser α} (h : Within L n c p) : ∀ m, Within L n (m * c) (TParser.repeat0Aux p m)
  | 0 => fun i s _ _ => ⟨by simp [TParser.repeat0Aux], by
      simp only [TParser.repeat0Aux]; rintro a r h; cases h; exact ⟨Nat.le_refl _, Nat.le_refl _⟩⟩
  | m + 1 => by
    intro i s h1 h2
    obtain ⟨k1, k2⟩ := h i s h1 h2
    have e : (m + 1) * c = c + m * c := by rw [Nat.add_mul, Nat.one_mul, Nat.add_comm]
    revert k1 k2
    simp only [TParser.repeat0Aux]
    generalize p s i = x
    obtain ⟨x | ⟨a, r⟩, t⟩ := x <;> intro k1 k2
    · refine ⟨by dsimp only at k1 ⊢; omega, ?_⟩
      rintro _ _ hh
      cases hh
      exact ⟨Nat.le_refl _, Nat.le_refl _⟩
    · obtain ⟨k3, k4⟩ := k2 a r rfl
      dsimp only at k1 ⊢
      split
      · obtain ⟨k5, k6⟩ := Within.repeat0Aux h m r t (by omega) (by omega)
        revert k5 k6
        generalize TParser.repeat0Aux p m t r = x
        obtain ⟨x | ⟨b, r'⟩, t'⟩ := x <;> intro k5 k6
        · exact ⟨by dsimp only at k5 ⊢; omega, by simp⟩
        · obtain ⟨k7, k8⟩ := k6 b r' rfl
          refine ⟨by dsimp only at k5 ⊢; omega, ?_⟩
          rintro _ _ hh
          cases hh
          omega
      · exact ⟨by dsimp only; omega, by simp⟩

theorem Within.repeat1 {p : TParser α} (h : Within L n c p) : Within L n ((L + 2) * c) (TParser.repeat1 p) := by
  intro i s h1 h2
  obtain ⟨k1, k2⟩ := h i s h1 h2
  have e : (L + 2) * c = c + (L + 1) * c := by rw [Nat.add_mul, Nat.add_mul]; omega
  revert k1 k2
  simp only [TParser.repeat1]
  generalize p s i = x
  obtain ⟨x | ⟨a, r⟩, t⟩ := x <;> intro k1 k2
  · exact ⟨by dsimp only at k1 ⊢; omega, by simp⟩
  · obtain ⟨k3, k4⟩ := k2 a r rfl
    dsimp only at k1 ⊢
    obtain ⟨k5, k6⟩ := (Within.repeat0Aux h (r.length + 1)) r t (by omega) (by omega)
    have e2 : (r.length + 1) * c ≤ (L + 1) * c := Nat.mul_le_mul_right c (by omega)
    simp only [TParser.repeat0]
    revert k5 k6
    generalize TParser.repeat0Aux p (r.length + 1) t r = x
    obtain ⟨x | ⟨b, r'⟩, t'⟩ := x <;> intro k5 k6
    · exact ⟨by dsimp only at k5 ⊢; omega, by simp⟩
    · obtain ⟨k7, k8⟩ := k6 b r' rfl
      refine ⟨by dsimp only at k5 ⊢; omega, ?_⟩
      rintro _ _ hh
      cases hh
      omega

theorem parens_suffix (t r : Bytes) : (r.length ≤ (t ++ r).length) ∧ parens r ≤ parens (t ++ r) := by
  unfold parens
  rw [List.count_append]
  constructor
  · simp
  · omega

theorem Within.lift {f : Parser α} {Q : α → Bytes → Prop} (h : Reads f Q) : Within L n 0 (TParser.lift f) := by
  intro i s _ _
  refine ⟨Nat.le_refl _, fun a r hp => ?_⟩
  obtain ⟨t, rfl, -⟩ := h i a r hp
  exact parens_suffix t r

theorem Within.of_resp {p : TParser α} (h : ∀ c, Resp (fun s s' => s = s' ∧ s.fmt = c) (fun _ => True) p)
    {Q : α → Bytes → Prop} (h' : TParser.Sound p Q) : Within L n 0 p := by
  intro i s _ _
  obtain ⟨-, h2, -⟩ := h s.fmt i trivial s s ⟨rfl, rfl⟩
  refine ⟨by rw [h2.2]; omega, fun a r hp => ?_⟩
  obtain ⟨t, rfl, -⟩ := h' s i a r _ (Prod.ext hp rfl)
  exact parens_suffix t r

theorem multispace0_reads' : Reads Pica.multispace0 (fun _ _ => True) := by
  intro i a r hp
  simp only [Pica.multispace0, Option.some.injEq, Prod.mk.injEq] at hp
  exact ⟨a, by rw [← hp.1, ← hp.2, List.takeWhile_append_dropWhile], trivial⟩

theorem Within.tws {p : TParser α} (h : Within L n c p) : Within L n c (Pica.tws p) := by
  have := Within.preceded (Within.lift multispace0_reads')
    (Within.terminated h (Within.lift multispace0_reads'))
  rw [Nat.zero_add, Nat.add_zero] at this
  exact this

theorem Within.chain {op : Parser Unit} {p : TParser M} {f : M → M → M} {Q : Unit → Bytes → Prop} (ho : Reads op Q)
    (h : Within L n c p) : Within L n ((L + 3) * c) (Pica.chain op (Pica.tws p) f) := by
  have := Within.map (Within.seq h.tws (Within.repeat1 (Within.preceded (Within.lift ho) h.tws)))
    (fun x : M × List M => x.2.foldl f x.1)
  have e : (L + 3) * c = c + (L + 2) * (0 + c) := by rw [Nat.zero_add, Nat.add_mul, Nat.add_mul]; omega
  rw [e]
  exact this

theorem Within.composite {S : Syn M} {p : TParser M} {Q Q' : Unit → Bytes → Prop} (ha : Reads S.opAnd Q)
    (ho : Reads S.opOr Q') (h : Within L n c p) : Within L n (((L + 4) ^ 3 - 1) * c) (Pica.composite S p) := by
  have hx : Reads pXorOp (fun _ _ => True) := (Reads.alt (Reads.lit _) (Reads.lit _)).mono (fun _ _ _ => trivial)
  have h1 : Within L n ((L + 3) * c) (andChain S p) := Within.chain ha h
  have h2 : Within L n ((L + 3) * ((L + 3) * c + c)) (xorChain S p) := Within.chain hx (h1.alt h)
  have h3 : Within L n ((L + 3) * ((L + 3) * c + ((L + 3) * ((L + 3) * c + c) + c))) (orChain S p) :=
    Within.chain ho (h1.alt (h2.alt h))
  have h4 := h3.alt (h2.alt h1)
  refine Within.mono h4 (Nat.le_of_eq ?_)
  have e1 : (L + 3) * c + c = (L + 4) * c := by rw [← Nat.succ_mul]
  have e2 : (L + 4) ^ 3 - 1 = (L + 3) * ((L + 4) * (L + 4) + (L + 4) + 1) := by
    apply Nat.sub_eq_of_eq_add
    ring
  rw [e2, e1]
  ring

end

theorem resp_fmt (c : Nat) : SubSteps (fun s s' => s = s' ∧ s.fmt = c) (fun _ => True) where
  suffix := fun _ _ _ => trivial
  sub := by
    refine Resp.terminated (Resp.lift (fun _ _ _ _ _ => trivial)) ?_
    rintro i - s s' ⟨rfl, hs⟩
    refine ⟨rfl, ⟨rfl, ?_⟩, fun _ _ _ => trivial⟩
    unfold subInc
    dsimp only
    split <;> exact hs
  subReset := by rintro s s' ⟨rfl, h⟩; exact ⟨rfl, h⟩

/-- the bound for one group -/
def groupBound (L : Nat) : Nat → Nat
  | 0 => 0
  | n + 1 => 1 + (L + 4) ^ 4 * groupBound L n

theorem groupBound_lt (L n : Nat) : groupBound L n + 1 ≤ ((L + 4) ^ 4) ^ n := by
  induction n with
  | zero => simp [groupBound]
  | succ n ih =>
    rw [groupBound, show ((L + 4) ^ 4) ^ (n + 1) = ((L + 4) ^ 4) ^ n * (L + 4) ^ 4 from pow_succ _ _]
    have h : 2 ≤ (L + 4) ^ 4 := Nat.le_trans (by decide) (Nat.pow_le_pow_left (show 4 ≤ L + 4 by omega) 4)
    have := Nat.mul_le_mul_left ((L + 4) ^ 4) ih
    rw [Nat.mul_add, Nat.mul_one] at this
    rw [Nat.mul_comm (((L + 4) ^ 4) ^ n)]
    omega

theorem within_zero {α : Type} {L n c : Nat} {p : TParser α} (h : ∀ s i, p s i = (none, s)) : Within L n c p :=
  fun i s _ _ => by rw [h]; exact ⟨by simp, by simp⟩

theorem inner_le (L g : Nat) :
    ((L + 4) ^ 3 - 1) * (g + (L + 1) * g) + ((L + 1) * g + g) ≤ (L + 4) ^ 4 * g := by
  have e : g + (L + 1) * g = (L + 2) * g := by rw [Nat.add_mul, Nat.add_mul]; omega
  have e' : (L + 1) * g + g = (L + 2) * g := by rw [Nat.add_mul, Nat.add_mul]; omega
  rw [e, e', ← Nat.succ_mul, ← Nat.mul_assoc]
  refine Nat.mul_le_mul_right g ?_
  have : ((L + 4) ^ 3 - 1).succ = (L + 4) ^ 3 := by
    have : 0 < (L + 4) ^ 3 := Nat.pow_pos (by omega)
    omega
  rw [this, show (4 : Nat) = 3 + 1 from rfl, Nat.pow_succ]
  exact Nat.mul_le_mul_left _ (by omega)

theorem atoms_within {rx : Bytes → Bool} {L n g : Nat} {G N : TParser FieldMatcher} (hg : Within L n g G)
    (hn : Within L n ((L + 1) * g) N) : Within L n (g + (L + 1) * g) (fieldAtoms rx G N) := by
  have hs : Within L n 0 (pFieldSingleM rx) := Within.of_resp (fun c => (resp_fmt c).fieldSingleM rx)
    (pFieldSingleM_sound rx anyEnv anyOpts)
  have hcard : Within L n 0 (pFieldCardM rx) := Within.of_resp (fun c => (resp_fmt c).fieldCardM rx)
    (pFieldCardM_sound rx anyEnv anyOpts)
  have := hg.alt (hcard.alt (hs.alt (hn.alt (Within.lift (L := L) (n := n) (pFieldExistsM_reads rx anyEnv anyOpts)))))
  simp only [Nat.zero_add, Nat.add_zero] at this
  exact this

theorem fieldComposite_within {rx : Bytes → Bool} {L n g : Nat} {G N : TParser FieldMatcher} (hg : Within L n g G)
    (hn : Within L n ((L + 1) * g) N) :
    Within L n (((L + 4) ^ 3 - 1) * (g + (L + 1) * g)) (composite fieldSyn (fieldAtoms rx G N)) :=
  Within.composite (S := fieldSyn) (Reads.lit _).ws (Reads.lit _).ws (atoms_within hg hn)

/-- the parser of the opening parenthesis -/
def opened : TParser Byte :=
  TParser.terminated (TParser.terminated (TParser.lift (ws (byte 0x28))) (TParser.update tick)) fldInc

theorem opened_spec (s : Levels) (i : Bytes) :
    (parens i = 0 → opened s i = (none, s)) ∧ (opened s i).2.fmt ≤ s.fmt + 1 ∧
    ∀ a r, (opened s i).1 = some (a, r) → r.length ≤ i.length ∧ parens r + 1 ≤ parens i := by
  have hopen : ∀ b r, ws (byte 0x28) i = some (b, r) → r.length ≤ i.length ∧ parens r + 1 ≤ parens i := by
    intro b r h
    obtain ⟨t, rfl, w, u, w', e, -, ⟨-, rfl⟩, -⟩ := (Reads.byte 0x28).ws i b r h
    subst e
    refine ⟨by simp only [List.length_append]; omega, ?_⟩
    unfold parens
    simp only [List.count_append, List.count_singleton_self]
    omega
  have e : opened s i = match ws (byte 0x28) i with
      | none => (none, s)
      | some (b, r) => match fldInc (tick s) r with
        | (none, s') => (none, s')
        | (some (_, r'), s') => (some (b, r'), s') := by
    unfold opened
    rw [show TParser.terminated (TParser.terminated (TParser.lift (ws (byte 0x28))) (TParser.update tick)) fldInc s i =
      TParser.map Prod.fst (TParser.seq (TParser.terminated (TParser.lift (ws (byte 0x28))) (TParser.update tick)) fldInc) s i
      from rfl]
    unfold TParser.map TParser.seq
    rw [tickPar]
    cases ws (byte 0x28) i with
    | none => rfl
    | some x =>
      obtain ⟨b, r⟩ := x
      simp only [Option.isSome_some, if_true]
      generalize fldInc (tick s) r = y
      obtain ⟨_ | ⟨_, _⟩, _⟩ := y <;> rfl
  cases h : ws (byte 0x28) i with
  | none =>
    rw [e, h]
    exact ⟨fun _ => rfl, by simp, by simp⟩
  | some x =>
    obtain ⟨b, r⟩ := x
    obtain ⟨h1, h2⟩ := hopen b r h
    rw [e, h]
    refine ⟨fun h0 => by omega, ?_⟩
    by_cases hf : (tick s).fld + 1 ≥ 256
    · simp only [fldInc, if_pos hf]
      simp [tick]
    · simp only [fldInc, if_neg hf]
      refine ⟨by simp [tick], ?_⟩
      rintro _ _ hh
      cases hh
      exact ⟨h1, h2⟩

theorem within_opened_zero {α β : Type} {L c : Nat} {p : TParser α} {q : TParser β} :
    Within L 0 c (TParser.delimited opened p q) := by
  intro i s _ h
  have := (opened_spec s i).1 (by omega)
  rw [show TParser.delimited opened p q s i = (none, s) from TParser.preceded_none this]
  exact ⟨by simp, by simp⟩

theorem within_opened {α : Type} {L n c : Nat} {p : TParser α} (h : Within L n c p) :
    Within L (n + 1) (1 + c) (TParser.preceded opened p) := by
  intro i s h1 h2
  obtain ⟨-, k1, k2⟩ := opened_spec s i
  revert k1 k2
  simp only [TParser.preceded, TParser.map, TParser.seq]
  generalize opened s i = x
  obtain ⟨x | ⟨a, r⟩, t⟩ := x <;> intro k1 k2
  · exact ⟨by dsimp only at k1 ⊢; omega, by simp⟩
  · obtain ⟨k3, k4⟩ := k2 a r rfl
    obtain ⟨k5, k6⟩ := h r t (by omega) (by omega)
    revert k5 k6
    dsimp only at k1 ⊢
    generalize p t r = x
    obtain ⟨x | ⟨b, r'⟩, t'⟩ := x <;> intro k5 k6
    · exact ⟨by dsimp only at k5 ⊢; omega, by simp⟩
    · obtain ⟨k7, k8⟩ := k6 b r' rfl
      refine ⟨by dsimp only at k5 ⊢; omega, ?_⟩
      rintro _ _ hh
      cases hh
      omega

theorem group_within (rx : Bytes → Bool) (L : Nat) : ∀ k n, k ≤ L + 1 → Within L n (groupBound L n) (tFieldGroup rx k) ∧
    Within L n (k * groupBound L n) (tFieldNot rx k)
  | 0, n, _ => by
    simp only [tFieldGroup, tFieldNot]
    exact ⟨within_zero (fun _ _ => rfl), within_zero (fun _ _ => rfl)⟩
  | k + 1, n, hk => by
    constructor
    · rw [tFieldGroup]
      refine Within.map ?_ _
      cases n with
      | zero => exact within_opened_zero
      | succ n =>
        obtain ⟨hg, hn⟩ := group_within rx L k n (by omega)
        have hn' := hn.mono (Nat.mul_le_mul_right (groupBound L n) (show k ≤ L + 1 by omega))
        have hs : Within L n 0 (pFieldSingleM rx) := Within.of_resp (fun c => (resp_fmt c).fieldSingleM rx)
          (pFieldSingleM_sound rx anyEnv anyOpts)
        have hcard : Within L n 0 (pFieldCardM rx) := Within.of_resp (fun c => (resp_fmt c).fieldCardM rx)
          (pFieldCardM_sound rx anyEnv anyOpts)
        have hi := (fieldComposite_within (rx := rx) hg hn').alt (hs.alt (hn'.alt (hcard.alt hg)))
        simp only [Nat.zero_add] at hi
        have hclose : Within L n 0 (TParser.terminated (TParser.lift (ws (byte 0x29))) (TParser.update fldDec)) :=
          Within.of_resp (Q := fun _ _ => True) (fun c => by
            refine Resp.terminated (Resp.lift (fun _ _ _ _ _ => trivial)) ?_
            rintro i - s s' ⟨rfl, hs⟩
            exact ⟨rfl, ⟨rfl, hs⟩, fun _ _ _ => trivial⟩)
            (by
              intro s i a r s' hp
              simp only [TParser.terminated, TParser.seq, TParser.map, TParser.lift, TParser.update] at hp
              cases h : ws (byte 0x29) i with
              | none => rw [h] at hp; simp at hp
              | some x =>
                obtain ⟨b, r'⟩ := x
                rw [h] at hp
                simp only [Prod.mk.injEq, Option.some.injEq] at hp
                obtain ⟨t, ht, -⟩ := (Reads.byte 0x29).ws i b r' h
                exact ⟨t, by rw [← hp.1.2]; exact ht, trivial⟩)
        have := within_opened (hi.terminated hclose)
        exact this.mono (by rw [groupBound]; have := inner_le L (groupBound L n); omega)
    · rw [tFieldNot]
      obtain ⟨hg, hn⟩ := group_within rx L k n (by omega)
      have hb : Within L n 0 (TParser.map FieldMatcher.single (pSubfieldsBracket rx)) :=
        (Within.of_resp (fun c => (resp_fmt c).bracket rx) (pSubfieldsBracket_sound rx anyEnv anyOpts)).map _
      have := Within.map (Within.preceded (Within.lift (L := L) (n := n) (Reads.byte 0x21).ws)
        (hg.alt (hb.alt ((Within.lift (L := L) (n := n) (pFieldExistsM_reads rx anyEnv anyOpts)).alt hn)))) FieldMatcher.not
      refine this.mono ?_
      rw [Nat.add_mul]
      omega

/-- the number of attempts is bounded by the length and the number of opening parentheses -/
theorem fieldMatcher_attempts (rx : Bytes → Bool) (s : Levels) (i : Bytes) :
    (tFieldMatcher rx s i).2.fmt ≤ s.fmt + (i.length + 4) ^ 4 * groupBound i.length (parens i) := by
  obtain ⟨hg, hn⟩ := group_within rx i.length (i.length + 1) (parens i) (Nat.le_refl _)
  have hs : Within i.length (parens i) 0 (pFieldSingleM rx) := Within.of_resp (fun c => (resp_fmt c).fieldSingleM rx)
    (pFieldSingleM_sound rx anyEnv anyOpts)
  have hcard : Within i.length (parens i) 0 (pFieldCardM rx) := Within.of_resp (fun c => (resp_fmt c).fieldCardM rx)
    (pFieldCardM_sound rx anyEnv anyOpts)
  have h := (Within.tws ((fieldComposite_within (rx := rx) hg hn).alt (hg.alt (hn.alt (hs.alt hcard))))) i s
    (Nat.le_refl _) (Nat.le_refl _)
  have h1 := h.1
  have h2 := inner_le i.length (groupBound i.length (parens i))
  unfold tFieldMatcher tFieldComposite
  dsimp only
  revert h1
  generalize tws _ s i = x
  intro h1
  obtain ⟨_ | ⟨a, r⟩, t⟩ := x
  · dsimp only at h1 ⊢
    omega
  · dsimp only [fldReset] at h1 ⊢
    omega

/-! ## Nested parentheses: the exact number -/

/-- `c` more attempts -/
def Levels.addFmt (s : Levels) (c : Nat) : Levels := { s with fmt := s.fmt + c }

theorem addFmt_zero (s : Levels) : s.addFmt 0 = s := rfl
theorem addFmt_add (s : Levels) (c d : Nat) : (s.addFmt c).addFmt d = s.addFmt (c + d) := by
  simp [Levels.addFmt, Nat.add_assoc]

/-- with `b` levels left, `f` has a result with `Q` after `c` attempts -/
def TakesTries {α : Type} (b : Nat) (f : Levels → Option α × Levels) (c : Nat) (Q : Option α → Prop) : Prop :=
  ∀ s : Levels, s.fld + b < 256 → ∃ x, Q x ∧ f s = (x, s.addFmt c)

section
variable {M : Type} {p q : TParser M} {D : M} {b : Nat}

theorem TakesTries.alt {i c c' Q} (h : TakesTries b (fun s => p s i) c IsNone) (h' : TakesTries b (fun s => q s i) c' Q) :
    TakesTries b (fun s => TParser.alt p q s i) (c + c') Q := by
  intro s hs
  obtain ⟨_, rfl, h1⟩ := h s hs
  obtain ⟨x, hx, h2⟩ := h' (s.addFmt c) hs
  refine ⟨x, hx, ?_⟩
  simp only at h1 h2 ⊢
  rw [TParser.alt_right h1, h2, addFmt_add]

theorem TakesTries.chain {op : Parser Unit} {f : M → M → M} {i c r} (hi : NoWs i)
    (h : TakesTries b (fun s => p s i) c (IsMat D r)) (hop : op r = none) :
    TakesTries b (fun s => Pica.chain op (Pica.tws p) f s i) c IsNone := by
  intro s hs
  obtain ⟨_, ⟨r', rfl, hr⟩, h1⟩ := h s hs
  simp only at h1 ⊢
  refine ⟨none, rfl, chain_none_st (tws_run (by rw [dws_of_noWs hi]; exact h1)) ?_⟩
  rw [hr]; exact hop

/-- a single operand is read seven times by `composite`, which then fails -/
theorem TakesTries.composite {S : Syn M} {i c r} (hS : SynRuns S) (hi : NoWs i)
    (h : TakesTries b (fun s => p s i) c (IsMat D r)) (hr : Stop r) :
    TakesTries b (fun s => Pica.composite S p s i) (7 * c) IsNone := by
  have a1 : TakesTries b (fun s => andChain S p s i) c IsNone :=
    TakesTries.chain hi h (hS.and_none _ (.inl (.inl hr)))
  have x1 : TakesTries b (fun s => xorChain S p s i) (c + c) IsNone :=
    TakesTries.chain hi (TakesTries.alt a1 h) (pXorOp_none _ (.inl hr))
  have o1 : TakesTries b (fun s => orChain S p s i) (c + (c + c + c)) IsNone :=
    TakesTries.chain hi (TakesTries.alt a1 (TakesTries.alt x1 h)) (hS.or_none _ hr)
  have := TakesTries.alt o1 (TakesTries.alt x1 a1)
  have e : c + (c + c + c) + (c + c + c) = 7 * c := by omega
  rw [e] at this
  exact this

theorem TakesTries.free {i} (h : ∀ s, p s i = (none, s)) : TakesTries b (fun s => p s i) 0 IsNone :=
  fun s _ => ⟨none, rfl, h s⟩

end

theorem tFieldGroup_none {rx : Bytes → Bool} {k s} {i : Bytes} (h : NoWs i)
    (h' : i.head? ≠ some 0x28) : tFieldGroup rx k s i = (none, s) := by
  cases k with
  | zero => simp [tFieldGroup, TParser.fail]
  | succ k =>
    rw [tFieldGroup]
    exact TParser.map_none (TParser.preceded_none (TParser.terminated_none (TParser.terminated_none
      (TParser.lift_none (wsByte_none h h')))))

theorem tFieldNot_none {rx : Bytes → Bool} {k s} {i : Bytes} (h : NoWs i)
    (h' : i.head? ≠ some 0x21) : tFieldNot rx k s i = (none, s) := by
  cases k with
  | zero => simp [tFieldNot, TParser.fail]
  | succ k =>
    rw [tFieldNot]
    exact TParser.map_none (TParser.preceded_none (TParser.lift_none (wsByte_none h h')))

/-- an expression without parentheses that `parse_field_singleton_matcher` reads -/
structure Simple (rx : Bytes → Bool) (e : Bytes) (m : FieldMatcher) : Prop where
  noWs : NoWs e
  ne : e ≠ []
  paren : e.head? ≠ some 0x28
  hash : e.head? ≠ some 0x23
  bang : e.head? ≠ some 0x21
  run : ∀ s rest, Follow rest → ∃ r', pFieldSingleM rx s (e ++ rest) = (some (m, r'), s) ∧ dws r' = rest

/-- what is tried inside parentheses -/
def tInner (rx : Bytes → Bool) (k : Nat) : TParser FieldMatcher :=
  TParser.alt (composite fieldSyn (fieldAtoms rx (tFieldGroup rx k) (tFieldNot rx k)))
    (TParser.alt (pFieldSingleM rx) (TParser.alt (tFieldNot rx k)
      (TParser.alt (pFieldCardM rx) (tFieldGroup rx k))))

/-- the matcher of `d` nested groups -/
def fldGroups (m : FieldMatcher) : Nat → FieldMatcher
  | 0 => m
  | d + 1 => .group (fldGroups m d)

section
variable {rx : Bytes → Bool} {e : Bytes} {m : FieldMatcher}

/-- a simple operand takes no attempt -/
theorem Simple.atoms (h : Simple rx e m) (k : Nat) {b : Nat} {rest : Bytes} (hr : Stop rest) :
    TakesTries b (fun s => fieldAtoms rx (tFieldGroup rx k) (tFieldNot rx k) s (e ++ rest)) 0 (IsMat m rest) := by
  intro s _
  have hnw : NoWs (e ++ rest) := noWs_append h.ne h.noWs
  obtain ⟨r', g1, g2⟩ := h.run s rest (stop_follow hr)
  refine ⟨_, ⟨r', rfl, g2⟩, ?_⟩
  simp only
  unfold fieldAtoms
  rw [TParser.alt_right (tFieldGroup_none hnw (head_append h.ne h.paren _)),
    TParser.alt_right (pFieldCardM_none hnw (head_append h.ne h.hash _))]
  exact TParser.alt_left g1

theorem Simple.inner (h : Simple rx e m) (k : Nat) {b : Nat} {rest : Bytes} (hr : Stop rest) :
    TakesTries b (fun s => tInner rx k s (e ++ rest)) 0 (IsMat m rest) := by
  have hnw : NoWs (e ++ rest) := noWs_append h.ne h.noWs
  refine TakesTries.alt (c := 7 * 0) (c' := 0) (TakesTries.composite fieldSyn_runs hnw (h.atoms k hr) hr) ?_
  intro s _
  obtain ⟨r', g1, g2⟩ := h.run s rest (stop_follow hr)
  exact ⟨_, ⟨r', rfl, g2⟩, TParser.alt_left g1⟩

/-- the group parser on a group: one attempt and what is inside -/
theorem tFieldGroup_takes {k b c : Nat} {t : Bytes} {D : FieldMatcher} {rest : Bytes} (ht : NoWs t) (ht' : t ≠ [])
    (hr : NoWs rest) (h : TakesTries b (fun s => tInner rx k s (t ++ (0x29 :: rest))) c (IsMat D (0x29 :: rest))) :
    TakesTries (b + 1) (fun s => tFieldGroup rx (k + 1) s (0x28 :: (t ++ (0x29 :: rest)))) (1 + c) (IsMat D.group rest) := by
  intro s hs
  have w1 : ws (byte 0x28) (0x28 :: (t ++ (0x29 :: rest))) = some (0x28, t ++ (0x29 :: rest)) := by
    have := ws_run' (p := byte 0x28) (i := 0x28 :: (t ++ (0x29 :: rest)))
      (by rw [dws_cons _ (by decide)]; exact byte_cons_self _ _)
    rw [dws_of_noWs (noWs_append ht' ht)] at this
    exact this
  have inc : TParser.terminated (TParser.terminated (TParser.lift (ws (byte 0x28))) (TParser.update tick)) fldInc s
      (0x28 :: (t ++ (0x29 :: rest))) =
      (some (0x28, t ++ (0x29 :: rest)), { s with fld := s.fld + 1, fmt := s.fmt + 1 }) := by
    refine TParser.terminated_run (s' := tick s) (r := t ++ (0x29 :: rest)) (b := ()) ?_ ?_
    · rw [tickPar, w1]; rfl
    · have : ¬ (s.fld + 1 ≥ 256) := by omega
      simp only [fldInc, tick]
      exact if_neg this
  obtain ⟨_, ⟨r', rfl, hr'⟩, h1⟩ := h { s with fld := s.fld + 1, fmt := s.fmt + 1 } (by simp only; omega)
  have w2 : ws (byte 0x29) r' = some (0x29, rest) := by
    have := ws_run' (p := byte 0x29) (i := r') (by rw [hr']; exact byte_cons_self _ _)
    rw [dws_of_noWs hr] at this
    exact this
  refine ⟨_, ⟨rest, rfl, dws_of_noWs hr⟩, ?_⟩
  simp only [tFieldGroup]
  refine (TParser.map_run (TParser.delimited_run inc h1 (TParser.terminated_run (TParser.lift_run w2) (b := ()) rfl))).trans ?_
  simp [fldDec, Levels.addFmt, Nat.add_assoc]

theorem nest_noWs (h : Simple rx e m) (d : Nat) : NoWs (nest d e) ∧ nest d e ≠ [] :=
  parens_noWs (parens_nest d e) h.noWs h.ne

theorem stop_close (rest : Bytes) : Stop (0x29 :: rest) := .inr (.inl rfl)

theorem nest_takes (h : Simple rx e m) : ∀ d k rest, Stop rest →
    TakesTries (d + 1) (fun s => tFieldGroup rx (k + d + 1) s (nest (d + 1) e ++ rest)) (groupCost (d + 1))
      (IsMat (fldGroups m (d + 1)) rest)
  | 0, k, rest, hr => by
    have := tFieldGroup_takes h.noWs h.ne (stop_follow hr).1 (h.inner (k + 0) (b := 0) (stop_close rest))
    simp only [nest_succ, List.cons_append, List.append_assoc, List.nil_append]
    exact this
  | d + 1, k, rest, hr => by
    have hn := nest_noWs h (d + 1)
    obtain ⟨u, hu⟩ := parens_head (parens_nest (d + 1) e)
    have ih := nest_takes h d k (0x29 :: rest) (stop_close rest)
    have hnw : NoWs (nest (d + 1) e ++ 0x29 :: rest) := noWs_append hn.2 hn.1
    have hh : (nest (d + 1) e ++ 0x29 :: rest).head? = some 0x28 := by rw [hu]; rfl
    have hi : TakesTries (d + 1) (fun s => tInner rx (k + d + 1) s (nest (d + 1) e ++ (0x29 :: rest)))
        (8 * groupCost (d + 1)) (IsMat (fldGroups m (d + 1)) (0x29 :: rest)) := by
      have hatom : TakesTries (d + 1) (fun s => fieldAtoms rx (tFieldGroup rx (k + d + 1)) (tFieldNot rx (k + d + 1)) s
          (nest (d + 1) e ++ (0x29 :: rest))) (groupCost (d + 1)) (IsMat (fldGroups m (d + 1)) (0x29 :: rest)) := by
        intro s hs
        obtain ⟨_, ⟨r', rfl, hr'⟩, h1⟩ := ih s hs
        exact ⟨_, ⟨r', rfl, hr'⟩, TParser.alt_left h1⟩
      have := TakesTries.alt (TakesTries.composite fieldSyn_runs hnw hatom (stop_close rest))
        (TakesTries.alt (q := TParser.alt (tFieldNot rx (k + d + 1)) (TParser.alt (pFieldCardM rx) (tFieldGroup rx (k + d + 1))))
          (p := pFieldSingleM rx) (TakesTries.free (fun s => by rw [hu]; exact pFieldSingleM_none _ (.inl rfl)))
          (TakesTries.alt (TakesTries.free (fun s => tFieldNot_none hnw (by rw [hh]; decide)))
            (TakesTries.alt (TakesTries.free (fun s => pFieldCardM_none hnw (by rw [hh]; decide))) ih)))
      have e : 7 * groupCost (d + 1) + (0 + (0 + (0 + groupCost (d + 1)))) = 8 * groupCost (d + 1) := by omega
      rw [e] at this
      exact this
    have := tFieldGroup_takes hn.1 hn.2 (stop_follow hr).1 hi
    have e : nest (d + 1 + 1) e ++ rest = 0x28 :: (nest (d + 1) e ++ 0x29 :: rest) := by
      rw [nest_succ (d + 1)]; simp
    rw [e]
    exact this

/-- the whole text -/
theorem nest_attempts (h : Simple rx e m) (d : Nat) (s : Levels) (hs : s.fld + (d + 1) < 256) :
    ∃ r', dws r' = [] ∧ tFieldMatcher rx s (nest (d + 1) e) =
      (some (fldGroups m (d + 1), r'), fldReset (s.addFmt (8 * groupCost (d + 1)))) := by
  have hn := nest_noWs h (d + 1)
  obtain ⟨u, hu⟩ := parens_head (parens_nest (d + 1) e)
  have hl := parens_length (parens_nest (d + 1) e)
  obtain ⟨k, hk⟩ : ∃ k, (nest (d + 1) e).length + 1 = k + d + 1 := ⟨(nest (d + 1) e).length - d, by omega⟩
  have hg := nest_takes h d k [] (.inl rfl)
  rw [List.append_nil] at hg
  have hatom : TakesTries (d + 1) (fun s => fieldAtoms rx (tFieldGroup rx (k + d + 1)) (tFieldNot rx (k + d + 1)) s
      (nest (d + 1) e)) (groupCost (d + 1)) (IsMat (fldGroups m (d + 1)) []) := by
    intro s hs
    obtain ⟨_, ⟨r', rfl, hr'⟩, h1⟩ := hg s hs
    exact ⟨_, ⟨r', rfl, hr'⟩, TParser.alt_left h1⟩
  have htop : TakesTries (d + 1) (fun s => TParser.alt (tFieldGroup rx (k + d + 1)) (TParser.alt (tFieldNot rx (k + d + 1))
      (TParser.alt (pFieldSingleM rx) (pFieldCardM rx))) s (nest (d + 1) e)) (groupCost (d + 1))
      (IsMat (fldGroups m (d + 1)) []) := by
    intro s hs
    obtain ⟨_, ⟨r', rfl, hr'⟩, h1⟩ := hg s hs
    exact ⟨_, ⟨r', rfl, hr'⟩, TParser.alt_left h1⟩
  obtain ⟨_, ⟨r', rfl, hr'⟩, h1⟩ := TakesTries.alt (TakesTries.composite fieldSyn_runs hn.1 hatom (.inl rfl)) htop s hs
  refine ⟨dws r', by rw [hr']; rfl, ?_⟩
  unfold tFieldMatcher tFieldComposite
  dsimp only at h1 ⊢
  rw [hk, tws_run (by rw [dws_of_noWs hn.1]; exact h1)]
  dsimp only
  rw [show 7 * groupCost (d + 1) + groupCost (d + 1) = 8 * groupCost (d + 1) by omega]

end

end Pica
