import Verif.Lemmas.FormatRun
import Verif.Lemmas.IndepFmt

/-! The groups of an accepted format are nested at most 31 deep. -/

namespace Pica
open Spec Parser

mutual
/-- number of groups around the innermost value -/
def Fragments.depth : Fragments → Nat
  | .value _ => 0
  | .group x _ _ => x.depth + 1
  | .andThen xs => Fragments.depths xs
  | .cons xs => Fragments.depths xs

def Fragments.depths : List Fragments → Nat
  | [] => 0
  | x :: xs => max x.depth (Fragments.depths xs)
end

/-- The counter does not decrease, and the result satisfies `R` for the counter
at the start. -/
def Bounded {α : Type} (R : Nat → α → Prop) (p : TParser α) : Prop :=
  ∀ s i, s.fmt ≤ (p s i).2.fmt ∧ ∀ a r, (p s i).1 = some (a, r) → R s.fmt a

/-- no group, or not too deep -/
def DepthOk (n : Nat) (fr : Fragments) : Prop := fr.depth = 0 ∨ fr.depth + n ≤ 31
def DepthsOk (n : Nat) (xs : List Fragments) : Prop := Fragments.depths xs = 0 ∨ Fragments.depths xs + n ≤ 31

theorem DepthOk.mono {n n' : Nat} {fr} (h : n ≤ n') (h' : DepthOk n' fr) : DepthOk n fr := by
  unfold DepthOk at *; omega
theorem DepthsOk.mono {n n' : Nat} {fr} (h : n ≤ n') (h' : DepthsOk n' fr) : DepthsOk n fr := by
  unfold DepthsOk at *; omega
theorem DepthsOk.cons {n : Nat} {x xs} (h : DepthOk n x) (h' : DepthsOk n xs) : DepthsOk n (x :: xs) := by
  unfold DepthOk DepthsOk at *
  simp only [Fragments.depths]; omega

theorem Bounded.alt {α : Type} {R : Nat → α → Prop} (hR : ∀ n n' a, n ≤ n' → R n' a → R n a) {p q : TParser α}
    (hp : Bounded R p) (hq : Bounded R q) : Bounded R (TParser.alt p q) := by
  intro s i
  obtain ⟨h1, h2⟩ := hp s i
  unfold TParser.alt
  split
  · rename_i x s1 he
    rw [he] at h1 h2
    exact ⟨h1, h2⟩
  · rename_i s1 he
    rw [he] at h1
    obtain ⟨h3, h4⟩ := hq s1 i
    exact ⟨Nat.le_trans h1 h3, fun a r h => hR _ _ _ h1 (h4 a r h)⟩

theorem Bounded.map {α β : Type} {R : Nat → α → Prop} {R' : Nat → β → Prop} {f : α → β} (hR : ∀ n a, R n a → R' n (f a))
    {p : TParser α} (hp : Bounded R p) : Bounded R' (TParser.map f p) := by
  intro s i
  obtain ⟨h1, h2⟩ := hp s i
  unfold TParser.map
  cases he : p s i with
  | mk x s1 =>
    rw [he] at h1 h2
    cases x with
    | none => exact ⟨h1, by simp⟩
    | some x =>
      refine ⟨h1, ?_⟩
      rintro a r h
      simp only [Option.some.injEq, Prod.mk.injEq] at h
      obtain ⟨rfl, rfl⟩ := h
      exact hR _ _ (h2 x.1 x.2 rfl)

theorem Bounded.lift {α : Type} {R : Nat → α → Prop} {p : Parser α} (hp : ∀ n i a r, p i = some (a, r) → R n a) :
    Bounded R (TParser.lift p) := by
  intro s i
  exact ⟨Nat.le_refl _, fun a r h => hp _ i a r h⟩

theorem Bounded.separatedAux {β : Type} {p : TParser Fragments} {sep : Parser β} (hp : Bounded DepthOk p) :
    ∀ n, Bounded DepthsOk (TParser.separatedAux p sep n) := by
  intro n
  induction n with
  | zero =>
    intro s i
    refine ⟨Nat.le_refl _, ?_⟩
    intro a r h
    simp only [TParser.separatedAux, Option.some.injEq, Prod.mk.injEq] at h
    rw [← h.1]; exact .inl rfl
  | succ n ih =>
    intro s i
    rw [TParser.separatedAux]
    split
    · refine ⟨Nat.le_refl _, ?_⟩
      intro a r h
      simp only [Option.some.injEq, Prod.mk.injEq] at h
      rw [← h.1]; exact .inl rfl
    · rename_i b r0 _
      obtain ⟨h1, h2⟩ := hp s r0
      split
      · rename_i s1 he
        rw [he] at h1
        refine ⟨h1, ?_⟩
        intro a r h
        simp only [Option.some.injEq, Prod.mk.injEq] at h
        rw [← h.1]; exact .inl rfl
      · rename_i x r1 s1 he
        rw [he] at h1 h2
        obtain ⟨h3, h4⟩ := ih s1 r1
        split
        · rename_i as r2 s2 he2
          rw [he2] at h3 h4
          refine ⟨Nat.le_trans h1 h3, ?_⟩
          intro a r h
          simp only [Option.some.injEq, Prod.mk.injEq] at h
          rw [← h.1]
          exact .cons (h2 _ _ rfl) ((h4 _ _ rfl).mono h1)
        · rename_i s2 he2
          rw [he2] at h3
          exact ⟨Nat.le_trans h1 h3, by simp⟩

theorem Bounded.separated {β : Type} {p : TParser Fragments} {sep : Parser β} (hp : Bounded DepthOk p) (m : Nat) :
    Bounded DepthsOk (TParser.separated m p sep) := by
  intro s i
  obtain ⟨h1, h2⟩ := hp s i
  unfold TParser.separated
  split
  · rename_i s1 he
    rw [he] at h1
    exact ⟨h1, by simp⟩
  · rename_i x r1 s1 he
    rw [he] at h1 h2
    obtain ⟨h3, h4⟩ := Bounded.separatedAux (sep := sep) hp (r1.length + 1) s1 r1
    split
    · rename_i as r2 s2 he2
      rw [he2] at h3 h4
      split
      · refine ⟨Nat.le_trans h1 h3, ?_⟩
        intro a r h
        simp only [Option.some.injEq, Prod.mk.injEq] at h
        rw [← h.1]
        exact .cons (h2 _ _ rfl) ((h4 _ _ rfl).mono h1)
      · exact ⟨Nat.le_trans h1 h3, by simp⟩
    · rename_i s2 he2
      rw [he2] at h3
      exact ⟨Nat.le_trans h1 h3, by simp⟩

theorem value_bounded : Bounded DepthOk (TParser.lift (map Fragments.value pFmtValue)) := by
  refine Bounded.lift (fun n i a r h => ?_)
  unfold Parser.map at h
  split at h
  · simp only [Option.some.injEq, Prod.mk.injEq] at h
    rw [← h.1]; exact .inl rfl
  · simp at h

theorem Bounded.altD {p q : TParser Fragments} (hp : Bounded DepthOk p) (hq : Bounded DepthOk q) :
    Bounded DepthOk (TParser.alt p q) := Bounded.alt (R := DepthOk) (fun _ _ _ h h' => DepthOk.mono h h') hp hq

theorem pAndThen_bounded {g : TParser Fragments} (h : Bounded DepthOk g) : Bounded DepthOk (pAndThen g) :=
  Bounded.map (R := DepthsOk) (fun n a (h : DepthsOk n a) => by
    unfold DepthOk; rw [Fragments.depth]; exact h) (Bounded.separated (Bounded.altD h value_bounded) 2)

theorem pFmtList_bounded {g : TParser Fragments} (h : Bounded DepthOk g) : Bounded DepthOk (pFmtList g) := by
  refine Bounded.altD ?_ (pAndThen_bounded h)
  exact Bounded.map (R := DepthsOk) (fun n a (h : DepthsOk n a) => by
    unfold DepthOk; rw [Fragments.depth]; exact h) (Bounded.separated (Bounded.altD
    (pAndThen_bounded h) (Bounded.altD h value_bounded)) 2)

theorem Bounded.tws {p : TParser Fragments} (hp : Bounded DepthOk p) : Bounded DepthOk (Pica.tws p) := by
  intro s i
  obtain ⟨h1, h2⟩ := hp s (dws i)
  cases he : p s (dws i) with
  | mk x s1 =>
    rw [he] at h1 h2
    cases x with
    | none => rw [tws_none he]; exact ⟨h1, by simp⟩
    | some x =>
      rw [tws_run (a := x.1) (r := x.2) he]
      refine ⟨h1, fun a r h => ?_⟩
      simp only [Option.some.injEq, Prod.mk.injEq] at h
      rw [← h.1]; exact h2 _ _ rfl

theorem wsValue_bounded : Bounded DepthOk (TParser.lift (Pica.ws (Parser.map Fragments.value pFmtValue))) := by
  refine Bounded.lift (fun n i a r h => ?_)
  obtain ⟨t, -, w, u, w', -, -, ⟨v, rfl, -⟩, -⟩ := ((pFmtValue_reads anyFmt ⟨false, false⟩).map Fragments.value).padded _ _ _ h
  exact .inl rfl

theorem pFmtGroup_bounded : ∀ k, Bounded DepthOk (pFmtGroup k) := by
  intro k
  induction k with
  | zero => exact fun s i => ⟨Nat.le_refl _, by simp [pFmtGroup, TParser.fail]⟩
  | succ k ih =>
    have hin : Bounded DepthOk (TParser.alt (Pica.tws (pFmtList (pFmtGroup k)))
        (TParser.lift (Pica.ws (Parser.map Fragments.value pFmtValue)))) :=
      (pFmtList_bounded ih).tws.altD wsValue_bounded
    intro s i
    rw [pFmtGroup]
    generalize TParser.alt (Pica.tws (pFmtList (pFmtGroup k)))
        (TParser.lift (Pica.ws (Parser.map Fragments.value pFmtValue))) = q at hin ⊢
    cases ho : Pica.ws (byte 0x28) i with
    | none =>
      rw [TParser.map_none (TParser.preceded_none (TParser.terminated_none (TParser.lift_none ho)))]
      exact ⟨Nat.le_refl _, by simp⟩
    | some x =>
      by_cases hl : s.fmt + 1 ≥ 32
      · have hinc : fmtInc s x.2 = (none, { s with fmt := s.fmt + 1 }) := by
          unfold fmtInc; simp only; rw [if_pos hl]
        rw [TParser.map_none (TParser.preceded_none (TParser.terminated_none' (TParser.lift_run ho) hinc))]
        exact ⟨Nat.le_succ _, by simp⟩
      · have hinc : fmtInc s x.2 = (some ((), x.2), { s with fmt := s.fmt + 1 }) := by
          unfold fmtInc; simp only; rw [if_neg hl]
        have h0 := TParser.terminated_run (TParser.lift_run ho) hinc
        cases hm : pModifier x.2 with
        | none =>
          rw [TParser.map_none (TParser.preceded_none' h0 (TParser.seq_none (TParser.lift_none hm)))]
          exact ⟨Nat.le_succ _, by simp⟩
        | some y =>
          obtain ⟨h1, h2⟩ := hin { s with fmt := s.fmt + 1 } y.2
          cases hq : q { s with fmt := s.fmt + 1 } y.2 with
          | mk z s2 =>
            rw [hq] at h1 h2
            simp only at h1 h2
            cases z with
            | none =>
              rw [TParser.map_none (TParser.preceded_none' h0 (TParser.seq_none' (TParser.lift_run hm) (TParser.seq_none hq)))]
              exact ⟨by simp only; omega, by simp⟩
            | some z =>
              have h3 := h2 z.1 z.2 rfl
              cases hc : Pica.ws (byte 0x29) z.2 with
              | none =>
                rw [TParser.map_none (TParser.preceded_none' h0 (TParser.seq_none' (TParser.lift_run hm)
                  (TParser.seq_none' hq (TParser.preceded_none (TParser.terminated_none (TParser.lift_none hc))))))]
                exact ⟨by simp only; omega, by simp⟩
              | some u =>
                have hdec : TParser.update fmtDec s2 u.2 = (some ((), u.2), fmtDec s2) := rfl
                have h4 := TParser.terminated_run (TParser.lift_run hc) hdec
                have hle : s.fmt ≤ (fmtDec s2).fmt := by simp only [fmtDec]; omega
                cases hb : pBound usizeMax u.2 with
                | none =>
                  rw [TParser.map_none (TParser.preceded_none' h0 (TParser.seq_none' (TParser.lift_run hm)
                    (TParser.seq_none' hq (TParser.preceded_none' h4 (TParser.lift_none hb)))))]
                  exact ⟨hle, by simp⟩
                | some v =>
                  rw [TParser.map_run (TParser.preceded_run h0 (TParser.seq_run (TParser.lift_run hm)
                    (TParser.seq_run hq (TParser.preceded_run h4 (TParser.lift_run hb)))))]
                  refine ⟨hle, fun a r h => ?_⟩
                  simp only [Option.some.injEq, Prod.mk.injEq] at h
                  rw [← h.1]
                  unfold DepthOk at h3 ⊢
                  simp only [Fragments.depth]
                  omega

/-- the groups of an accepted format -/
theorem format_depth (rx : Bytes → Bool) {s s' : Levels} {t : Bytes} {fm : Format}
    (h : Format.new rx s t = (some fm, s')) : DepthOk s.fmt fm.fragments := by
  have hfr : ∀ k, Bounded DepthOk (pFragments k) := fun k =>
    (pFmtList_bounded (pFmtGroup_bounded k)).tws.altD ((pFmtGroup_bounded k).tws.altD wsValue_bounded)
  have g0 := TParser.parseAll_eq_some.1 h
  unfold pFormat at g0
  obtain ⟨x, g1, rfl⟩ := TParser.map_inv g0
  obtain ⟨r1, s1, h1, g2⟩ := TParser.seq_inv (TParser.withTaken_inv g1)
  obtain ⟨r2, s2, h2, g3⟩ := TParser.seq_inv g2
  obtain ⟨-, rfl⟩ := TParser.lift_inv h1
  obtain ⟨-, rfl⟩ := TParser.lift_inv h2
  unfold TParser.delimited TParser.preceded at g3
  obtain ⟨y, g4, e1⟩ := TParser.map_inv g3
  obtain ⟨r3, s3, h3, g5⟩ := TParser.seq_inv g4
  obtain ⟨-, rfl⟩ := TParser.lift_inv h3
  unfold TParser.terminated at g5
  obtain ⟨z, g6, e2⟩ := TParser.map_inv g5
  obtain ⟨r4, s4, h4, -⟩ := TParser.seq_inv g6
  obtain ⟨r5, s5, h5, -⟩ := TParser.seq_inv h4
  have := (hfr _ _ _).2 _ _ (congrArg Prod.fst h5)
  rw [e2, e1] at this
  exact this

end Pica
