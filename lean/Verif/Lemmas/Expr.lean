import Verif.Model.FieldParser
import Verif.Lemmas.TParser

/-! Soundness of the expression parsers with respect to the grammar. -/

namespace Pica
open Spec

section absorb
variable {X : Type} {Single Neg : Bytes → Den X → Prop}

theorem atomT_pad {t v w w'} (h : AtomT Single Neg t v) (hw : Ws w) (hw' : Ws w') :
    AtomT Single Neg (w ++ t ++ w') v := by
  cases h with
  | @single t v u u' h1 h2 h3 =>
    have := AtomT.single (Neg := Neg) (ws_append hw h1) h2 (ws_append h3 hw')
    simpa using this
  | @group t v u u' h1 h2 h3 =>
    have := AtomT.group (ws_append hw h1) h2 (ws_append h3 hw')
    simpa using this
  | @not t v u u' h1 h2 h3 =>
    have := AtomT.not (ws_append hw h1) h2 (ws_append h3 hw')
    simpa using this

theorem negT_pad {t v w w'} (h : NegT Single Neg t v) (hw : Ws w) (hw' : Ws w') :
    NegT Single Neg (w ++ t ++ w') v := by
  cases h with
  | @leaf t v u u' h1 h2 h3 =>
    have := NegT.leaf (Single := Single) (ws_append hw h1) h2 (ws_append h3 hw')
    simpa using this
  | @group t v u u' h1 h2 h3 =>
    have := NegT.group (ws_append hw h1) h2 (ws_append h3 hw')
    simpa using this
  | @not t v u u' h1 h2 h3 =>
    have := NegT.not (ws_append hw h1) h2 (ws_append h3 hw')
    simpa using this

theorem andT_pad {t v} : AndT Single Neg t v → ∀ {w w'}, Ws w → Ws w' →
    AndT Single Neg (w ++ t ++ w') v
  | .one h, _, _, hw, hw' => .one (atomT_pad h hw hw')
  | .and h1 h2, _, _, hw, hw' => by
    have := AndT.and (andT_pad h1 hw ws_nil) (atomT_pad h2 ws_nil hw')
    simpa using this

theorem xorT_pad {t v} : XorT Single Neg t v → ∀ {w w'}, Ws w → Ws w' →
    XorT Single Neg (w ++ t ++ w') v
  | .one h, _, _, hw, hw' => .one (andT_pad h hw hw')
  | .xor h1 hs h2, _, _, hw, hw' => by
    have := XorT.xor (xorT_pad h1 hw ws_nil) hs (andT_pad h2 ws_nil hw')
    simpa using this

theorem orT_pad {t v} : OrT Single Neg t v → ∀ {w w'}, Ws w → Ws w' →
    OrT Single Neg (w ++ t ++ w') v
  | .one h, _, _, hw, hw' => .one (xorT_pad h hw hw')
  | .or h1 h2, _, _, hw, hw' => by
    have := OrT.or (orT_pad h1 hw ws_nil) (xorT_pad h2 ws_nil hw')
    simpa using this

theorem AtomT.toOr {t v} (h : AtomT Single Neg t v) : OrT Single Neg t v := .one (.one (.one h))

end absorb

/-! ## Chains -/

section chains
variable {X M : Type} {Single Neg : Bytes → Den X → Prop}

/-- What the soundness of the expression parsers needs to know. -/
structure SynOk (S : Syn M) (den : M → Den X) : Prop where
  opAnd : ∀ i u r, S.opAnd i = some (u, r) → ∃ w w', i = w ++ bs "&&" ++ w' ++ r ∧ Ws w ∧ Ws w'
  opOr : ∀ i u r, S.opOr i = some (u, r) → ∃ w w', i = w ++ bs "||" ++ w' ++ r ∧ Ws w ∧ Ws w'
  band : ∀ a b, den (S.band a b) = dAnd (den a) (den b)
  bor : ∀ a b, den (S.bor a b) = dOr (den a) (den b)
  bxor : ∀ a b, den (S.bxor a b) = dXor (den a) (den b)

theorem chain_sound {op : Parser Unit} {atom : TParser M} {f : M → M → M}
    {O : Bytes → Prop} {P Q : M → Bytes → Prop} (hP : TParser.Sound atom P)
    (hO : ∀ i u r, op i = some (u, r) → ∃ t, i = t ++ r ∧ O t)
    (hPQ : ∀ m t, P m t → Q m t)
    (hstep : ∀ m t s m' t', Q m t → O s → P m' t' → Q (f m m') (t ++ s ++ t')) :
    TParser.Sound (chain op atom f) Q := by
  have h1 := hP.seq ((TParser.Sound.lift (p := op) (R := fun _ t => O t) hO).preceded hP).repeat1
  refine (h1.map (fun x => x.2.foldl f x.1)).mono ?_
  rintro m t ⟨⟨m0, ms⟩, rfl, t1, t2, rfl, h2, h3, -⟩
  have key : ∀ (ms : List M) (t2 : Bytes) (m0 : M) (t1 : Bytes), Q m0 t1 →
      Spells (fun b t => ∃ (_ : Unit) (t1 t2 : Bytes), t = t1 ++ t2 ∧ O t1 ∧ P b t2) ms t2 →
      Q (ms.foldl f m0) (t1 ++ t2) := by
    intro ms
    induction ms with
    | nil =>
      intro t2 m0 t1 hq hs
      cases hs
      simpa using hq
    | cons m ms ih =>
      intro t2 m0 t1 hq hs
      cases hs with
      | cons ha hr =>
        obtain ⟨_, u1, u2, rfl, ho, hp⟩ := ha
        have := ih _ _ _ (hstep _ _ _ _ _ hq ho hp) hr
        simpa using this
  exact key ms t2 m0 t1 (hPQ _ _ h2) h3

theorem xorOp_sound (i u r) (h : pXorOp i = some (u, r)) : ∃ t, i = t ++ r ∧ XorSign t := by
  rcases Parser.alt_eq_some.1 h with h | ⟨_, h⟩
  · exact ⟨_, Parser.lit_eq_some.1 h, .inl rfl⟩
  · exact ⟨_, Parser.lit_eq_some.1 h, .inr rfl⟩

variable {S : Syn M} {den : M → Den X} {atoms : TParser M}

theorem andChain_sound (hS : SynOk S den)
    (hA : TParser.Sound atoms (fun m t => AtomT Single Neg t (den m))) :
    TParser.Sound (andChain S atoms) (fun m t => AndT Single Neg t (den m)) := by
  refine chain_sound (O := fun t => ∃ w w', t = w ++ bs "&&" ++ w' ∧ Ws w ∧ Ws w')
    (P := fun m t => AtomT Single Neg t (den m)) ?_ ?_ ?_ ?_
  · exact (tws_sound hA).mono (by
      rintro m t ⟨w, u, w', rfl, h1, h2, h3⟩
      exact atomT_pad h2 h1 h3)
  · intro i u r h
    obtain ⟨w, w', h1, h2, h3⟩ := hS.opAnd i u r h
    exact ⟨w ++ bs "&&" ++ w', h1, w, w', rfl, h2, h3⟩
  · exact fun m t h => .one h
  · rintro m t s m' t' h ⟨w, w', rfl, h1, h2⟩ h'
    rw [hS.band]
    have := AndT.and (andT_pad h ws_nil h1) (atomT_pad h' h2 ws_nil)
    simpa using this

theorem xorChain_sound (hS : SynOk S den)
    (hA : TParser.Sound atoms (fun m t => AtomT Single Neg t (den m))) :
    TParser.Sound (xorChain S atoms) (fun m t => XorT Single Neg t (den m)) := by
  refine chain_sound (O := XorSign) (P := fun m t => AndT Single Neg t (den m)) ?_ xorOp_sound ?_ ?_
  · exact (tws_sound ((andChain_sound hS hA).alt (hA.mono (fun _ _ h => .one h)))).mono (by
      rintro m t ⟨w, u, w', rfl, h1, h2, h3⟩
      exact andT_pad h2 h1 h3)
  · exact fun m t h => .one h
  · intro m t s m' t' h hs h'
    rw [hS.bxor]
    exact .xor h hs h'

theorem orChain_sound (hS : SynOk S den)
    (hA : TParser.Sound atoms (fun m t => AtomT Single Neg t (den m))) :
    TParser.Sound (orChain S atoms) (fun m t => OrT Single Neg t (den m)) := by
  refine chain_sound (O := fun t => ∃ w w', t = w ++ bs "||" ++ w' ∧ Ws w ∧ Ws w')
    (P := fun m t => XorT Single Neg t (den m)) ?_ ?_ ?_ ?_
  · exact (tws_sound (((andChain_sound hS hA).mono (fun _ _ h => .one h)).alt
      ((xorChain_sound hS hA).alt (hA.mono (fun _ _ h => .one (.one h)))))).mono (by
      rintro m t ⟨w, u, w', rfl, h1, h2, h3⟩
      exact xorT_pad h2 h1 h3)
  · intro i u r h
    obtain ⟨w, w', h1, h2, h3⟩ := hS.opOr i u r h
    exact ⟨w ++ bs "||" ++ w', h1, w, w', rfl, h2, h3⟩
  · exact fun m t h => .one h
  · rintro m t s m' t' h ⟨w, w', rfl, h1, h2⟩ h'
    rw [hS.bor]
    have := OrT.or (orT_pad h ws_nil h1) (xorT_pad h' h2 ws_nil)
    simpa using this

theorem composite_sound (hS : SynOk S den)
    (hA : TParser.Sound atoms (fun m t => AtomT Single Neg t (den m))) :
    TParser.Sound (composite S atoms) (fun m t => OrT Single Neg t (den m)) :=
  (orChain_sound hS hA).alt
    (((xorChain_sound hS hA).mono (fun _ _ h => .one h)).alt
      ((andChain_sound hS hA).mono (fun _ _ h => .one (.one h))))

end chains

end Pica
