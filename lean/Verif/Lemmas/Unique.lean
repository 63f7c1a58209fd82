import Verif.Lemmas.ExprRun

/-!
The grammar of expressions is unambiguous: if the simple matchers are, so are
the expressions.
-/

namespace Pica
open Spec

section
variable {V : Type}

/-- Texts of `R` are determined, with their value, by what they start: two of
them in front of the same input have the same value and leave the same rest, if
what follows satisfies `F`. -/
def Det (F : Bytes → Prop) (R : Bytes → V → Prop) : Prop :=
  ∀ t v t' v' r r', R t v → R t' v' → F (dws r) → F (dws r') → t ++ r = t' ++ r' →
    v = v' ∧ dws r = dws r'

theorem Det.mono {F G : Bytes → Prop} {R : Bytes → V → Prop} (h : Det F R) (hG : ∀ r, G r → F r) :
    Det G R :=
  fun t v t' v' r r' h1 h2 h3 h4 e => h t v t' v' r r' h1 h2 (hG _ h3) (hG _ h4) e

theorem Det.sub {F : Bytes → Prop} {R Q : Bytes → V → Prop} (h : Det F R) (hQ : ∀ t v, Q t v → R t v) :
    Det F Q :=
  fun t v t' v' r r' h1 h2 h3 h4 e => h t v t' v' r r' (hQ _ _ h1) (hQ _ _ h2) h3 h4 e

/-- the texts of `R` below a length -/
def UpTo (n : Nat) (R : Bytes → V → Prop) (t : Bytes) (v : V) : Prop := R t v ∧ t.length < n

/-- chains `x1 s x2 s ..`, grouped to the left -/
inductive LChain (S : Bytes → Prop) (op : V → V → V) (R : Bytes → V → Prop) : Bytes → V → Prop
  | one {t v} : R t v → LChain S op R t v
  | more {t v s t' v'} : LChain S op R t v → S s → R t' v' → LChain S op R (t ++ s ++ t') (op v v')

theorem LChain.upTo {S : Bytes → Prop} {op : V → V → V} {R : Bytes → V → Prop} {n : Nat} {t v}
    (h : LChain S op R t v) (hn : t.length < n) : LChain S op (UpTo n R) t v := by
  induction h with
  | one h => exact .one ⟨h, hn⟩
  | more h1 h2 h3 ih =>
    simp only [List.length_append] at hn
    exact .more (ih (by omega)) h2 ⟨h3, by omega⟩

/-- the text of the links of a chain -/
def chainText (l : List (Bytes × Bytes × V)) : Bytes := l.flatMap (fun x => x.1 ++ x.2.1)

theorem LChain.links {S : Bytes → Prop} {op : V → V → V} {R : Bytes → V → Prop} {t v}
    (h : LChain S op R t v) : ∃ t0 v0 l, R t0 v0 ∧ (∀ x ∈ l, S x.1 ∧ R x.2.1 x.2.2) ∧
      t = t0 ++ chainText l ∧ v = l.foldl (fun a x => op a x.2.2) v0 := by
  induction h with
  | one h => exact ⟨_, _, [], h, by simp, by simp [chainText], rfl⟩
  | @more t v s t' v' h1 h2 h3 ih =>
    obtain ⟨t0, v0, l, a1, a2, rfl, rfl⟩ := ih
    refine ⟨t0, v0, l ++ [(s, t', v')], a1, ?_, by simp [chainText], by simp⟩
    intro x hx
    rcases List.mem_append.1 hx with hx | hx
    · exact a2 x hx
    · obtain rfl := List.mem_singleton.1 hx
      exact ⟨h2, h3⟩

theorem links_det {F S : Bytes → Prop} {op : V → V → V} {R : Bytes → V → Prop}
    (hR : Det (fun r => F r ∨ StartsWith S r) R) (hF : ∀ r, F r → ¬ StartsWith S r)
    (hs : ∀ s s' a b, S s → S s' → s ++ a = s' ++ b → s = s')
    (hw : ∀ s a, S s → dws (s ++ a) = s ++ a)
    (l l' : List (Bytes × Bytes × V)) : ∀ (t0 t0' : Bytes) (v0 v0' : V) (a a' : V) (r r' : Bytes),
      R t0 v0 → R t0' v0' →
      (∀ x ∈ l, S x.1 ∧ R x.2.1 x.2.2) → (∀ x ∈ l', S x.1 ∧ R x.2.1 x.2.2) → F (dws r) → F (dws r') →
      t0 ++ chainText l ++ r = t0' ++ chainText l' ++ r' → (v0 = v0' → a = a') →
      v0 = v0' ∧ l.foldl (fun a x => op a x.2.2) a = l'.foldl (fun a x => op a x.2.2) a' ∧ dws r = dws r' := by
  induction l generalizing l' with
  | nil =>
    intro t0 t0' v0 v0' a a' r r' h0 h0' hl hl' hr hr' e hv
    cases l' with
    | nil =>
      obtain ⟨e1, e2⟩ := hR _ _ _ _ _ _ h0 h0' (.inl hr) (.inl hr') (by simpa [chainText] using e)
      exact ⟨e1, hv e1, e2⟩
    | cons x l' =>
      have hx := hl' x (by simp)
      have e' : t0 ++ r = t0' ++ (x.1 ++ (x.2.1 ++ chainText l' ++ r')) := by
        simpa [chainText] using e
      have hst : StartsWith S (x.1 ++ (x.2.1 ++ chainText l' ++ r')) := ⟨_, _, hx.1, rfl⟩
      obtain ⟨e1, e2⟩ := hR _ _ _ _ _ _ h0 h0' (.inl hr) (.inr (by rw [hw _ _ hx.1]; exact hst)) e'
      rw [hw _ _ hx.1] at e2
      exact absurd (e2 ▸ hst) (hF _ hr)
  | cons y l ih =>
    intro t0 t0' v0 v0' a a' r r' h0 h0' hl hl' hr hr' e hv
    have hy := hl y (by simp)
    have hst : StartsWith S (y.1 ++ (y.2.1 ++ chainText l ++ r)) := ⟨_, _, hy.1, rfl⟩
    cases l' with
    | nil =>
      have e' : t0 ++ (y.1 ++ (y.2.1 ++ chainText l ++ r)) = t0' ++ r' := by
        simpa [chainText] using e
      obtain ⟨e1, e2⟩ := hR _ _ _ _ _ _ h0 h0' (.inr (by rw [hw _ _ hy.1]; exact hst)) (.inl hr') e'
      rw [hw _ _ hy.1] at e2
      exact absurd (e2 ▸ hst) (hF _ hr')
    | cons x l' =>
      have hx := hl' x (by simp)
      have hst' : StartsWith S (x.1 ++ (x.2.1 ++ chainText l' ++ r')) := ⟨_, _, hx.1, rfl⟩
      have e' : t0 ++ (y.1 ++ (y.2.1 ++ chainText l ++ r)) = t0' ++ (x.1 ++ (x.2.1 ++ chainText l' ++ r')) := by
        simpa [chainText] using e
      obtain ⟨e1, e2⟩ := hR _ _ _ _ _ _ h0 h0' (.inr (by rw [hw _ _ hy.1]; exact hst))
        (.inr (by rw [hw _ _ hx.1]; exact hst')) e'
      rw [hw _ _ hy.1, hw _ _ hx.1] at e2
      have es := hs _ _ _ _ hy.1 hx.1 e2
      rw [es] at e2
      obtain ⟨e3, e4, e5⟩ := ih l' y.2.1 x.2.1 y.2.2 x.2.2 (op a y.2.2) (op a' x.2.2) r r' hy.2 hx.2
        (fun z hz => hl z (by simp [hz])) (fun z hz => hl' z (by simp [hz])) hr hr'
        (List.append_cancel_left e2) (fun h => by rw [h, hv e1])
      exact ⟨e1, e4, e5⟩

/-- chains of determined texts are determined -/
theorem Det.chain {F S : Bytes → Prop} {op : V → V → V} {R : Bytes → V → Prop}
    (hR : Det (fun r => F r ∨ StartsWith S r) R) (hF : ∀ r, F r → ¬ StartsWith S r)
    (hs : ∀ s s' a b, S s → S s' → s ++ a = s' ++ b → s = s')
    (hw : ∀ s a, S s → dws (s ++ a) = s ++ a) : Det F (LChain S op R) := by
  intro t v t' v' r r' h h' hr hr' e
  obtain ⟨t0, v0, l, a1, a2, rfl, rfl⟩ := h.links
  obtain ⟨t0', v0', l', b1, b2, rfl, rfl⟩ := h'.links
  exact (links_det hR hF hs hw l l' t0 t0' v0 v0' v0 v0' r r' a1 b1 a2 b2 hr hr' e id).2

end

section
variable {X : Type} {Single Neg : Bytes → Den X → Prop}

theorem andT_chain {t : Bytes} {v : Den X} : AndT Single Neg t v →
    LChain AndSign dAnd (AtomT Single Neg) t v
  | .one h => .one h
  | .and h h' => .more (andT_chain h) rfl h'

theorem xorT_chain {t : Bytes} {v : Den X} : XorT Single Neg t v →
    LChain XorSign dXor (AndT Single Neg) t v
  | .one h => .one h
  | .xor h hs h' => .more (xorT_chain h) hs h'

theorem orT_chain {t : Bytes} {v : Den X} : OrT Single Neg t v →
    LChain OrSign dOr (XorT Single Neg) t v
  | .one h => .one h
  | .or h h' => .more (orT_chain h) rfl h'

/-- the texts of simple matchers: determined, and told from the others by their
first byte after white space -/
structure Leaf (R : Bytes → Den X → Prop) : Prop where
  det : Det FAnd R
  head : ∀ t v r, R t v → ∃ b z, dws (t ++ r) = b :: z ∧ b ≠ 0x28 ∧ b ≠ 0x21
  strip : ∀ t v, R t v → ∃ w t', t = w ++ t' ∧ Ws w ∧ R t' v ∧ NoWs t'

theorem cons_noWs_dws {b : Byte} {r : Bytes} (h : isMultispace b = false) : dws (b :: r) = b :: r :=
  dws_of_noWs (noWs_cons.2 h)

theorem Leaf.strip' {R : Bytes → Den X → Prop} (h : Leaf R) {w t v} (hw : Ws w) (ht : R t v) (r : Bytes) :
    ∃ t', R t' v ∧ dws (w ++ t ++ r) = t' ++ r := by
  obtain ⟨w', t', rfl, hw', h', hn⟩ := h.strip t v ht
  refine ⟨t', h', ?_⟩
  obtain ⟨b, z, hz, -⟩ := h.head t' v [] h'
  rw [List.append_nil, dws_of_noWs hn] at hz
  rw [List.append_assoc, dws_append hw, List.append_assoc, dws_append hw', dws_of_noWs]
  rw [hz] at hn ⊢
  exact noWs_cons.2 (noWs_cons.1 hn)

/-- what an operand starts with, after white space -/
inductive Kind (Single : Bytes → Den X → Prop) (Or Not : Bytes → Den X → Prop) (F : Bytes → Prop) :
    Bytes → Bytes → Den X → Prop
  | leaf {t v r i} : Single t v → F (dws r) → i = t ++ r → Kind Single Or Not F i (dws r) v
  | group {t v r i} : Or t v → F (dws r) → i = 0x28 :: (t ++ (0x29 :: r)) → Kind Single Or Not F i (dws r) v
  | not {t v r i} : Not t v → F (dws r) → i = 0x21 :: (t ++ r) → Kind Single Or Not F i (dws r) (dNot v)

theorem Kind.det {Single Or Not : Bytes → Den X → Prop} (hS : Leaf Single) (hO : Det Stop Or)
    (hN : Det FAnd Not) {i e e' : Bytes} {v v' : Den X} (h : Kind Single Or Not FAnd i e v)
    (h' : Kind Single Or Not FAnd i e' v') : v = v' ∧ e = e' := by
  have lp : ∀ z : Bytes, dws (0x28 :: z) = 0x28 :: z := fun z => cons_noWs_dws (by decide)
  have bg : ∀ z : Bytes, dws (0x21 :: z) = 0x21 :: z := fun z => cons_noWs_dws (by decide)
  cases h with
  | @leaf t v r _ h1 h2 h3 =>
    obtain ⟨b, z, hb, hb1, hb2⟩ := hS.head _ _ r h1
    rw [← h3] at hb
    cases h' with
    | @leaf t' _ r' _ h1' h2' h3' => exact hS.det _ _ _ _ _ _ h1 h1' h2 h2' (h3.symm.trans h3')
    | group _ _ h3' => rw [h3', lp] at hb; cases hb; exact absurd rfl hb1
    | not _ _ h3' => rw [h3', bg] at hb; cases hb; exact absurd rfl hb2
  | @group t v r _ h1 h2 h3 =>
    cases h' with
    | @leaf t' _ r' _ h1' h2' h3' =>
      obtain ⟨b, z, hb, hb1, hb2⟩ := hS.head _ _ r' h1'
      rw [← h3', h3, lp] at hb; cases hb; exact absurd rfl hb1
    | @group t' _ r' _ h1' h2' h3' =>
      rw [h3] at h3'
      have rp : ∀ z : Bytes, dws (0x29 :: z) = 0x29 :: z := fun z => cons_noWs_dws (by decide)
      obtain ⟨e1, e2⟩ := hO _ _ _ _ _ _ h1 h1' (by rw [rp]; exact .inr (.inl rfl))
        (by rw [rp]; exact .inr (.inl rfl)) (List.cons.inj h3').2
      rw [rp, rp] at e2
      exact ⟨e1, by rw [(List.cons.inj e2).2]⟩
    | not _ _ h3' => rw [h3] at h3'; cases h3'
  | @not t v r _ h1 h2 h3 =>
    cases h' with
    | @leaf t' _ r' _ h1' h2' h3' =>
      obtain ⟨b, z, hb, hb1, hb2⟩ := hS.head _ _ r' h1'
      rw [← h3', h3, bg] at hb; cases hb; exact absurd rfl hb2
    | group _ _ h3' => rw [h3] at h3'; cases h3'
    | not h1' h2' h3' =>
      rw [h3] at h3'
      obtain ⟨e1, e2⟩ := hN _ _ _ _ _ _ h1 h1' h2 h2' (List.cons.inj h3').2
      exact ⟨by rw [e1], e2⟩

theorem atomT_kind (hS : Leaf Single) {n : Nat} {t v r} (h : UpTo (n + 1) (AtomT Single Neg) t v)
    (hr : FAnd (dws r)) :
    Kind Single (UpTo n (OrT Single Neg)) (UpTo n (NegT Single Neg)) FAnd (dws (t ++ r)) (dws r) v := by
  obtain ⟨h, hn⟩ := h
  cases h with
  | @single t v w w' hw h hw' =>
    obtain ⟨t', ht', e⟩ := hS.strip' hw h (w' ++ r)
    rw [← dws_append (r := r) hw'] at hr ⊢
    exact .leaf ht' hr (by rw [List.append_assoc]; exact e)
  | @group t v w w' hw h hw' =>
    rw [bs_lpar, bs_rpar] at hn ⊢
    rw [← dws_append (r := r) hw'] at hr ⊢
    simp only [List.length_append, List.length_cons, List.length_nil] at hn
    refine .group ⟨h, by omega⟩ hr ?_
    simp only [List.append_assoc]
    rw [dws_append hw]
    exact cons_noWs_dws (by decide)
  | @not t v w w' hw h hw' =>
    rw [bs_bang] at hn ⊢
    rw [← dws_append (r := r) hw'] at hr ⊢
    simp only [List.length_append, List.length_cons, List.length_nil] at hn
    refine .not ⟨h, by omega⟩ hr ?_
    simp only [List.append_assoc]
    rw [dws_append hw]
    exact cons_noWs_dws (by decide)

theorem negT_kind (hS : Leaf Neg) {n : Nat} {t v r} (h : UpTo (n + 1) (NegT Single Neg) t v)
    (hr : FAnd (dws r)) :
    Kind Neg (UpTo n (OrT Single Neg)) (UpTo n (NegT Single Neg)) FAnd (dws (t ++ r)) (dws r) v := by
  obtain ⟨h, hn⟩ := h
  cases h with
  | @leaf t v w w' hw h hw' =>
    obtain ⟨t', ht', e⟩ := hS.strip' hw h (w' ++ r)
    rw [← dws_append (r := r) hw'] at hr ⊢
    exact .leaf ht' hr (by rw [List.append_assoc]; exact e)
  | @group t v w w' hw h hw' =>
    rw [bs_lpar, bs_rpar] at hn ⊢
    rw [← dws_append (r := r) hw'] at hr ⊢
    simp only [List.length_append, List.length_cons, List.length_nil] at hn
    refine .group ⟨h, by omega⟩ hr ?_
    simp only [List.append_assoc]
    rw [dws_append hw]
    exact cons_noWs_dws (by decide)
  | @not t v w w' hw h hw' =>
    rw [bs_bang] at hn ⊢
    rw [← dws_append (r := r) hw'] at hr ⊢
    simp only [List.length_append, List.length_cons, List.length_nil] at hn
    refine .not ⟨h, by omega⟩ hr ?_
    simp only [List.append_assoc]
    rw [dws_append hw]
    exact cons_noWs_dws (by decide)

theorem andSign_dws (s a : Bytes) (h : AndSign s) : dws (s ++ a) = s ++ a := by
  obtain rfl := h; rw [bs_and]; exact cons_noWs_dws (by decide)
theorem orSign_dws (s a : Bytes) (h : OrSign s) : dws (s ++ a) = s ++ a := by
  obtain rfl := h; rw [bs_or]; exact cons_noWs_dws (by decide)
theorem xorSign_dws (s a : Bytes) (h : XorSign s) : dws (s ++ a) = s ++ a := by
  rcases h with rfl | rfl
  · rw [bs_hat]; exact cons_noWs_dws (by decide)
  · rw [bs_xor]; exact cons_noWs_dws (by decide)

theorem xorSign_eq (s s' a b : Bytes) (h : XorSign s) (h' : XorSign s') (e : s ++ a = s' ++ b) : s = s' := by
  rcases h with rfl | rfl <;> rcases h' with rfl | rfl
  · rfl
  · rw [bs_hat, bs_xor] at e; cases e
  · rw [bs_hat, bs_xor] at e; cases e
  · rfl

theorem stop_not_or {r : Bytes} (h : Stop r) : ¬ StartsWith OrSign r := fun h' =>
  stop_head h 0x7C (by decide) (by decide) (orSign_head h')

theorem fOr_not_xor {r : Bytes} (h : FOr r) : ¬ StartsWith XorSign r := by
  intro h'
  rcases h with h | h
  · rcases xorSign_head h' with e | e
    · exact stop_head h _ (by decide) (by decide) e
    · exact stop_head h _ (by decide) (by decide) e
  · have := orSign_head h
    rcases xorSign_head h' with e | e <;> rw [this] at e <;> cases e

theorem fXor_not_and {r : Bytes} (h : FXor r) : ¬ StartsWith AndSign r := by
  intro h'
  have e := andSign_head h'
  rcases h with (h | h) | h
  · exact stop_head h _ (by decide) (by decide) e
  · rw [orSign_head h] at e; cases e
  · rcases xorSign_head h with e' | e' <;> rw [e] at e' <;> cases e'

/-- if the simple matchers are determined, so are the expressions -/
theorem expr_det (hS : Leaf Single) (hN : Leaf Neg) (n : Nat) :
    Det Stop (UpTo n (OrT Single Neg)) ∧ Det FAnd (UpTo n (NegT Single Neg)) ∧
      Det FAnd (UpTo n (AtomT Single Neg)) := by
  have up : ∀ n, Det FAnd (UpTo n (AtomT Single Neg)) → Det Stop (UpTo n (OrT Single Neg)) := by
    intro n hA
    have h1 : Det FXor (UpTo n (AndT Single Neg)) :=
      (Det.chain (op := dAnd) hA (fun r h => fXor_not_and h) (fun s s' a b h h' _ => h.trans h'.symm)
        andSign_dws).sub (fun t v h => (andT_chain h.1).upTo h.2)
    have h2 : Det FOr (UpTo n (XorT Single Neg)) :=
      (Det.chain (op := dXor) h1 (fun r h => fOr_not_xor h) xorSign_eq xorSign_dws).sub
        (fun t v h => (xorT_chain h.1).upTo h.2)
    exact (Det.chain (op := dOr) h2 (fun r h => stop_not_or h) (fun s s' a b h h' _ => h.trans h'.symm)
      orSign_dws).sub (fun t v h => (orT_chain h.1).upTo h.2)
  induction n with
  | zero =>
    refine ⟨?_, ?_, ?_⟩ <;> exact fun t v t' v' r r' h => absurd h.2 (Nat.not_lt_zero _)
  | succ n ih =>
    have hA : Det FAnd (UpTo (n + 1) (AtomT Single Neg)) := by
      intro t v t' v' r r' h h' hr hr' e
      have a := atomT_kind hS h hr
      have b := atomT_kind hS h' hr'
      rw [← e] at b
      exact a.det hS ih.1 ih.2.1 b
    refine ⟨up _ hA, ?_, hA⟩
    intro t v t' v' r r' h h' hr hr' e
    have a := negT_kind hN h hr
    have b := negT_kind hN h' hr'
    rw [← e] at b
    exact a.det hN ih.1 ih.2.1 b

theorem orT_det (hS : Leaf Single) (hN : Leaf Neg) : Det Stop (OrT Single Neg) := by
  intro t v t' v' r r' h h' hr hr' e
  exact (expr_det hS hN (t.length + t'.length + 1)).1 t v t' v' r r' ⟨h, by omega⟩ ⟨h', by omega⟩ hr hr' e

/-- an expression has one meaning -/
theorem orT_unique (hS : Leaf Single) (hN : Leaf Neg) {t : Bytes} {v v' : Den X}
    (h : OrT Single Neg t v) (h' : OrT Single Neg t v') : v = v' :=
  (orT_det hS hN t v t v' [] [] h h' (.inl rfl) (.inl rfl) rfl).1

end
end Pica
