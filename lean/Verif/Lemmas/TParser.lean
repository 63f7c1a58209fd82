import Verif.Model.SubParser
import Verif.Lemmas.Record
import Verif.Spec.Expr

/-! General lemmas about parsers with state. -/

namespace Pica
open Spec

namespace TParser
variable {α β γ : Type}

/-- Whenever `p` succeeds, the consumed text stands in relation `R` with the
result. -/
def Sound (p : TParser α) (R : α → Bytes → Prop) : Prop :=
  ∀ s i a r s', p s i = (some (a, r), s') → ∃ t, i = t ++ r ∧ R a t

theorem Sound.mono {p : TParser α} {R R' : α → Bytes → Prop} (h : Sound p R)
    (hR : ∀ a t, R a t → R' a t) : Sound p R' := by
  intro s i a r s' hp
  obtain ⟨t, h1, h2⟩ := h s i a r s' hp
  exact ⟨t, h1, hR a t h2⟩

theorem Sound.lift {p : Parser α} {R : α → Bytes → Prop}
    (h : ∀ i a r, p i = some (a, r) → ∃ t, i = t ++ r ∧ R a t) : Sound (lift p) R := by
  intro s i a r s' hp
  simp only [TParser.lift, Prod.mk.injEq] at hp
  exact h i a r hp.1

theorem Sound.map {p : TParser α} {R : α → Bytes → Prop} (h : Sound p R) (f : α → β) :
    Sound (map f p) (fun b t => ∃ a, b = f a ∧ R a t) := by
  intro s i b r s' hp
  simp only [TParser.map] at hp
  split at hp
  · rename_i a r' s'' he
    simp only [Prod.mk.injEq, Option.some.injEq] at hp
    obtain ⟨⟨rfl, rfl⟩, rfl⟩ := hp
    obtain ⟨t, h1, h2⟩ := h _ _ _ _ _ he
    exact ⟨t, h1, a, rfl, h2⟩
  · simp at hp

theorem Sound.seq {p : TParser α} {q : TParser β} {R : α → Bytes → Prop} {Q : β → Bytes → Prop}
    (h : Sound p R) (h' : Sound q Q) :
    Sound (seq p q) (fun x t => ∃ t1 t2, t = t1 ++ t2 ∧ R x.1 t1 ∧ Q x.2 t2) := by
  intro s i x r s' hp
  simp only [TParser.seq] at hp
  split at hp
  · simp at hp
  · rename_i a r1 s1 he
    split at hp
    · simp at hp
    · rename_i b r2 s2 he'
      simp only [Prod.mk.injEq, Option.some.injEq] at hp
      obtain ⟨⟨rfl, rfl⟩, rfl⟩ := hp
      obtain ⟨t1, e1, h1⟩ := h _ _ _ _ _ he
      obtain ⟨t2, e2, h2⟩ := h' _ _ _ _ _ he'
      exact ⟨t1 ++ t2, by rw [e1, e2, List.append_assoc], t1, t2, rfl, h1, h2⟩

theorem Sound.preceded {p : TParser α} {q : TParser β} {R : α → Bytes → Prop}
    {Q : β → Bytes → Prop} (h : Sound p R) (h' : Sound q Q) :
    Sound (preceded p q) (fun b t => ∃ a t1 t2, t = t1 ++ t2 ∧ R a t1 ∧ Q b t2) :=
  ((h.seq h').map Prod.snd).mono (by
    rintro b t ⟨⟨a, b'⟩, rfl, t1, t2, h1, h2, h3⟩
    exact ⟨a, t1, t2, h1, h2, h3⟩)

theorem Sound.terminated {p : TParser α} {q : TParser β} {R : α → Bytes → Prop}
    {Q : β → Bytes → Prop} (h : Sound p R) (h' : Sound q Q) :
    Sound (terminated p q) (fun a t => ∃ b t1 t2, t = t1 ++ t2 ∧ R a t1 ∧ Q b t2) :=
  ((h.seq h').map Prod.fst).mono (by
    rintro a t ⟨⟨a', b⟩, rfl, t1, t2, h1, h2, h3⟩
    exact ⟨b, t1, t2, h1, h2, h3⟩)

theorem Sound.delimited {p : TParser α} {q : TParser β} {q' : TParser γ} {R : α → Bytes → Prop}
    {Q : β → Bytes → Prop} {Q' : γ → Bytes → Prop} (h : Sound p R) (h' : Sound q Q)
    (h'' : Sound q' Q') :
    Sound (delimited p q q') (fun b t => ∃ a c t1 t2 t3, t = t1 ++ t2 ++ t3 ∧
      R a t1 ∧ Q b t2 ∧ Q' c t3) :=
  (h.preceded (h'.terminated h'')).mono (by
    rintro b t ⟨a, t1, t2, rfl, h1, c, t3, t4, rfl, h2, h3⟩
    exact ⟨a, c, t1, t3, t4, by simp, h1, h2, h3⟩)

theorem Sound.alt {p q : TParser α} {R : α → Bytes → Prop} (h : Sound p R) (h' : Sound q R) :
    Sound (alt p q) R := by
  intro s i a r s' hp
  simp only [TParser.alt] at hp
  split at hp
  · rename_i x s1 he
    simp only [Prod.mk.injEq, Option.some.injEq] at hp
    obtain ⟨rfl, rfl⟩ := hp
    exact h _ _ _ _ _ he
  · exact h' _ _ _ _ _ hp

theorem Sound.fail {R : α → Bytes → Prop} : Sound (TParser.fail : TParser α) R := by
  intro s i a r s' hp
  simp [TParser.fail] at hp

theorem Sound.update (f : Levels → Levels) : Sound (update f) (fun _ t => t = []) := by
  intro s i a r s' hp
  simp only [TParser.update, Prod.mk.injEq, Option.some.injEq] at hp
  obtain ⟨⟨_, rfl⟩, _⟩ := hp
  exact ⟨[], rfl, rfl⟩

theorem Sound.opt {p : TParser α} {R : α → Bytes → Prop} (h : Sound p R) :
    Sound (opt p) (fun o t => match o with | some a => R a t | none => t = []) := by
  intro s i o r s' hp
  simp only [TParser.opt] at hp
  split at hp
  · rename_i a r1 s1 he
    simp only [Prod.mk.injEq, Option.some.injEq] at hp
    obtain ⟨⟨rfl, rfl⟩, rfl⟩ := hp
    exact h _ _ _ _ _ he
  · simp only [Prod.mk.injEq, Option.some.injEq] at hp
    obtain ⟨⟨rfl, rfl⟩, rfl⟩ := hp
    exact ⟨[], rfl, rfl⟩

theorem Sound.repeat0Aux {p : TParser α} {R : α → Bytes → Prop} (h : Sound p R) (n : Nat) :
    Sound (repeat0Aux p n) (Spells R) := by
  induction n with
  | zero =>
    intro s i a r s' hp
    simp only [TParser.repeat0Aux, Prod.mk.injEq, Option.some.injEq] at hp
    obtain ⟨⟨rfl, rfl⟩, rfl⟩ := hp
    exact ⟨[], rfl, .nil⟩
  | succ n ih =>
    intro s i a r s' hp
    simp only [TParser.repeat0Aux] at hp
    split at hp
    · simp only [Prod.mk.injEq, Option.some.injEq] at hp
      obtain ⟨⟨rfl, rfl⟩, rfl⟩ := hp
      exact ⟨[], rfl, .nil⟩
    · rename_i x r1 s1 he
      split at hp
      · split at hp
        · rename_i as r2 s2 he2
          simp only [Prod.mk.injEq, Option.some.injEq] at hp
          obtain ⟨⟨rfl, rfl⟩, rfl⟩ := hp
          obtain ⟨t1, e1, h1⟩ := h _ _ _ _ _ he
          obtain ⟨t2, e2, h2⟩ := ih _ _ _ _ _ he2
          exact ⟨t1 ++ t2, by rw [e1, e2, List.append_assoc], .cons h1 h2⟩
        · simp at hp
      · simp at hp

theorem Sound.repeat1 {p : TParser α} {R : α → Bytes → Prop} (h : Sound p R) :
    Sound (repeat1 p) (fun as t => Spells R as t ∧ as ≠ []) := by
  intro s i a r s' hp
  simp only [TParser.repeat1] at hp
  split at hp
  · simp at hp
  · rename_i x r1 s1 he
    split at hp
    · rename_i as r2 s2 he2
      simp only [Prod.mk.injEq, Option.some.injEq] at hp
      obtain ⟨⟨rfl, rfl⟩, rfl⟩ := hp
      obtain ⟨t1, e1, h1⟩ := h _ _ _ _ _ he
      obtain ⟨t2, e2, h2⟩ := h.repeat0Aux _ _ _ _ _ _ he2
      exact ⟨t1 ++ t2, by rw [e1, e2, List.append_assoc], .cons h1 h2, by simp⟩
    · simp at hp

theorem parseAll_eq_some {p : TParser α} {s i a s'} :
    parseAll p s i = (some a, s') ↔ p s i = (some (a, []), s') := by
  unfold parseAll
  rcases hp : p s i with ⟨_ | ⟨x, _ | ⟨c, r⟩⟩, s''⟩ <;> simp

theorem Sound.withTaken {p : TParser α} {R : α → Bytes → Prop}
    (h : Sound p R) : Sound (TParser.withTaken p) (fun x t => R x.1 t ∧ x.2 = t) := by
  intro s i x r s' hp
  simp only [TParser.withTaken] at hp
  split at hp
  · rename_i a r1 s1 he
    simp only [Prod.mk.injEq, Option.some.injEq] at hp
    obtain ⟨⟨rfl, rfl⟩, rfl⟩ := hp
    obtain ⟨t, rfl, h2⟩ := h _ _ _ _ _ he
    exact ⟨t, rfl, h2, by simp⟩
  · simp at hp

theorem withTaken_run {p : TParser α} {s s' i a t r} (h : p s i = (some (a, r), s')) (ht : i = t ++ r) :
    TParser.withTaken p s i = (some ((a, t), r), s') := by
  subst ht; simp [TParser.withTaken, h]

theorem withTaken_none {p : TParser α} {s s' i} (h : p s i = (none, s')) :
    TParser.withTaken p s i = (none, s') := by
  simp [TParser.withTaken, h]

end TParser

/-! ## White space -/

theorem bs_and : bs "&&" = [0x26, 0x26] := by decide +kernel
theorem bs_or : bs "||" = [0x7C, 0x7C] := by decide +kernel
theorem bs_hat : bs "^" = [0x5E] := by decide +kernel
theorem bs_xor : bs "XOR" = [0x58, 0x4F, 0x52] := by decide +kernel
theorem bs_lpar : bs "(" = [0x28] := by decide +kernel
theorem bs_rpar : bs ")" = [0x29] := by decide +kernel
theorem bs_bang : bs "!" = [0x21] := by decide +kernel

theorem isMultispace_iff (b : Byte) :
    isMultispace b = true ↔ b = 0x20 ∨ b = 0x09 ∨ b = 0x0D ∨ b = 0x0A := by
  simp [isMultispace, or_assoc]

theorem ws_nil : Ws [] := by simp [Ws]

theorem ws_append {a b : Bytes} (h : Ws a) (h' : Ws b) : Ws (a ++ b) := by
  intro x hx
  rw [List.mem_append] at hx
  exact hx.elim (h x) (h' x)

theorem mem_takeWhile {α : Type} {p : α → Bool} {l : List α} {a : α}
    (h : a ∈ l.takeWhile p) : p a = true := by
  induction l with
  | nil => simp at h
  | cons x l ih =>
    rw [List.takeWhile_cons] at h
    split at h
    · rw [List.mem_cons] at h
      rcases h with rfl | h
      · assumption
      · exact ih h
    · simp at h

theorem multispace0_sound {i a r} (h : multispace0 i = some (a, r)) :
    i = a ++ r ∧ Ws a := by
  simp only [multispace0, Option.some.injEq, Prod.mk.injEq] at h
  obtain ⟨rfl, rfl⟩ := h
  refine ⟨List.takeWhile_append_dropWhile.symm, fun b hb => ?_⟩
  exact (isMultispace_iff b).1 (mem_takeWhile hb)

theorem tws_sound {α : Type} {p : TParser α} {R : α → Bytes → Prop} (h : TParser.Sound p R) :
    TParser.Sound (tws p) (fun a t => ∃ w u w', t = w ++ u ++ w' ∧ Ws w ∧ R a u ∧ Ws w') := by
  have hm : TParser.Sound (TParser.lift multispace0) (fun _ t => Ws t) :=
    .lift (fun i a r hp => ⟨a, (multispace0_sound hp).1, (multispace0_sound hp).2⟩)
  exact (hm.delimited h hm).mono (by
    rintro b t ⟨_, _, t1, t2, t3, rfl, h1, h2, h3⟩
    exact ⟨t1, t2, t3, rfl, h1, h2, h3⟩)

theorem ws_sound {α : Type} {p : Parser α} {R : α → Bytes → Prop}
    (h : ∀ i a r, p i = some (a, r) → ∃ t, i = t ++ r ∧ R a t) {i a r}
    (hp : ws p i = some (a, r)) : ∃ w t w', i = w ++ t ++ w' ++ r ∧ Ws w ∧ R a t ∧ Ws w' := by
  obtain ⟨_, r1, _, r2, h1, h2, h3⟩ := Parser.delimited_eq_some.1 hp
  obtain ⟨e1, w1⟩ := multispace0_sound h1
  obtain ⟨t, e2, ht⟩ := h _ _ _ h2
  obtain ⟨e3, w3⟩ := multispace0_sound h3
  exact ⟨_, t, _, by rw [e1, e2, e3]; simp, w1, ht, w3⟩

/-! ### what an accepting parser has read -/

namespace TParser
variable {α β : Type}

theorem map_inv {f : α → β} {p : TParser α} {s i b r s'} (h : TParser.map f p s i = (some (b, r), s')) :
    ∃ a, p s i = (some (a, r), s') ∧ f a = b := by
  unfold TParser.map at h
  split at h
  · rename_i a r1 s1 he
    simp only [Prod.mk.injEq, Option.some.injEq] at h
    obtain ⟨⟨h1, rfl⟩, rfl⟩ := h
    exact ⟨a, he, h1⟩
  · simp at h

theorem seq_inv {p : TParser α} {q : TParser β} {s i x r s'} (h : TParser.seq p q s i = (some (x, r), s')) :
    ∃ r1 s1, p s i = (some (x.1, r1), s1) ∧ q s1 r1 = (some (x.2, r), s') := by
  unfold TParser.seq at h
  split at h
  · simp at h
  · rename_i a r1 s1 he
    split at h
    · simp at h
    · rename_i b r2 s2 he2
      simp only [Prod.mk.injEq, Option.some.injEq] at h
      obtain ⟨⟨rfl, rfl⟩, rfl⟩ := h
      exact ⟨r1, s1, he, he2⟩

theorem withTaken_inv {p : TParser α} {s i x r s'} (h : TParser.withTaken p s i = (some (x, r), s')) :
    p s i = (some (x.1, r), s') := by
  unfold TParser.withTaken at h
  split at h
  · rename_i a r1 s1 he
    simp only [Prod.mk.injEq, Option.some.injEq] at h
    obtain ⟨⟨rfl, rfl⟩, rfl⟩ := h
    exact he
  · simp at h

theorem lift_inv {p : Parser α} {s i x s'} (h : TParser.lift p s i = (x, s')) : p i = x ∧ s' = s := by
  simp only [TParser.lift, Prod.mk.injEq] at h
  exact ⟨h.1, h.2.symm⟩

end TParser

theorem TParser.preceded_inv {α β : Type} {p : TParser α} {q : TParser β} {s i x r s'}
    (h : TParser.preceded p q s i = (some (x, r), s')) :
    ∃ a r1 s1, p s i = (some (a, r1), s1) ∧ q s1 r1 = (some (x, r), s') := by
  obtain ⟨⟨a, b⟩, h0, rfl⟩ := TParser.map_inv h
  obtain ⟨r1, s1, h1, h2⟩ := TParser.seq_inv h0
  exact ⟨a, r1, s1, h1, h2⟩

theorem TParser.terminated_inv {α β : Type} {p : TParser α} {q : TParser β} {s i x r s'}
    (h : TParser.terminated p q s i = (some (x, r), s')) :
    ∃ a r1 s1, p s i = (some (x, r1), s1) ∧ q s1 r1 = (some (a, r), s') := by
  obtain ⟨⟨a, b⟩, h0, rfl⟩ := TParser.map_inv h
  obtain ⟨r1, s1, h1, h2⟩ := TParser.seq_inv h0
  exact ⟨b, r1, s1, h1, h2⟩

end Pica
