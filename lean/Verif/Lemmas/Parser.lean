import Verif.Spec.Basic

/-! Lemmas about the combinators. -/

namespace Pica
namespace Parser

variable {α β γ : Type}

/-- `p` only returns values satisfying `ok`, and has consumed exactly `w a` -/
def Sound (p : Parser α) (ok : α → Prop) (w : α → Bytes) : Prop :=
  ∀ i a r, p i = some (a, r) → ok a ∧ i = w a ++ r

theorem map_eq_some {f : α → β} {p : Parser α} {i b r} :
    map f p i = some (b, r) ↔ ∃ a, p i = some (a, r) ∧ f a = b := by
  unfold map
  cases h : p i with
  | none => simp
  | some x => obtain ⟨a, r'⟩ := x; simp; constructor
              · rintro ⟨h1, h2⟩; exact ⟨a, ⟨rfl, h2⟩, h1⟩
              · rintro ⟨a', ⟨h1, h2⟩, h3⟩; subst h1; exact ⟨h3, h2⟩

theorem seq_eq_some {p : Parser α} {q : Parser β} {i a b r} :
    seq p q i = some ((a, b), r) ↔ ∃ r', p i = some (a, r') ∧ q r' = some (b, r) := by
  unfold seq
  cases h : p i with
  | none => simp
  | some x =>
    obtain ⟨a', r'⟩ := x
    simp only [Option.some.injEq, Prod.mk.injEq]
    constructor
    · intro h'
      split at h'
      · simp at h'
      · rename_i h2
        simp only [Option.some.injEq, Prod.mk.injEq] at h'
        obtain ⟨⟨rfl, rfl⟩, rfl⟩ := h'
        exact ⟨_, ⟨rfl, rfl⟩, h2⟩
    · rintro ⟨_, ⟨rfl, rfl⟩, h⟩; simp [h]

theorem preceded_eq_some {p : Parser α} {q : Parser β} {i b r} :
    preceded p q i = some (b, r) ↔ ∃ a r', p i = some (a, r') ∧ q r' = some (b, r) := by
  unfold preceded
  rw [map_eq_some]
  constructor
  · rintro ⟨⟨a, b'⟩, h, rfl⟩; obtain ⟨r', h1, h2⟩ := seq_eq_some.1 h; exact ⟨a, r', h1, h2⟩
  · rintro ⟨a, r', h1, h2⟩; exact ⟨(a, b), seq_eq_some.2 ⟨r', h1, h2⟩, rfl⟩

theorem terminated_eq_some {p : Parser α} {q : Parser β} {i a r} :
    terminated p q i = some (a, r) ↔ ∃ b r', p i = some (a, r') ∧ q r' = some (b, r) := by
  unfold terminated
  rw [map_eq_some]
  constructor
  · rintro ⟨⟨a', b⟩, h, rfl⟩; obtain ⟨r', h1, h2⟩ := seq_eq_some.1 h; exact ⟨b, r', h1, h2⟩
  · rintro ⟨b, r', h1, h2⟩; exact ⟨(a, b), seq_eq_some.2 ⟨r', h1, h2⟩, rfl⟩

theorem opt_eq_some {p : Parser α} {i o r} :
    opt p i = some (o, r) ↔
      (∃ a, o = some a ∧ p i = some (a, r)) ∨ (o = none ∧ p i = none ∧ r = i) := by
  unfold opt
  cases h : p i with
  | none => simp [eq_comm]
  | some x =>
    obtain ⟨a, r'⟩ := x
    simp
    constructor
    · rintro ⟨rfl, rfl⟩; exact ⟨a, rfl, rfl, rfl⟩
    · rintro ⟨_, rfl, rfl, rfl⟩; exact ⟨rfl, rfl⟩

theorem alt_eq_some {p q : Parser α} {i x} :
    alt p q i = some x ↔ p i = some x ∨ (p i = none ∧ q i = some x) := by
  unfold alt; cases h : p i <;> simp

theorem alt_eq_none {p q : Parser α} {i} :
    alt p q i = none ↔ p i = none ∧ q i = none := by
  unfold alt; cases h : p i <;> simp

theorem oneOf_eq_some {f : Byte → Bool} {i b r} :
    oneOf f i = some (b, r) ↔ i = b :: r ∧ f b = true := by
  cases i with
  | nil => simp [oneOf]
  | cons c t =>
    simp only [oneOf]
    split
    · simp; grind
    · simp; grind

theorem byte_eq_some {c : Byte} {i b r} :
    byte c i = some (b, r) ↔ i = c :: r ∧ b = c := by
  unfold byte; rw [oneOf_eq_some]; simp; grind

theorem byte_cons_self (c : Byte) (r) : byte c (c :: r) = some (c, r) := by
  simp [byte, oneOf]

theorem byte_cons_ne {c d : Byte} (h : d ≠ c) (r) : byte c (d :: r) = none := by
  simp [byte, oneOf, h]

theorem takeTill0_eq_some {f : Byte → Bool} {i v r} :
    takeTill0 f i = some (v, r) ↔
      i = v ++ r ∧ (∀ b ∈ v, f b = false) ∧ (r = [] ∨ ∃ b t, r = b :: t ∧ f b = true) := by
  unfold takeTill0
  simp only [Option.some.injEq, Prod.mk.injEq]
  constructor
  · rintro ⟨rfl, rfl⟩
    refine ⟨by simp, ?_, ?_⟩
    · intro b hb
      have := List.all_takeWhile (p := fun b => !f b) (l := i)
      rw [List.all_eq_true] at this
      simpa using this b hb
    · cases h : i.dropWhile (fun b => !f b) with
      | nil => exact .inl rfl
      | cons b t =>
        refine .inr ⟨b, t, rfl, ?_⟩
        have hne : i.dropWhile (fun b => !f b) ≠ [] := by simp [h]
        have := List.head_dropWhile_not (p := fun b => !f b) (l := i) hne
        simpa [h] using this
  · rintro ⟨rfl, hv, hr⟩
    have hv' : ∀ b ∈ v, (!f b) = true := by simpa using hv
    rcases hr with rfl | ⟨b, t, rfl, hb⟩
    · rw [List.takeWhile_append_of_pos hv', List.dropWhile_append_of_pos hv']; simp
    · rw [List.takeWhile_append_of_pos hv', List.dropWhile_append_of_pos hv']; simp [hb]

/-- the loop of `repeat` is sound, whatever the fuel -/
theorem repeat0Aux_sound {p : Parser α} {ok w} (h : Sound p ok w) :
    ∀ n, Sound (repeat0Aux p n) (fun as => ∀ a ∈ as, ok a) (fun as => as.flatMap w) := by
  intro n
  induction n with
  | zero => intro i as r hr; simp [repeat0Aux] at hr; simp [hr]
  | succ n ih =>
    intro i as r hr
    rw [repeat0Aux] at hr
    split at hr
    · simp at hr; simp [hr]
    · rename_i a r1 h1
      split at hr
      · split at hr
        · rename_i as' r' h2
          simp at hr
          obtain ⟨rfl, rfl⟩ := hr
          obtain ⟨ha, hi⟩ := h _ _ _ h1
          obtain ⟨has, hi'⟩ := ih _ _ _ h2
          refine ⟨?_, ?_⟩
          · intro b hb; cases hb with
            | head => exact ha
            | tail _ hb => exact has _ hb
          · simp only [List.flatMap_cons, hi, hi', List.append_assoc]
        · simp at hr
      · simp at hr

theorem repeat0_sound {p : Parser α} {ok w} (h : Sound p ok w) :
    Sound (repeat0 p) (fun as => ∀ a ∈ as, ok a) (fun as => as.flatMap w) :=
  fun i => repeat0Aux_sound h _ i

theorem repeat1_sound {p : Parser α} {ok w} (h : Sound p ok w) :
    Sound (repeat1 p) (fun as => as ≠ [] ∧ ∀ a ∈ as, ok a) (fun as => as.flatMap w) := by
  intro i as r hr
  unfold repeat1 at hr
  split at hr
  · simp at hr
  · rename_i a r1 h1
    split at hr
    · rename_i as' r' h2
      simp at hr
      obtain ⟨rfl, rfl⟩ := hr
      obtain ⟨ha, hi⟩ := h _ _ _ h1
      obtain ⟨has, hi'⟩ := repeat0_sound h _ _ _ h2
      refine ⟨⟨by simp, ?_⟩, ?_⟩
      · intro b hb; cases hb with
        | head => exact ha
        | tail _ hb => exact has _ hb
      · simp only [List.flatMap_cons, hi, hi', List.append_assoc]
    · simp at hr

/-- What `repeat` does on a printed list followed by something `p` refuses -/
theorem repeat0Aux_complete {p : Parser α} {w : α → Bytes} {F : Bytes → Prop} {as : List α}
    (hp : ∀ a ∈ as, ∀ r, F r → p (w a ++ r) = some (a, r))
    (hF : ∀ a ∈ as, ∀ r, F (w a ++ r)) (hw : ∀ a ∈ as, w a ≠ []) {r : Bytes} (hr : F r)
    (hn : p r = none) :
    ∀ n, (as.flatMap w ++ r).length < n → repeat0Aux p n (as.flatMap w ++ r) = some (as, r) := by
  induction as with
  | nil =>
    intro n h
    cases n with
    | zero => simp at h
    | succ n => simp [repeat0Aux, hn]
  | cons a as ih =>
    intro n hlen
    cases n with
    | zero => simp at hlen
    | succ n =>
      have ha : p (w a ++ (as.flatMap w ++ r)) = some (a, as.flatMap w ++ r) := by
        apply hp a (by simp)
        cases as with
        | nil => simpa using hr
        | cons b bs =>
          simp only [List.flatMap_cons, List.append_assoc]
          exact hF b (by simp) _
      have hwa : 0 < (w a).length := List.length_pos_iff.2 (hw a (by simp))
      have := ih (fun a ha => hp a (by simp [ha])) (fun a ha => hF a (by simp [ha]))
        (fun a ha => hw a (by simp [ha])) n (by simp at hlen ⊢; omega)
      simp only [List.flatMap_cons, List.append_assoc, repeat0Aux, ha, this]
      rw [if_pos (by simp; omega)]

theorem repeat0_complete {p : Parser α} {w : α → Bytes} (F : Bytes → Prop) {as : List α}
    (hp : ∀ a ∈ as, ∀ r, F r → p (w a ++ r) = some (a, r))
    (hF : ∀ a ∈ as, ∀ r, F (w a ++ r)) (hw : ∀ a ∈ as, w a ≠ []) {r : Bytes} (hr : F r)
    (hn : p r = none) : repeat0 p (as.flatMap w ++ r) = some (as, r) :=
  repeat0Aux_complete hp hF hw hr hn _ (by omega)

theorem repeat1_complete {p : Parser α} {w : α → Bytes} (F : Bytes → Prop) {as : List α}
    (hne : as ≠ [])
    (hp : ∀ a ∈ as, ∀ r, F r → p (w a ++ r) = some (a, r))
    (hF : ∀ a ∈ as, ∀ r, F (w a ++ r)) (hw : ∀ a ∈ as, w a ≠ []) {r : Bytes} (hr : F r)
    (hn : p r = none) : repeat1 p (as.flatMap w ++ r) = some (as, r) := by
  cases as with
  | nil => exact absurd rfl hne
  | cons a as =>
    have ha : p (w a ++ (as.flatMap w ++ r)) = some (a, as.flatMap w ++ r) := by
      apply hp a (by simp)
      cases as with
      | nil => simpa using hr
      | cons b bs =>
        simp only [List.flatMap_cons, List.append_assoc]
        exact hF b (by simp) _
    have := repeat0_complete F (fun a ha => hp a (by simp [ha])) (fun a ha => hF a (by simp [ha]))
        (fun a ha => hw a (by simp [ha])) hr hn (as := as)
    simp only [List.flatMap_cons, List.append_assoc, repeat1, ha, this]

open Spec in
theorem repeat0Aux_spells {p : Parser α} {R : α → Bytes → Prop}
    (h : ∀ i a r, p i = some (a, r) → ∃ t, i = t ++ r ∧ R a t) :
    ∀ n i as r, repeat0Aux p n i = some (as, r) → ∃ t, i = t ++ r ∧ Spells R as t := by
  intro n
  induction n with
  | zero => intro i as r hr; simp [repeat0Aux] at hr; exact ⟨[], by simp [hr], by rw [hr.1]; exact .nil⟩
  | succ n ih =>
    intro i as r hr
    rw [repeat0Aux] at hr
    split at hr
    · simp at hr; exact ⟨[], by simp [hr], by rw [hr.1]; exact .nil⟩
    · rename_i a r1 h1
      split at hr
      · split at hr
        · rename_i as' r' h2
          simp at hr
          obtain ⟨rfl, rfl⟩ := hr
          obtain ⟨t, rfl, ht⟩ := h _ _ _ h1
          obtain ⟨t', rfl, ht'⟩ := ih _ _ _ h2
          exact ⟨t ++ t', by simp, .cons ht ht'⟩
        · simp at hr
      · simp at hr

open Spec in
theorem repeat0_spells {p : Parser α} {R : α → Bytes → Prop}
    (h : ∀ i a r, p i = some (a, r) → ∃ t, i = t ++ r ∧ R a t) {i as r}
    (hr : repeat0 p i = some (as, r)) : ∃ t, i = t ++ r ∧ Spells R as t :=
  repeat0Aux_spells h _ _ _ _ hr

open Spec in
theorem repeat1_spells {p : Parser α} {R : α → Bytes → Prop}
    (h : ∀ i a r, p i = some (a, r) → ∃ t, i = t ++ r ∧ R a t) {i as r}
    (hr : repeat1 p i = some (as, r)) : ∃ t, i = t ++ r ∧ as ≠ [] ∧ Spells R as t := by
  unfold repeat1 at hr
  split at hr
  · simp at hr
  · rename_i a r1 h1
    split at hr
    · rename_i as' r' h2
      simp at hr
      obtain ⟨rfl, rfl⟩ := hr
      obtain ⟨t, rfl, ht⟩ := h _ _ _ h1
      obtain ⟨t', rfl, ht'⟩ := repeat0_spells h h2
      exact ⟨t ++ t', by simp, by simp, .cons ht ht'⟩
    · simp at hr

open Spec in
theorem repeat0Aux_of_spells {p : Parser α} {R : α → Bytes → Prop} {F : Bytes → Prop}
    (hp : ∀ a t r, R a t → F r → p (t ++ r) = some (a, r))
    (hF : ∀ a t r, R a t → F (t ++ r)) (hw : ∀ a t, R a t → t ≠ []) {r : Bytes} (hr : F r)
    (hn : p r = none) {as t} (hs : Spells R as t) :
    ∀ n, (t ++ r).length < n → repeat0Aux p n (t ++ r) = some (as, r) := by
  induction hs with
  | nil =>
    intro n h
    cases n with
    | zero => simp at h
    | succ n => simp [repeat0Aux, hn]
  | @cons a as t ts h1 h2 ih =>
    intro n hlen
    cases n with
    | zero => simp at hlen
    | succ n =>
      have ha : p (t ++ (ts ++ r)) = some (a, ts ++ r) := by
        apply hp a t _ h1
        cases h2 with
        | nil => simpa using hr
        | cons h3 h4 => rw [List.append_assoc]; exact hF _ _ _ h3
      have hwa : 0 < t.length := List.length_pos_iff.2 (hw a t h1)
      have := ih n (by simp at hlen ⊢; omega)
      simp only [List.append_assoc, repeat0Aux, ha, this]
      rw [if_pos (by simp; omega)]

open Spec in
theorem repeat0_of_spells {p : Parser α} {R : α → Bytes → Prop} (F : Bytes → Prop)
    (hp : ∀ a t r, R a t → F r → p (t ++ r) = some (a, r))
    (hF : ∀ a t r, R a t → F (t ++ r)) (hw : ∀ a t, R a t → t ≠ []) {r : Bytes} (hr : F r)
    (hn : p r = none) {as t} (hs : Spells R as t) : repeat0 p (t ++ r) = some (as, r) :=
  repeat0Aux_of_spells hp hF hw hr hn hs _ (by omega)

open Spec in
theorem repeat1_of_spells {p : Parser α} {R : α → Bytes → Prop} (F : Bytes → Prop)
    (hp : ∀ a t r, R a t → F r → p (t ++ r) = some (a, r))
    (hF : ∀ a t r, R a t → F (t ++ r)) (hw : ∀ a t, R a t → t ≠ []) {r : Bytes} (hr : F r)
    (hn : p r = none) {as t} (hne : as ≠ []) (hs : Spells R as t) :
    repeat1 p (t ++ r) = some (as, r) := by
  cases hs with
  | nil => exact absurd rfl hne
  | @cons a as t ts h1 h2 =>
    have ha : p (t ++ (ts ++ r)) = some (a, ts ++ r) := by
      apply hp a t _ h1
      cases h2 with
      | nil => simpa using hr
      | cons h3 h4 => rw [List.append_assoc]; exact hF _ _ _ h3
    have := repeat0_of_spells F hp hF hw hr hn h2
    simp only [List.append_assoc, repeat1, ha, this]

theorem verify_eq_some {f : α → Bool} {p : Parser α} {i a r} :
    verify f p i = some (a, r) ↔ p i = some (a, r) ∧ f a = true := by
  unfold verify
  cases h : p i with
  | none => simp
  | some x =>
    obtain ⟨a', r'⟩ := x
    simp only [Option.ite_none_right_eq_some, Option.some.injEq, Prod.mk.injEq]
    constructor
    · rintro ⟨h, rfl, rfl⟩; exact ⟨⟨rfl, rfl⟩, h⟩
    · rintro ⟨⟨rfl, rfl⟩, h⟩; exact ⟨h, rfl, rfl⟩

theorem value_eq_some {v : β} {p : Parser α} {i b r} :
    value v p i = some (b, r) ↔ b = v ∧ ∃ a, p i = some (a, r) := by
  unfold value; rw [map_eq_some]
  constructor
  · rintro ⟨a, h, rfl⟩; exact ⟨rfl, a, h⟩
  · rintro ⟨rfl, a, h⟩; exact ⟨a, h, rfl⟩

theorem delimited_eq_some {p : Parser α} {q : Parser β} {q' : Parser γ} {i b r} :
    delimited p q q' i = some (b, r) ↔
      ∃ a r1 c r2, p i = some (a, r1) ∧ q r1 = some (b, r2) ∧ q' r2 = some (c, r) := by
  unfold delimited
  rw [preceded_eq_some]
  constructor
  · rintro ⟨a, r1, h1, h2⟩
    obtain ⟨c, r2, h3, h4⟩ := terminated_eq_some.1 h2
    exact ⟨a, r1, c, r2, h1, h3, h4⟩
  · rintro ⟨a, r1, c, r2, h1, h3, h4⟩
    exact ⟨a, r1, h1, terminated_eq_some.2 ⟨c, r2, h3, h4⟩⟩

theorem lit_eq_some {t : Bytes} {i u r} : lit t i = some (u, r) ↔ i = t ++ r := by
  induction t generalizing i with
  | nil => simp [lit]
  | cons c t ih =>
    cases i with
    | nil => simp [lit]
    | cons b i =>
      simp only [lit, List.cons_append, List.cons.injEq]
      split
      · rename_i h; simp at h; rw [ih]; simp [h]
      · rename_i h; simp at h; simp [h]

theorem parseAll_eq_some {p : Parser α} {i a} : parseAll p i = some a ↔ p i = some (a, []) := by
  unfold parseAll
  split
  · rename_i b h; simp [h]
  · rename_i h
    constructor
    · simp
    · intro h'; exact absurd h' (h _)

end Parser
end Pica
