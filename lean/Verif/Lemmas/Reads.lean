import Verif.Lemmas.TParser

/-! Soundness calculus for parsers without state. -/

namespace Pica
open Spec

namespace Parser
variable {α β γ : Type}

/-- Whenever `p` succeeds, the consumed text stands in relation `R` with the
result. -/
def Reads (p : Parser α) (R : α → Bytes → Prop) : Prop :=
  ∀ i a r, p i = some (a, r) → ∃ t, i = t ++ r ∧ R a t

theorem Reads.mono {p : Parser α} {R R' : α → Bytes → Prop} (h : Reads p R)
    (hR : ∀ a t, R a t → R' a t) : Reads p R' := fun i a r hp => by
  obtain ⟨t, h1, h2⟩ := h i a r hp
  exact ⟨t, h1, hR a t h2⟩

theorem Reads.map {p : Parser α} {R : α → Bytes → Prop} (h : Reads p R) (f : α → β) :
    Reads (map f p) (fun b t => ∃ a, b = f a ∧ R a t) := fun i b r hp => by
  obtain ⟨a, ha, rfl⟩ := map_eq_some.1 hp
  obtain ⟨t, h1, h2⟩ := h i a r ha
  exact ⟨t, h1, a, rfl, h2⟩

theorem Reads.seq {p : Parser α} {q : Parser β} {R : α → Bytes → Prop} {Q : β → Bytes → Prop}
    (h : Reads p R) (h' : Reads q Q) :
    Reads (seq p q) (fun x t => ∃ t1 t2, t = t1 ++ t2 ∧ R x.1 t1 ∧ Q x.2 t2) :=
  fun i x r hp => by
  obtain ⟨a, b⟩ := x
  obtain ⟨r1, h1, h2⟩ := seq_eq_some.1 hp
  obtain ⟨t1, e1, k1⟩ := h _ _ _ h1
  obtain ⟨t2, e2, k2⟩ := h' _ _ _ h2
  exact ⟨t1 ++ t2, by rw [e1, e2, List.append_assoc], t1, t2, rfl, k1, k2⟩

theorem Reads.preceded {p : Parser α} {q : Parser β} {R : α → Bytes → Prop}
    {Q : β → Bytes → Prop} (h : Reads p R) (h' : Reads q Q) :
    Reads (preceded p q) (fun b t => ∃ a t1 t2, t = t1 ++ t2 ∧ R a t1 ∧ Q b t2) :=
  ((h.seq h').map Prod.snd).mono (by
    rintro b t ⟨⟨a, b'⟩, rfl, t1, t2, h1, h2, h3⟩
    exact ⟨a, t1, t2, h1, h2, h3⟩)

theorem Reads.terminated {p : Parser α} {q : Parser β} {R : α → Bytes → Prop}
    {Q : β → Bytes → Prop} (h : Reads p R) (h' : Reads q Q) :
    Reads (terminated p q) (fun a t => ∃ b t1 t2, t = t1 ++ t2 ∧ R a t1 ∧ Q b t2) :=
  ((h.seq h').map Prod.fst).mono (by
    rintro a t ⟨⟨a', b⟩, rfl, t1, t2, h1, h2, h3⟩
    exact ⟨b, t1, t2, h1, h2, h3⟩)

theorem Reads.delimited {p : Parser α} {q : Parser β} {q' : Parser γ} {R : α → Bytes → Prop}
    {Q : β → Bytes → Prop} {Q' : γ → Bytes → Prop} (h : Reads p R) (h' : Reads q Q)
    (h'' : Reads q' Q') :
    Reads (delimited p q q') (fun b t => ∃ a c t1 t2 t3, t = t1 ++ t2 ++ t3 ∧
      R a t1 ∧ Q b t2 ∧ Q' c t3) :=
  (h.preceded (h'.terminated h'')).mono (by
    rintro b t ⟨a, t1, t2, rfl, h1, c, t3, t4, rfl, h2, h3⟩
    exact ⟨a, c, t1, t3, t4, by simp, h1, h2, h3⟩)

theorem Reads.alt {p q : Parser α} {R Q : α → Bytes → Prop} (h : Reads p R) (h' : Reads q Q) :
    Reads (alt p q) (fun a t => R a t ∨ Q a t) := fun i a r hp => by
  rcases alt_eq_some.1 hp with hp | ⟨_, hp⟩
  · obtain ⟨t, h1, h2⟩ := h _ _ _ hp
    exact ⟨t, h1, .inl h2⟩
  · obtain ⟨t, h1, h2⟩ := h' _ _ _ hp
    exact ⟨t, h1, .inr h2⟩

theorem Reads.opt {p : Parser α} {R : α → Bytes → Prop} (h : Reads p R) :
    Reads (opt p) (fun o t => (∃ a, o = some a ∧ R a t) ∨ (o = none ∧ t = [])) :=
  fun i o r hp => by
  rcases opt_eq_some.1 hp with ⟨a, rfl, hp'⟩ | ⟨rfl, _, rfl⟩
  · obtain ⟨t, h1, h2⟩ := h _ _ _ hp'
    exact ⟨t, h1, .inl ⟨a, rfl, h2⟩⟩
  · exact ⟨[], rfl, .inr ⟨rfl, rfl⟩⟩

theorem Reads.verify {p : Parser α} {R : α → Bytes → Prop} (h : Reads p R) (f : α → Bool) :
    Reads (verify f p) (fun a t => R a t ∧ f a = true) := fun i a r hp => by
  obtain ⟨hp, hf⟩ := verify_eq_some.1 hp
  obtain ⟨t, h1, h2⟩ := h _ _ _ hp
  exact ⟨t, h1, h2, hf⟩

theorem verifyMap_eq_some {f : α → Option β} {p : Parser α} {i b r} :
    verifyMap f p i = some (b, r) ↔ ∃ a, p i = some (a, r) ∧ f a = some b := by
  unfold verifyMap
  cases h : p i with
  | none => simp
  | some x =>
    obtain ⟨a, r'⟩ := x
    simp only [Option.map_eq_some_iff, Prod.mk.injEq, Option.some.injEq]
    constructor
    · rintro ⟨b', h1, rfl, rfl⟩; exact ⟨a, ⟨rfl, rfl⟩, h1⟩
    · rintro ⟨a', ⟨rfl, rfl⟩, h1⟩; exact ⟨b, h1, rfl, rfl⟩

theorem Reads.verifyMap {p : Parser α} {R : α → Bytes → Prop} (h : Reads p R) (f : α → Option β) :
    Reads (verifyMap f p) (fun b t => ∃ a, R a t ∧ f a = some b) := fun i b r hp => by
  obtain ⟨a, hp, hf⟩ := verifyMap_eq_some.1 hp
  obtain ⟨t, h1, h2⟩ := h _ _ _ hp
  exact ⟨t, h1, a, h2, hf⟩

theorem Reads.value {p : Parser α} {R : α → Bytes → Prop} (h : Reads p R) (v : β) :
    Reads (value v p) (fun b t => b = v ∧ ∃ a, R a t) := fun i b r hp => by
  obtain ⟨rfl, a, hp⟩ := value_eq_some.1 hp
  obtain ⟨t, h1, h2⟩ := h _ _ _ hp
  exact ⟨t, h1, rfl, a, h2⟩

theorem withTaken_eq_some {p : Parser α} {i a t r} :
    withTaken p i = some ((a, t), r) ↔ p i = some (a, r) ∧ t = i.take (i.length - r.length) := by
  unfold withTaken
  cases h : p i with
  | none => simp
  | some x =>
    obtain ⟨a', r'⟩ := x
    simp only [Option.some.injEq, Prod.mk.injEq]
    constructor
    · rintro ⟨⟨rfl, rfl⟩, rfl⟩; exact ⟨⟨rfl, rfl⟩, rfl⟩
    · rintro ⟨⟨rfl, rfl⟩, rfl⟩; exact ⟨⟨rfl, rfl⟩, rfl⟩

theorem Reads.withTaken {p : Parser α} {R : α → Bytes → Prop} (h : Reads p R) :
    Reads (withTaken p) (fun x t => R x.1 t ∧ x.2 = t) := fun i x r hp => by
  obtain ⟨a, u⟩ := x
  obtain ⟨hp', rfl⟩ := withTaken_eq_some.1 hp
  obtain ⟨t, h1, h2⟩ := h _ _ _ hp'
  refine ⟨t, h1, h2, ?_⟩
  subst h1
  simp

theorem Reads.lit (x : Bytes) : Reads (lit x) (fun _ t => t = x) := fun _ _ _ hp =>
  ⟨x, lit_eq_some.1 hp, rfl⟩

theorem Reads.byte (b : Byte) : Reads (byte b) (fun a t => a = b ∧ t = [b]) := fun i a r hp => by
  obtain ⟨rfl, rfl⟩ := byte_eq_some.1 hp
  exact ⟨[a], rfl, rfl, rfl⟩

theorem Reads.oneOf (f : Byte → Bool) : Reads (oneOf f) (fun a t => f a = true ∧ t = [a]) :=
  fun i a r hp => by
  obtain ⟨rfl, h⟩ := oneOf_eq_some.1 hp
  exact ⟨[a], rfl, h, rfl⟩

theorem Reads.ws {p : Parser α} {R : α → Bytes → Prop} (h : Reads p R) :
    Reads (ws p) (fun a t => ∃ w u w', t = w ++ u ++ w' ∧ Ws w ∧ R a u ∧ Ws w') :=
  fun i a r hp => by
  obtain ⟨w, t, w', h1, h2, h3, h4⟩ := ws_sound h hp
  exact ⟨w ++ t ++ w', h1, w, t, w', rfl, h2, h3, h4⟩

theorem takeWhileM_eq_some {m : Nat} {f : Byte → Bool} {i t r} :
    takeWhileM m f i = some (t, r) ↔
      t = i.takeWhile f ∧ r = i.dropWhile f ∧ m ≤ t.length := by
  unfold takeWhileM
  simp only
  split
  · rename_i h
    simp only [Option.some.injEq, Prod.mk.injEq]
    constructor
    · rintro ⟨rfl, rfl⟩; exact ⟨rfl, rfl, h⟩
    · rintro ⟨rfl, rfl, _⟩; exact ⟨rfl, rfl⟩
  · rename_i h
    simp only [reduceCtorEq, false_iff]
    rintro ⟨rfl, rfl, h'⟩; exact h h'

theorem Reads.takeWhileM (m : Nat) (f : Byte → Bool) :
    Reads (takeWhileM m f) (fun a t => a = t ∧ m ≤ t.length ∧ ∀ b ∈ t, f b = true) :=
  fun i a r hp => by
  obtain ⟨rfl, rfl, h⟩ := takeWhileM_eq_some.1 hp
  exact ⟨_, List.takeWhile_append_dropWhile.symm, rfl, h, fun b hb => mem_takeWhile hb⟩

theorem Reads.lift {p : Parser α} {R : α → Bytes → Prop} (h : Reads p R) :
    TParser.Sound (TParser.lift p) R := TParser.Sound.lift h

theorem takeWhile_append_of {f : Byte → Bool} {t r : Bytes} (ht : ∀ b ∈ t, f b = true)
    (hr : ∀ b, r.head? = some b → f b = false) :
    (t ++ r).takeWhile f = t ∧ (t ++ r).dropWhile f = r := by
  induction t with
  | nil =>
    cases r with
    | nil => simp
    | cons b r =>
      have := hr b rfl
      simp [this]
  | cons b t ih =>
    have hb := ht b (by simp)
    have := ih (fun x hx => ht x (by simp [hx]))
    simp [hb, this]

theorem takeWhileM_append {m : Nat} {f : Byte → Bool} {t r : Bytes} (hm : m ≤ t.length)
    (ht : ∀ b ∈ t, f b = true) (hr : ∀ b, r.head? = some b → f b = false) :
    takeWhileM m f (t ++ r) = some (t, r) := by
  obtain ⟨h1, h2⟩ := takeWhile_append_of ht hr
  rw [takeWhileM_eq_some, h1, h2]
  exact ⟨rfl, rfl, hm⟩

/-! ### Running parsers forward -/

theorem map_run {f : α → β} {p : Parser α} {i a r} (h : p i = some (a, r)) :
    map f p i = some (f a, r) := map_eq_some.2 ⟨a, h, rfl⟩

theorem seq_run {p : Parser α} {q : Parser β} {i a r b r'} (h : p i = some (a, r))
    (h' : q r = some (b, r')) : seq p q i = some ((a, b), r') := seq_eq_some.2 ⟨r, h, h'⟩

theorem preceded_run {p : Parser α} {q : Parser β} {i a r b r'} (h : p i = some (a, r))
    (h' : q r = some (b, r')) : preceded p q i = some (b, r') := preceded_eq_some.2 ⟨a, r, h, h'⟩

theorem terminated_run {p : Parser α} {q : Parser β} {i a r b r'} (h : p i = some (a, r))
    (h' : q r = some (b, r')) : terminated p q i = some (a, r') := terminated_eq_some.2 ⟨b, r, h, h'⟩

theorem delimited_run {p : Parser α} {q : Parser β} {q' : Parser γ} {i a r b r' c r''}
    (h : p i = some (a, r)) (h' : q r = some (b, r')) (h'' : q' r' = some (c, r'')) :
    delimited p q q' i = some (b, r'') := delimited_eq_some.2 ⟨a, r, c, r', h, h', h''⟩

theorem alt_left {p q : Parser α} {i x} (h : p i = some x) : alt p q i = some x :=
  alt_eq_some.2 (.inl h)

theorem alt_right {p q : Parser α} {i} (h : p i = none) : alt p q i = q i := by
  unfold alt; rw [h]

theorem opt_run {p : Parser α} {i a r} (h : p i = some (a, r)) : opt p i = some (some a, r) :=
  opt_eq_some.2 (.inl ⟨a, rfl, h⟩)

theorem opt_none {p : Parser α} {i} (h : p i = none) : opt p i = some (none, i) :=
  opt_eq_some.2 (.inr ⟨rfl, h, rfl⟩)

theorem map_none {f : α → β} {p : Parser α} {i} (h : p i = none) : map f p i = none := by
  unfold map; rw [h]

theorem seq_none {p : Parser α} {q : Parser β} {i} (h : p i = none) : seq p q i = none := by
  unfold seq; rw [h]

theorem seq_none' {p : Parser α} {q : Parser β} {i a r} (h : p i = some (a, r)) (h' : q r = none) :
    seq p q i = none := by
  unfold seq; rw [h]; simp only [h']

theorem preceded_none {p : Parser α} {q : Parser β} {i} (h : p i = none) :
    preceded p q i = none := map_none (seq_none h)

theorem preceded_none' {p : Parser α} {q : Parser β} {i a r} (h : p i = some (a, r))
    (h' : q r = none) : preceded p q i = none := map_none (seq_none' h h')

theorem terminated_none {p : Parser α} {q : Parser β} {i} (h : p i = none) :
    terminated p q i = none := map_none (seq_none h)

theorem terminated_none' {p : Parser α} {q : Parser β} {i a r} (h : p i = some (a, r))
    (h' : q r = none) : terminated p q i = none := map_none (seq_none' h h')

theorem verify_none {f : α → Bool} {p : Parser α} {i} (h : p i = none) : verify f p i = none := by
  unfold verify; rw [h]

theorem withTaken_none {p : Parser α} {i} (h : p i = none) : withTaken p i = none := by
  unfold withTaken; rw [h]

theorem withTaken_run {p : Parser α} {i a t r} (h : p i = some (a, r)) (ht : i = t ++ r) :
    withTaken p i = some ((a, t), r) := by
  rw [withTaken_eq_some]
  refine ⟨h, ?_⟩
  subst ht; simp

theorem lit_run (x r : Bytes) : lit x (x ++ r) = some ((), r) := lit_eq_some.2 rfl

theorem lit_none_of_head {c : Byte} {x : Bytes} {i : Bytes} (h : i.head? ≠ some c) :
    lit (c :: x) i = none := by
  cases i with
  | nil => rfl
  | cons b i =>
    simp only [List.head?_cons, ne_eq, Option.some.injEq] at h
    simp [lit, h]

theorem byte_none_of_head {c : Byte} {i : Bytes} (h : i.head? ≠ some c) :
    byte c i = none := by
  cases i with
  | nil => rfl
  | cons b i =>
    simp only [List.head?_cons, ne_eq, Option.some.injEq] at h
    exact byte_cons_ne h i

theorem verify_run {f : α → Bool} {p : Parser α} {i a r} (h : p i = some (a, r)) (hf : f a = true) :
    verify f p i = some (a, r) := verify_eq_some.2 ⟨h, hf⟩

end Parser

/-- does not start with white space -/
def NoWs (r : Bytes) : Prop := ∀ b, r.head? = some b → isMultispace b = false

theorem noWs_nil : NoWs [] := by simp [NoWs]

theorem noWs_cons {b : Byte} {r : Bytes} : NoWs (b :: r) ↔ isMultispace b = false := by
  simp [NoWs]

theorem noWs_append {t r : Bytes} (ht : t ≠ []) (h : NoWs t) : NoWs (t ++ r) := by
  cases t with
  | nil => exact absurd rfl ht
  | cons b t => simpa [noWs_cons] using h

theorem multispace0_run {w r : Bytes} (hw : Ws w) (hr : NoWs r) :
    multispace0 (w ++ r) = some (w, r) := by
  obtain ⟨h1, h2⟩ := Parser.takeWhile_append_of (f := isMultispace)
    (fun b hb => (isMultispace_iff b).2 (hw b hb)) hr
  simp [multispace0, h1, h2]

theorem ws_run {α : Type} {p : Parser α} {w t w' r : Bytes} {a : α} (hw : Ws w) (ht : NoWs (t ++ (w' ++ r)))
    (hp : p (t ++ (w' ++ r)) = some (a, w' ++ r)) (hw' : Ws w') (hr : NoWs r) :
    ws p (w ++ t ++ w' ++ r) = some (a, r) := by
  have e : w ++ t ++ w' ++ r = w ++ (t ++ (w' ++ r)) := by simp
  rw [e]
  exact Parser.delimited_run (multispace0_run hw ht) hp (multispace0_run hw' hr)

end Pica
