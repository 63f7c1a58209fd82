import Verif.Base.Bytes

/-! Byte order, sorting, removal of adjacent duplicates. -/

namespace Pica

/-- `Ord` of byte strings: lexicographic -/
def bleq : Bytes → Bytes → Bool
  | [], _ => true
  | _ :: _, [] => false
  | a :: s, b :: t => decide (a < b) || (a == b && bleq s t)

theorem bleq_refl (a : Bytes) : bleq a a = true := by
  induction a with
  | nil => rfl
  | cons x a ih => simp [bleq, ih]

theorem bleq_total (a b : Bytes) : bleq a b = true ∨ bleq b a = true := by
  induction a generalizing b with
  | nil => exact .inl rfl
  | cons x a ih =>
    cases b with
    | nil => exact .inr rfl
    | cons y b =>
      simp only [bleq, Bool.or_eq_true, decide_eq_true_eq, Bool.and_eq_true, beq_iff_eq]
      have htri : x < y ∨ x = y ∨ y < x := by
        rcases Nat.lt_trichotomy x.toNat y.toNat with h | h | h
        · exact .inl (UInt8.lt_iff_toNat_lt.2 h)
        · exact .inr (.inl (UInt8.toNat_inj.1 h))
        · exact .inr (.inr (UInt8.lt_iff_toNat_lt.2 h))
      rcases htri with h | h | h
      · exact .inl (.inl h)
      · subst h
        rcases ih b with h | h
        · exact .inl (.inr ⟨rfl, h⟩)
        · exact .inr (.inr ⟨rfl, h⟩)
      · exact .inr (.inl h)

theorem bleq_trans {a b c : Bytes} (h1 : bleq a b = true) (h2 : bleq b c = true) : bleq a c = true := by
  induction a generalizing b c with
  | nil => rfl
  | cons x a ih =>
    cases b with
    | nil => simp [bleq] at h1
    | cons y b =>
      cases c with
      | nil => simp [bleq] at h2
      | cons z c =>
        simp only [bleq, Bool.or_eq_true, decide_eq_true_eq, Bool.and_eq_true, beq_iff_eq] at h1 h2 ⊢
        rcases h1 with h1 | ⟨rfl, h1⟩ <;> rcases h2 with h2 | ⟨rfl, h2⟩
        · exact .inl (UInt8.lt_trans h1 h2)
        · exact .inl h1
        · exact .inl h2
        · exact .inr ⟨rfl, ih h1 h2⟩

theorem bleq_antisymm {a b : Bytes} (h1 : bleq a b = true) (h2 : bleq b a = true) : a = b := by
  induction a generalizing b with
  | nil => cases b with
    | nil => rfl
    | cons y b => simp [bleq] at h2
  | cons x a ih =>
    cases b with
    | nil => simp [bleq] at h1
    | cons y b =>
      simp only [bleq, Bool.or_eq_true, decide_eq_true_eq, Bool.and_eq_true, beq_iff_eq] at h1 h2
      rcases h1 with h1 | ⟨rfl, h1⟩ <;> rcases h2 with h2 | ⟨h3, h2⟩
      · exact absurd h2 (UInt8.lt_asymm h1)
      · exact absurd h1 (by rw [h3]; exact UInt8.lt_irrefl _)
      · exact absurd h2 (UInt8.lt_irrefl _)
      · rw [ih h1 h2]

/-- insertion into a sorted list, before the first element that is not smaller -/
def insertBy {α : Type} (le : α → α → Bool) (a : α) : List α → List α
  | [] => [a]
  | b :: l => if le a b then a :: b :: l else b :: insertBy le a l

/-- a sorted permutation; stable -/
def sortBy {α : Type} (le : α → α → Bool) : List α → List α
  | [] => []
  | a :: l => insertBy le a (sortBy le l)

theorem insertBy_perm {α : Type} (le : α → α → Bool) (a : α) (l : List α) :
    (insertBy le a l).Perm (a :: l) := by
  induction l with
  | nil => exact .refl _
  | cons b l ih =>
    rw [insertBy]
    split
    · exact .refl _
    · exact (ih.cons b).trans (.swap ..)

theorem sortBy_perm {α : Type} (le : α → α → Bool) (l : List α) : (sortBy le l).Perm l := by
  induction l with
  | nil => exact .refl _
  | cons a l ih => exact (insertBy_perm le a _).trans (ih.cons a)

theorem insertBy_sorted {α : Type} {le : α → α → Bool} (htot : ∀ a b, le a b = true ∨ le b a = true)
    (htrans : ∀ a b c, le a b = true → le b c = true → le a c = true) (a : α) {l : List α}
    (h : l.Pairwise (fun a b => le a b = true)) : (insertBy le a l).Pairwise (fun a b => le a b = true) := by
  induction l with
  | nil => simp [insertBy]
  | cons b l ih =>
    rw [List.pairwise_cons] at h
    rw [insertBy]
    split
    · rename_i hab
      rw [List.pairwise_cons, List.pairwise_cons]
      refine ⟨?_, h⟩
      intro c hc
      rcases List.mem_cons.1 hc with rfl | hc
      · exact hab
      · exact htrans _ _ _ hab (h.1 c hc)
    · rename_i hab
      rw [List.pairwise_cons]
      refine ⟨?_, ih h.2⟩
      intro c hc
      rcases List.mem_cons.1 ((insertBy_perm le a l).mem_iff.1 hc) with rfl | hc
      · exact (htot c b).resolve_left hab
      · exact h.1 c hc

theorem sortBy_sorted {α : Type} {le : α → α → Bool} (htot : ∀ a b, le a b = true ∨ le b a = true)
    (htrans : ∀ a b c, le a b = true → le b c = true → le a c = true) (l : List α) :
    (sortBy le l).Pairwise (fun a b => le a b = true) := by
  induction l with
  | nil => exact .nil
  | cons a l ih => exact insertBy_sorted htot htrans a ih

/-- a sorted list is determined by its elements -/
theorem sorted_unique {α : Type} {le : α → α → Bool}
    (hanti : ∀ a b, le a b = true → le b a = true → a = b) {l l' : List α}
    (h : l.Pairwise (fun a b => le a b = true)) (h' : l'.Pairwise (fun a b => le a b = true))
    (hp : l.Perm l') : l = l' :=
  hp.eq_of_pairwise (fun a b _ _ => hanti a b) h h'

/-- `Vec::dedup`: removes equal neighbours -/
def dedupAdj {α : Type} [DecidableEq α] : List α → List α
  | [] => []
  | [a] => [a]
  | a :: b :: l => if a = b then dedupAdj (b :: l) else a :: dedupAdj (b :: l)

theorem mem_dedupAdj {α : Type} [DecidableEq α] (l : List α) (x : α) : x ∈ dedupAdj l ↔ x ∈ l := by
  induction l using dedupAdj.induct with
  | case1 => exact Iff.rfl
  | case2 a => exact Iff.rfl
  | case3 a l ih => rw [dedupAdj, if_pos rfl, ih]; simp
  | case4 a b l hne ih => rw [dedupAdj, if_neg hne, List.mem_cons, ih, List.mem_cons (a := x) (b := a)]

theorem dedupAdj_sorted {α : Type} [DecidableEq α] {le : α → α → Bool}
    (hanti : ∀ a b, le a b = true → le b a = true → a = b) {l : List α}
    (h : l.Pairwise (fun a b => le a b = true)) :
    (dedupAdj l).Nodup ∧ (dedupAdj l).Pairwise (fun a b => le a b = true) := by
  induction l using dedupAdj.induct with
  | case1 => exact ⟨List.nodup_nil, .nil⟩
  | case2 a => exact ⟨by simp [dedupAdj], by simp [dedupAdj]⟩
  | case3 a l ih => rw [dedupAdj, if_pos rfl]; exact ih (List.pairwise_cons.1 h).2
  | case4 a b l hne ih =>
    rw [dedupAdj, if_neg hne]
    rw [List.pairwise_cons] at h
    obtain ⟨h1, h2⟩ := ih h.2
    constructor
    · rw [List.nodup_cons]
      refine ⟨?_, h1⟩
      rw [mem_dedupAdj]
      intro ha
      rcases List.mem_cons.1 ha with rfl | ha'
      · exact hne rfl
      · exact hne (hanti _ _ (h.1 b (by simp)) ((List.pairwise_cons.1 h.2).1 a ha'))
    · rw [List.pairwise_cons]
      exact ⟨fun c hc => h.1 c ((mem_dedupAdj _ _).1 hc), h2⟩

/-- `sort_unstable` and `dedup` of byte strings -/
def sortDedup (l : List Bytes) : List Bytes := dedupAdj (sortBy bleq l)

theorem mem_sortDedup {l : List Bytes} {x : Bytes} : x ∈ sortDedup l ↔ x ∈ l := by
  rw [sortDedup, mem_dedupAdj, (sortBy_perm _ _).mem_iff]

theorem sortDedup_nodup (l : List Bytes) :
    (sortDedup l).Nodup ∧ (sortDedup l).Pairwise (fun a b => bleq a b = true) :=
  dedupAdj_sorted (fun _ _ => bleq_antisymm)
    (sortBy_sorted bleq_total (fun _ _ _ => bleq_trans) l)

/-- `Ord` of vectors of byte strings: lexicographic -/
def rowLe : List Bytes → List Bytes → Bool
  | [], _ => true
  | _ :: _, [] => false
  | a :: s, b :: t => if a = b then rowLe s t else bleq a b

theorem rowLe_total (a b : List Bytes) : rowLe a b = true ∨ rowLe b a = true := by
  induction a generalizing b with
  | nil => exact .inl rfl
  | cons x a ih =>
    cases b with
    | nil => exact .inr rfl
    | cons y b =>
      simp only [rowLe]
      by_cases h : x = y
      · subst h; simpa using ih b
      · have h' : ¬ y = x := fun e => h e.symm
        simpa [h, h'] using bleq_total x y

theorem rowLe_antisymm {a b : List Bytes} (h1 : rowLe a b = true) (h2 : rowLe b a = true) : a = b := by
  induction a generalizing b with
  | nil => cases b with
    | nil => rfl
    | cons y b => simp [rowLe] at h2
  | cons x a ih =>
    cases b with
    | nil => simp [rowLe] at h1
    | cons y b =>
      simp only [rowLe] at h1 h2
      by_cases h : x = y
      · subst h
        simp only [if_true] at h1 h2
        rw [ih h1 h2]
      · have h' : ¬ y = x := fun e => h e.symm
        rw [if_neg h] at h1
        rw [if_neg h'] at h2
        exact absurd (bleq_antisymm h1 h2) h

theorem rowLe_trans {a b c : List Bytes} (h1 : rowLe a b = true) (h2 : rowLe b c = true) :
    rowLe a c = true := by
  induction a generalizing b c with
  | nil => rfl
  | cons x a ih =>
    cases b with
    | nil => simp [rowLe] at h1
    | cons y b =>
      cases c with
      | nil => simp [rowLe] at h2
      | cons z c =>
        simp only [rowLe] at h1 h2 ⊢
        by_cases e1 : x = y
        · subst e1
          rw [if_pos rfl] at h1
          by_cases e2 : x = z
          · rw [if_pos e2] at h2 ⊢; exact ih h1 h2
          · rw [if_neg e2] at h2 ⊢; exact h2
        · rw [if_neg e1] at h1
          by_cases e2 : y = z
          · subst e2; rw [if_neg e1]; exact h1
          · rw [if_neg e2] at h2
            by_cases e3 : x = z
            · subst e3; exact absurd (bleq_antisymm h1 h2) e1
            · rw [if_neg e3]; exact bleq_trans h1 h2

/-- lexicographic order: a prefix, or smaller at the first difference -/
def LexLe {α : Type} (lt : α → α → Prop) (a b : List α) : Prop :=
  a <+: b ∨ ∃ p x y s t, a = p ++ x :: s ∧ b = p ++ y :: t ∧ lt x y

theorem bleq_iff (a b : Bytes) : bleq a b = true ↔ LexLe (· < ·) a b := by
  induction a generalizing b with
  | nil => simp [bleq, LexLe]
  | cons x a ih =>
    cases b with
    | nil => simp [bleq, LexLe]
    | cons y b =>
      simp only [bleq, Bool.or_eq_true, decide_eq_true_eq, Bool.and_eq_true, beq_iff_eq, ih]
      constructor
      · rintro (h | ⟨rfl, h | ⟨p, x', y', s, t, rfl, rfl, h⟩⟩)
        · exact .inr ⟨[], x, y, a, b, rfl, rfl, h⟩
        · exact .inl (by obtain ⟨t, rfl⟩ := h; exact ⟨t, rfl⟩)
        · exact .inr ⟨x :: p, x', y', s, t, rfl, rfl, h⟩
      · rintro (⟨t, h⟩ | ⟨p, x', y', s, t, h1, h2, h⟩)
        · simp only [List.cons_append, List.cons.injEq] at h
          obtain ⟨rfl, rfl⟩ := h
          exact .inr ⟨rfl, .inl ⟨t, rfl⟩⟩
        · cases p with
          | nil =>
            simp only [List.nil_append, List.cons.injEq] at h1 h2
            obtain ⟨rfl, rfl⟩ := h1
            obtain ⟨rfl, rfl⟩ := h2
            exact .inl h
          | cons z p =>
            simp only [List.cons_append, List.cons.injEq] at h1 h2
            obtain ⟨rfl, rfl⟩ := h1
            obtain ⟨rfl, rfl⟩ := h2
            exact .inr ⟨rfl, .inr ⟨p, x', y', s, t, rfl, rfl, h⟩⟩

theorem rowLe_iff (a b : List Bytes) :
    rowLe a b = true ↔ LexLe (fun x y => LexLe (· < ·) x y ∧ x ≠ y) a b := by
  induction a generalizing b with
  | nil => simp [rowLe, LexLe]
  | cons x a ih =>
    cases b with
    | nil => simp [rowLe, LexLe]
    | cons y b =>
      simp only [rowLe]
      constructor
      · intro h
        by_cases e : x = y
        · subst e
          rw [if_pos rfl, ih] at h
          rcases h with ⟨t, rfl⟩ | ⟨p, x', y', s, t, rfl, rfl, h⟩
          · exact .inl ⟨t, rfl⟩
          · exact .inr ⟨x :: p, x', y', s, t, rfl, rfl, h⟩
        · rw [if_neg e, bleq_iff] at h
          exact .inr ⟨[], x, y, a, b, rfl, rfl, h, e⟩
      · rintro (⟨t, h⟩ | ⟨p, x', y', s, t, h1, h2, h⟩)
        · simp only [List.cons_append, List.cons.injEq] at h
          obtain ⟨rfl, rfl⟩ := h
          rw [if_pos rfl, ih]; exact .inl ⟨t, rfl⟩
        · cases p with
          | nil =>
            simp only [List.nil_append, List.cons.injEq] at h1 h2
            obtain ⟨rfl, rfl⟩ := h1
            obtain ⟨rfl, rfl⟩ := h2
            rw [if_neg h.2, bleq_iff]; exact h.1
          | cons z p =>
            simp only [List.cons_append, List.cons.injEq] at h1 h2
            obtain ⟨rfl, rfl⟩ := h1
            obtain ⟨rfl, rfl⟩ := h2
            rw [if_pos rfl, ih]
            exact .inr ⟨p, x', y', s, t, rfl, rfl, h⟩

end Pica
