import Verif.Model.Similar
import Verif.Spec.Similar

/-! Lemmas about `levenshtein`: it is the least number of changes. -/

namespace Pica
open Pica.Spec

variable {α : Type} [DecidableEq α]

/-- the distance by recursion on both lists -/
def dist : List α → List α → Nat
  | [], b => b.length
  | _ :: a, [] => a.length + 1
  | x :: a, y :: b =>
    min (dist (x :: a) b + 1) (min (dist a b + if x = y then 0 else 1) (dist a (y :: b) + 1))
termination_by a b => a.length + b.length

theorem dist_nil (b : List α) : dist [] b = b.length := by rw [dist]

theorem dist_nil_right (a : List α) : dist a [] = a.length := by
  cases a <;> rw [dist] <;> simp

theorem dist_cons (x y : α) (a b : List α) : dist (x :: a) (y :: b) =
    min (dist (x :: a) b + 1) (min (dist a b + if x = y then 0 else 1) (dist a (y :: b) + 1)) := by
  rw [dist]

theorem dist_insert (a b : List α) (y : α) : dist a (y :: b) ≤ dist a b + 1 := by
  cases a with
  | nil => simp [dist_nil]
  | cons x a => rw [dist_cons]; omega

theorem dist_drop (a b : List α) (x : α) : dist (x :: a) b ≤ dist a b + 1 := by
  cases b with
  | nil => simp [dist_nil_right]
  | cons y b => rw [dist_cons]; omega

theorem cost_le (x y : α) : (if x = y then 0 else 1) ≤ 1 := by split <;> omega

theorem dist_remove (a b : List α) (y : α) : dist a b ≤ dist a (y :: b) + 1 := by
  induction a with
  | nil => simp only [dist_nil, List.length_cons]; omega
  | cons x a ih =>
    have h := dist_drop a b x
    rw [dist_cons]
    omega

theorem dist_replace (a b : List α) (y z : α) : dist a (z :: b) ≤ dist a (y :: b) + 1 := by
  induction a with
  | nil => simp only [dist_nil, List.length_cons]; omega
  | cons x a ih =>
    rw [dist_cons, dist_cons]
    have h1 := cost_le x z
    omega

theorem dist_under {v w : List α} (h : ∀ a : List α, dist a w ≤ dist a v + 1) (c : α) (a : List α) :
    dist a (c :: w) ≤ dist a (c :: v) + 1 := by
  induction a with
  | nil => have := h []; simp only [dist_nil, List.length_cons] at this ⊢; omega
  | cons x a ih =>
    rw [dist_cons, dist_cons]
    have h1 := h (x :: a)
    have h2 := h a
    omega

theorem dist_prefix {v w : List α} (h : ∀ a : List α, dist a w ≤ dist a v + 1) (u : List α) :
    ∀ a : List α, dist a (u ++ w) ≤ dist a (u ++ v) + 1 := by
  induction u with
  | nil => exact h
  | cons c u ih => exact dist_under ih c

theorem dist_edit {b c : List α} (e : Edit b c) (a : List α) : dist a c ≤ dist a b + 1 := by
  cases e with
  | insert u v c => exact dist_prefix (fun a => dist_insert a v c) u a
  | remove u v c => exact dist_prefix (fun a => dist_remove a v c) u a
  | replace u v c d => exact dist_prefix (fun a => dist_replace a v c d) u a

theorem dist_self (a : List α) : dist a a = 0 := by
  induction a with
  | nil => simp [dist_nil]
  | cons x a ih => rw [dist_cons, if_pos rfl]; omega

theorem dist_le {n : Nat} {a b : List α} (h : Edits n a b) : dist a b ≤ n := by
  induction h with
  | nil => rw [dist_self]
  | @step n a b c _ e ih => have := dist_edit e a; omega

section
omit [DecidableEq α]

theorem Edit.cons {b c : List α} (e : Edit b c) (x : α) : Edit (x :: b) (x :: c) := by
  cases e with
  | insert u v c => exact .insert (x :: u) v c
  | remove u v c => exact .remove (x :: u) v c
  | replace u v c d => exact .replace (x :: u) v c d

theorem Edits.cons {n : Nat} {a b : List α} (h : Edits n a b) (x : α) : Edits n (x :: a) (x :: b) := by
  induction h with
  | nil => exact .nil _
  | step _ e ih => exact .step ih (Edit.cons e x)

theorem Edit.symm {b c : List α} (e : Edit b c) : Edit c b := by
  cases e with
  | insert u v c => exact .remove u v c
  | remove u v c => exact .insert u v c
  | replace u v c d => exact .replace u v d c

theorem Edits.first {n : Nat} {a b c : List α} (e : Edit a b) (h : Edits n b c) : Edits (n + 1) a c := by
  induction h with
  | nil => exact .step (.nil _) e
  | step _ e' ih => exact .step (ih e) e'

theorem Edits.symm {n : Nat} {a b : List α} (h : Edits n a b) : Edits n b a := by
  induction h with
  | nil => exact .nil _
  | step _ e ih => exact Edits.first (Edit.symm e) ih

theorem Edit.reverse {b c : List α} (e : Edit b c) : Edit b.reverse c.reverse := by
  cases e with
  | insert u v c => have := Edit.insert v.reverse u.reverse c; simpa using this
  | remove u v c => have := Edit.remove v.reverse u.reverse c; simpa using this
  | replace u v c d => have := Edit.replace v.reverse u.reverse c d; simpa using this

theorem Edits.reverse {n : Nat} {a b : List α} (h : Edits n a b) : Edits n a.reverse b.reverse := by
  induction h with
  | nil => exact .nil _
  | step _ e ih => exact .step ih (Edit.reverse e)

theorem edits_nil (b : List α) : Edits b.length [] b := by
  induction b with
  | nil => exact .nil _
  | cons y b ih => exact .step ih (.insert [] b y)

end

theorem edits_dist (a b : List α) : Edits (dist a b) a b := by
  induction a, b using dist.induct with
  | case1 b => rw [dist_nil]; exact edits_nil b
  | case2 x a => rw [dist_nil_right]; exact Edits.symm (edits_nil (x :: a))
  | case3 x a y b h1 h2 h3 =>
    have e1 : Edits (dist (x :: a) b + 1) (x :: a) (y :: b) := .step h1 (.insert [] b y)
    have e3 : Edits (dist a (y :: b) + 1) (x :: a) (y :: b) := Edits.first (.remove [] a x) h3
    have e2 : Edits (dist a b + if x = y then 0 else 1) (x :: a) (y :: b) := by
      by_cases h : x = y
      · subst h; rw [if_pos rfl]; exact Edits.cons h2 x
      · rw [if_neg h]; exact .step (Edits.cons h2 x) (.replace [] b x y)
    rw [dist_cons]
    rcases Nat.le_total (dist (x :: a) b + 1)
        (min (dist a b + if x = y then 0 else 1) (dist a (y :: b) + 1)) with h | h
    · rw [Nat.min_eq_left h]; exact e1
    · rw [Nat.min_eq_right h]
      rcases Nat.le_total (dist a b + if x = y then 0 else 1) (dist a (y :: b) + 1) with h | h
      · rw [Nat.min_eq_left h]; exact e2
      · rw [Nat.min_eq_right h]; exact e3

theorem dist_least (a b : List α) : Differences a b (dist a b) := ⟨edits_dist a b, fun _ h => dist_le h⟩

theorem dist_reverse (a b : List α) : dist a.reverse b.reverse = dist a b := by
  have h1 := dist_le (Edits.reverse (edits_dist a b))
  have h2 := dist_le (Edits.reverse (edits_dist a.reverse b.reverse))
  rw [List.reverse_reverse, List.reverse_reverse] at h2
  omega

theorem dist_symm (a b : List α) : dist a b = dist b a := by
  have h1 := dist_le (Edits.symm (edits_dist a b))
  have h2 := dist_le (Edits.symm (edits_dist b a))
  omega

/-! the program: rows of the table, prefixes are kept in reverse -/

/-- the entries of `cache`: the distances between `ra` and the prefixes of `b`, behind `rb` -/
def distRow (ra : List α) : List α → List α → List Nat
  | _, [] => []
  | rb, y :: b => dist ra (y :: rb) :: distRow ra (y :: rb) b

theorem levInner_eq (x : α) (ra : List α) (b : List α) : ∀ rb : List α,
    levInner x (dist ra rb) (dist (x :: ra) rb) b (distRow ra rb b) =
      (dist (x :: ra) (b.reverse ++ rb), distRow (x :: ra) rb b) := by
  induction b with
  | nil => intro rb; rfl
  | cons y b ih =>
    intro rb
    have h : min (dist (x :: ra) rb + 1) (min (dist ra rb + if x = y then 0 else 1) (dist ra (y :: rb) + 1)) =
        dist (x :: ra) (y :: rb) := (dist_cons x y ra rb).symm
    rw [distRow, levInner]
    rw [h, ih (y :: rb), distRow]
    simp

theorem levOuter_eq (b : List α) (a : List α) : ∀ (ra : List α),
    levOuter b ra.length a (dist ra b.reverse) (distRow ra [] b) = dist (a.reverse ++ ra) b.reverse := by
  induction a with
  | nil => intro ra; rfl
  | cons x a ih =>
    intro ra
    have h := levInner_eq x ra b []
    rw [dist_nil_right, dist_nil_right, List.append_nil, List.length_cons] at h
    rw [levOuter]
    rw [h]
    have := ih (x :: ra)
    rw [List.length_cons] at this
    simpa using this

theorem distRow_nil (b : List α) : ∀ rb : List α, distRow [] rb b = List.range' (rb.length + 1) b.length := by
  induction b with
  | nil => intro rb; rfl
  | cons y b ih =>
    intro rb
    rw [distRow, ih, dist_nil, List.length_cons, List.length_cons, List.range'_succ]

theorem levenshtein_eq (a b : List α) : levenshtein a b = dist a b := by
  have h := levOuter_eq b a []
  rw [dist_nil, List.length_reverse, List.length_nil, distRow_nil, List.append_nil, dist_reverse] at h
  exact h

theorem dist_le_max (a b : List α) : dist a b ≤ max a.length b.length := by
  induction a, b using dist.induct with
  | case1 b => rw [dist_nil]; exact Nat.le_max_right _ _
  | case2 x a => rw [dist_nil_right]; exact Nat.le_max_left _ _
  | case3 x a y b h1 h2 h3 =>
    rw [dist_cons]
    have := cost_le x y
    simp only [List.length_cons]
    omega

theorem dist_zero {a b : List α} (h : dist a b = 0) : a = b := by
  have := edits_dist a b
  rw [h] at this
  cases this
  rfl

theorem dist_map {β : Type} [DecidableEq β] (f : α → β) (hf : ∀ x y, f x = f y → x = y) (a b : List α) :
    dist (a.map f) (b.map f) = dist a b := by
  induction a, b using dist.induct with
  | case1 b => simp [dist_nil]
  | case2 x a => simp [dist_nil_right]
  | case3 x a y b h1 h2 h3 =>
    rw [List.map_cons, List.map_cons, dist_cons, dist_cons, h2]
    rw [List.map_cons] at h1 h3
    rw [h1, h3]
    by_cases h : x = y
    · simp [h]
    · rw [if_neg h, if_neg (fun he => h (hf x y he))]

end Pica
