import Verif.Props.Sample

/-! # C35: how often a record is drawn

All streams of random numbers are equally likely.  So the probability of a record is the number of
streams with which it is drawn, divided by the number of all streams. -/

namespace Pica.Props
open Pica Spec

/-- `f` with the number `d` for `n` -/
def put (f : Nat → Nat) (n d : Nat) : Nat → Nat := fun c => if c = n then d else f c

theorem put_self (f : Nat → Nat) (n d : Nat) : put f n d n = d := if_pos rfl
theorem put_ne (f : Nat → Nat) {n c : Nat} (d : Nat) (h : c ≠ n) : put f n d c = f c := if_neg h

/-- the random numbers that are drawn while `n` records are read, in all possible ways: one number
below `c` for every `c` from the sample size on -/
def streams (size : Nat) : Nat → List (Nat → Nat)
  | 0 => [fun _ => 0]
  | n + 1 =>
    if n < size then streams size n
    else (streams size n).flatMap (fun f => (List.range n).map (fun d => put f n d))

/-- the streams with which position `p` is in the sample of `n` records -/
def drawing (size n p : Nat) : List (Nat → Nat) :=
  (streams size n).filter (fun f => decide (p ∈ reservoir size f n))

theorem reservoir_congr {size : Nat} {f g : Nat → Nat} : ∀ {n}, (∀ c, c < n → size ≤ c → f c = g c) →
    reservoir size f n = reservoir size g n := by
  intro n
  induction n with
  | zero => intro _; rfl
  | succ n ih =>
    intro h
    rw [reservoir, reservoir, ih (fun c hc => h c (by omega))]
    by_cases hn : n < size
    · rw [if_pos hn, if_pos hn]
    · rw [if_neg hn, if_neg hn, h n (by omega) (by omega)]

theorem length_flatMap_filter {α β : Type} (l : List α) (g : α → List β) (P : β → Bool) (Q : α → Bool) (m : Nat)
    (h1 : ∀ a ∈ l, Q a = true → ((g a).filter P).length = m) (h0 : ∀ a ∈ l, Q a = false → (g a).filter P = []) :
    ((l.flatMap g).filter P).length = (l.filter Q).length * m := by
  induction l with
  | nil => simp
  | cons a l ih =>
    have ih := ih (fun a ha => h1 a (by simp [ha])) (fun a ha => h0 a (by simp [ha]))
    rw [List.flatMap_cons, List.filter_append, List.length_append, ih, List.filter_cons]
    cases hq : Q a with
    | true => rw [h1 a (by simp) hq, if_pos rfl, List.length_cons, Nat.add_mul, Nat.one_mul, Nat.add_comm]
    | false => rw [h0 a (by simp) hq]; simp

/-- all but one number below `n` -/
theorem range_filter_ne {n i : Nat} (h : i < n) : ((List.range n).filter (fun d => decide (d ≠ i))).length = n - 1 := by
  induction n with
  | zero => omega
  | succ n ih =>
    rw [List.range_succ, List.filter_append, List.length_append]
    by_cases hi : i < n
    · have hne : n ≠ i := by omega
      rw [ih hi]; simp [hne]; omega
    · have hi : i = n := by omega
      subst hi
      rw [List.filter_eq_self.2]
      · simp
      · intro a ha; have := List.mem_range.1 ha; simp; omega

theorem range_filter_lt {n k : Nat} (h : k ≤ n) : ((List.range n).filter (fun d => decide (d < k))).length = k := by
  induction n with
  | zero => simp; omega
  | succ n ih =>
    rw [List.range_succ, List.filter_append, List.length_append]
    by_cases hk : k ≤ n
    · rw [ih hk]; simp; omega
    · have hk : k = n + 1 := by omega
      subst hk
      rw [List.filter_eq_self.2]
      · simp
      · intro a ha; have := List.mem_range.1 ha; simp; omega

theorem streams_succ {size n : Nat} (h : size ≤ n) : streams size (n + 1) =
    (streams size n).flatMap (fun f => (List.range n).map (fun d => put f n d)) := by
  rw [streams, if_neg (by omega)]

theorem streams_length {size n : Nat} (h : size ≤ n) :
    (streams size (n + 1)).length = (streams size n).length * n := by
  rw [streams_succ h]
  have := length_flatMap_filter (streams size n)
    (fun f => (List.range n).map (fun d => put f n d)) (fun _ => true) (fun _ => true) n
    (by intro f _ _; rw [List.filter_eq_self.2 (by simp)]; simp) (by simp)
  rw [List.filter_eq_self.2 (by simp), List.filter_eq_self.2 (by simp)] at this
  exact this

theorem reservoir_update (size n d : Nat) (f : Nat → Nat) :
    reservoir size (put f n d) n = reservoir size f n :=
  reservoir_congr (fun c hc _ => put_ne f d (by omega))

/-- a position stays in the sample for all but one number -/
theorem mem_step {size n p : Nat} (hs : size ≤ n) (hp : p < n) (f : Nat → Nat) (hm : p ∈ reservoir size f n) :
    ∃ i, i < size ∧ ∀ d, p ∈ reservoir size (put f n d) (n + 1) ↔ d ≠ i := by
  obtain ⟨h1, h2, h3⟩ := reservoir_props size f n
  obtain ⟨i, hi, he⟩ := List.mem_iff_getElem.1 hm
  refine ⟨i, by omega, fun d => ?_⟩
  rw [reservoir, if_neg (by omega), reservoir_update, put_self]
  by_cases hd : d < size
  · rw [if_pos hd]
    constructor
    · rintro h rfl
      obtain ⟨j, hj, he'⟩ := List.mem_iff_getElem.1 h
      rw [List.getElem_set] at he'
      split at he'
      · omega
      · rename_i hne
        rw [List.length_set] at hj
        exact hne ((List.getElem_inj (h₀ := hi) (h₁ := hj) h1).1 (by rw [he, he']))
    · intro hne
      refine List.mem_iff_getElem.2 ⟨i, by rw [List.length_set]; exact hi, ?_⟩
      rw [List.getElem_set, if_neg hne, he]
  · rw [if_neg hd]
    exact ⟨fun _ => by omega, fun _ => hm⟩

theorem drawing_succ {size n p : Nat} (hs : size ≤ n) (hp : p < n) :
    (drawing size (n + 1) p).length = (drawing size n p).length * (n - 1) := by
  unfold drawing
  rw [streams_succ hs]
  refine length_flatMap_filter _ _ _ _ _ ?_ ?_
  · intro f _ hf
    obtain ⟨i, hi, h⟩ := mem_step hs hp f (of_decide_eq_true hf)
    rw [List.filter_map, List.length_map]
    rw [← range_filter_ne (show i < n by omega)]
    congr 1
    apply List.filter_congr
    intro d _
    exact decide_eq_decide.2 (h d)
  · intro f _ hf
    rw [List.filter_eq_nil_iff]
    intro g hg
    obtain ⟨d, _, rfl⟩ := List.mem_map.1 hg
    have hf := of_decide_eq_false hf
    rw [decide_eq_true_eq, reservoir, if_neg (by omega), reservoir_update, put_self]
    split
    · intro h
      rcases mem_set_cases h with h | h
      · omega
      · exact hf h
    · exact hf

theorem drawing_last {size n : Nat} (hs : size ≤ n) :
    (drawing size (n + 1) n).length = (streams size n).length * size := by
  unfold drawing
  rw [streams_succ hs]
  have := length_flatMap_filter (streams size n)
    (fun f => (List.range n).map (fun d => put f n d))
    (fun f => decide (n ∈ reservoir size f (n + 1))) (fun _ => true) size ?_ (by simp)
  · rw [this, List.filter_eq_self.2 (by simp)]
  · intro f _ _
    obtain ⟨h1, h2, h3⟩ := reservoir_props size f n
    have hn : n ∉ reservoir size f n := fun h => absurd (h3 n h) (Nat.lt_irrefl n)
    rw [List.filter_map, List.length_map]
    refine Eq.trans (congrArg List.length (List.filter_congr ?_)) (range_filter_lt hs)
    intro d _
    refine decide_eq_decide.2 ?_
    show n ∈ reservoir size (put f n d) (n + 1) ↔ d < size
    rw [reservoir, if_neg (by omega), reservoir_update, put_self]
    split
    · rename_i hd
      refine ⟨fun _ => hd, fun _ => ?_⟩
      exact List.mem_iff_getElem.2 ⟨d, by rw [List.length_set, h2]; omega, by simp⟩
    · rename_i hd
      exact ⟨fun h => absurd h hn, fun h => absurd h hd⟩

/-- the streams are all the possible ones, each once -/
theorem streams_all (size n : Nat) (draw : Nat → Nat) (hd : ∀ c, size ≤ c → draw c < c) :
    ((streams size n).filter (fun f => decide (∀ c, c < n → size ≤ c → f c = draw c))).length = 1 := by
  induction n with
  | zero => simp [streams]
  | succ n ih =>
    by_cases hn : n < size
    · rw [streams, if_pos hn, ← ih]
      congr 1
      apply List.filter_congr
      intro f _
      refine decide_eq_decide.2 ⟨fun h c hc => h c (by omega), fun h c hc hs => h c (by omega) hs⟩
    · rw [streams_succ (by omega)]
      rw [length_flatMap_filter _ _ _ (fun f => decide (∀ c, c < n → size ≤ c → f c = draw c)) 1, ih]
      · intro f _ hf
        have hf := of_decide_eq_true hf
        rw [List.filter_map, List.length_map]
        have : (List.range n).filter ((fun f : Nat → Nat => decide (∀ c, c < n + 1 → size ≤ c → f c = draw c)) ∘
            (fun d => put f n d)) = (List.range n).filter (fun d => d == draw n) := by
          apply List.filter_congr
          intro d _
          rw [Bool.eq_iff_iff, Function.comp, decide_eq_true_eq, beq_iff_eq]
          constructor
          · intro h
            have := h n (by omega) (by omega)
            rwa [put_self] at this
          · intro h c hc hs
            by_cases he : c = n
            · rw [he, put_self]; exact h
            · rw [put_ne f d he]; exact hf c (by omega) hs
        rw [this, ← List.countP_eq_length_filter, ← List.count, List.count_range, if_pos (hd n (by omega))]
      · intro f _ hf
        have hf := of_decide_eq_false hf
        rw [List.filter_eq_nil_iff]
        intro g hg
        obtain ⟨d, _, rfl⟩ := List.mem_map.1 hg
        rw [decide_eq_true_eq]
        intro h
        refine hf (fun c hc hs => ?_)
        have := h c (by omega) hs
        rwa [put_ne f d (by omega)] at this

/-- **C35** (exact probabilities) of `n` records, a sample of `size` contains each of the first `size`
records with the probability `(size - 1) / (n - 1)`, and each later record with the probability
`size / (n - 1)`.  (In a uniform sample all of them have the probability `size / n`.) -/
theorem C35_inclusion (size n p : Nat) (hn : size ≤ n) (hp : p < n) :
    (drawing size n p).length * (n - 1) =
      (streams size n).length * (if p < size then size - 1 else size) := by
  induction n with
  | zero => omega
  | succ n ih =>
    by_cases he : size = n + 1
    · have hstart : ∀ m, m ≤ size → streams size m = [fun _ => 0] ∧ ∀ q, q < m → q ∈ reservoir size (fun _ => 0) m := by
        intro m
        induction m with
        | zero => intro _; exact ⟨rfl, by omega⟩
        | succ m ih =>
          intro hm
          obtain ⟨h1, h2⟩ := ih (by omega)
          refine ⟨by rw [streams, if_pos (by omega), h1], fun q hq => ?_⟩
          rw [reservoir, if_pos (by omega)]
          by_cases hq' : q = m
          · simp [hq']
          · simp [h2 q (by omega)]
      obtain ⟨h1, h2⟩ := hstart (n + 1) (by omega)
      unfold drawing
      rw [h1, List.filter_cons, if_pos (decide_eq_true (h2 p hp)), if_pos (by omega), he]
      simp
    · have hs : size ≤ n := by omega
      rw [streams_length hs, Nat.add_sub_cancel]
      by_cases hpn : p = n
      · subst hpn
        rw [drawing_last hs, if_neg (by omega)]
        ac_rfl
      · rw [drawing_succ hs (by omega), ih hs (by omega)]
        ac_rfl

/-- **C35** uniformity is false for every number of records above the sample size: no early record is
as likely as a late one. -/
theorem C35_not_uniform_false (size n p q : Nat) (h1 : 0 < size) (hp : p < size) (hq : size ≤ q) (hn : q < n) :
    (drawing size n p).length < (drawing size n q).length := by
  have hpos : ∀ m, 0 < (streams size m).length := by
    intro m
    induction m with
    | zero => simp [streams]
    | succ m ih =>
      by_cases hm : m < size
      · rw [streams, if_pos hm]; exact ih
      · rw [streams_length (by omega)]; exact Nat.mul_pos ih (by omega)
  have e1 := C35_inclusion size n p (by omega) (by omega)
  have e2 := C35_inclusion size n q (by omega) hn
  rw [if_pos hp] at e1
  rw [if_neg (by omega)] at e2
  have : (streams size n).length * (size - 1) < (streams size n).length * size :=
    Nat.mul_lt_mul_of_pos_left (by omega) (hpos n)
  rw [← e1, ← e2] at this
  exact Nat.lt_of_mul_lt_mul_right this

/-- samples of 2 of 4 records: 6 streams, 2 of which draw the first record and 4 the last -/
example : (streams 2 4).length = 6 ∧ (drawing 2 4 0).length = 2 ∧ (drawing 2 4 3).length = 4 := by decide +kernel

end Pica.Props
