import Verif.Props.Isni
import Verif.Props.TagMatcher
import Verif.Props.ExplodeTwice
import Verif.Props.Select
import Verif.Props.Matcher
import Verif.Props.Link

/-! # Exact conditions for claims that do not hold in general

Some claims are false of the code for some inputs.  The theorems of this file say
exactly for which inputs they hold, or what the code does instead. -/

namespace Pica.Props
open Pica Spec

/-! ## C39 -/

/-- **C39** (exactly the accepted values) what the isni check accepts, for every value: sixteen
characters not below `0`, the last one a digit or `X`, with a weighted sum of 1 modulo 11, in which
every character before the last counts with the distance of its code from that of `0`. -/
theorem C39_accepts_exact (v : Bytes) : isniOk v = true ↔
    ∃ ds c, unseparated v = ds ++ [c] ∧ ds.length = 15 ∧ (Digit c ∨ c = 0x58) ∧
      weighted (ds.map (fun d => d.toNat - 0x30) ++ [charValue c]) % 11 = 1 := by
  rw [isniOk_iff]
  simp only [weighted_append, weighted, List.length_cons, List.length_nil, Nat.pow_zero, Nat.mul_one, Nat.add_zero,
    Nat.zero_add, Nat.pow_one, Nat.mul_comm _ 2]

/-- **C39** a value whose check character or length is wrong is reported, whatever else it contains. -/
theorem C39_length (v : Bytes) (h : isniOk v = true) : (unseparated v).length = 16 ∧
    ∃ c, (unseparated v).getLast? = some c ∧ (Digit c ∨ c = 0x58) := by
  obtain ⟨ds, c, he, hl, hc, _⟩ := (C39_accepts_exact v).1 h
  rw [he]
  exact ⟨by simp [hl], c, by simp, hc⟩

/-! ## C13 -/

/-- digit strings compared as the digits after a decimal point; of two strings of the same value the
shorter one comes first -/
def FracLe (a b : Bytes) : Prop :=
  numVal a * 10 ^ b.length < numVal b * 10 ^ a.length ∨
    (numVal a * 10 ^ b.length = numVal b * 10 ^ a.length ∧ a.length ≤ b.length)

theorem lexLe_frac : ∀ {a b : Bytes}, (∀ x ∈ a, 0x30 ≤ x ∧ x ≤ 0x39) → (∀ x ∈ b, 0x30 ≤ x ∧ x ≤ 0x39) →
    (a ≤ b ↔ FracLe a b) := by
  intro a
  induction a with
  | nil =>
    intro b _ _
    refine ⟨fun _ => ?_, fun _ => List.nil_le _⟩
    unfold FracLe
    simp only [numVal, List.foldl_nil, Nat.zero_mul, List.length_nil, Nat.pow_zero, Nat.mul_one, Nat.zero_le, and_true]
    omega
  | cons x a ih =>
    intro b ha hb
    have hla := numVal_lt (o := a) (fun y hy => ha y (by simp [hy]))
    cases b with
    | nil =>
      refine ⟨fun h => ?_, fun h => ?_⟩
      · exact absurd (List.le_nil.1 h) (by simp)
      · unfold FracLe at h
        simp [numVal_cons, numVal] at h
    | cons y b =>
      have hlb := numVal_lt (o := b) (fun y hy => hb y (by simp [hy]))
      have hx := ha x (by simp)
      have hy := hb y (by simp)
      rw [List.cons_le_cons_iff, ih (fun y hy => ha y (by simp [hy])) (fun y hy => hb y (by simp [hy]))]
      unfold FracLe
      rw [numVal_cons, numVal_cons, List.length_cons, List.length_cons, Nat.pow_succ, Nat.pow_succ]
      rw [UInt8.lt_iff_toNat_lt]
      have hxn : 48 ≤ x.toNat := UInt8.le_iff_toNat_le.1 hx.1
      have hyn : 48 ≤ y.toNat := UInt8.le_iff_toNat_le.1 hy.1
      have hxy : x = y ↔ x.toNat = y.toNat := UInt8.toNat_inj.symm
      rw [hxy]
      have e1 : ((x.toNat - 48) * 10 ^ a.length + numVal a) * (10 ^ b.length * 10) =
          10 * ((x.toNat - 48) * (10 ^ a.length * 10 ^ b.length)) + 10 * (numVal a * 10 ^ b.length) := by
        rw [Nat.add_mul]; ac_rfl
      have e2 : ((y.toNat - 48) * 10 ^ b.length + numVal b) * (10 ^ a.length * 10) =
          10 * ((y.toNat - 48) * (10 ^ a.length * 10 ^ b.length)) + 10 * (numVal b * 10 ^ a.length) := by
        rw [Nat.add_mul]; ac_rfl
      rw [e1, e2]
      have h1 : numVal a * 10 ^ b.length < 10 ^ a.length * 10 ^ b.length :=
        Nat.mul_lt_mul_of_pos_right hla (Nat.pow_pos (by omega))
      have h2 : numVal b * 10 ^ a.length < 10 ^ a.length * 10 ^ b.length := by
        rw [Nat.mul_comm (10 ^ a.length)]
        exact Nat.mul_lt_mul_of_pos_right hlb (Nat.pow_pos (by omega))
      generalize numVal a * 10 ^ b.length = p at *
      generalize numVal b * 10 ^ a.length = q at *
      generalize 10 ^ a.length * 10 ^ b.length = P at *
      have key : ∀ m n : Nat, m < n → m * P + P ≤ n * P := by
        intro m n h
        calc m * P + P = (m + 1) * P := by rw [Nat.add_mul, Nat.one_mul]
          _ ≤ n * P := Nat.mul_le_mul_right _ h
      rcases Nat.lt_trichotomy x.toNat y.toNat with h | h | h
      · have := key (x.toNat - 48) (y.toNat - 48) (by omega)
        generalize (x.toNat - 48) * P = u at *
        generalize (y.toNat - 48) * P = w at *
        omega
      · rw [h]
        generalize (y.toNat - 48) * P = w at *
        omega
      · have := key (y.toNat - 48) (x.toNat - 48) (by omega)
        generalize (x.toNat - 48) * P = u at *
        generalize (y.toNat - 48) * P = w at *
        omega

/-- **C13** (exact meaning of a range) the range `/a-b` selects an occurrence iff it lies between `a`
and `b` when all three are read as decimal fractions; this is the numeric order iff the widths agree. -/
theorem C13_range_exact (a b : Bytes) (ha : IsOccDigits a) (hb : IsOccDigits b) (hl : a.length = b.length)
    (hlt : numVal a < numVal b) :
    ∃ m, OccMatcher.new (0x2F :: (a ++ 0x2D :: b)) = some m ∧ m.isMatch none = false ∧
      ∀ n, IsOccDigits n → (m.isMatch (some n) = true ↔ FracLe a n ∧ FracLe n b) := by
  refine ⟨_, OccMatcher.new_range ha hb hl hlt, rfl, fun n hn => ?_⟩
  rw [← lexLe_frac ha.2 hn.2, ← lexLe_frac hn.2 hb.2]
  simp [OccMatcher.isMatch]

/-- **C13** for occurrences as wide as the bounds this order is the numeric one. -/
theorem C13_frac_same (a b : Bytes) (h : a.length = b.length) : FracLe a b ↔ numVal a ≤ numVal b := by
  unfold FracLe
  rw [h]
  have hp : 0 < 10 ^ b.length := Nat.pow_pos (by omega)
  constructor
  · rintro (h | ⟨h, -⟩)
    · exact Nat.le_of_lt (Nat.lt_of_mul_lt_mul_right h)
    · exact Nat.le_of_eq (Nat.eq_of_mul_eq_mul_right hp h)
  · intro h
    rcases Nat.lt_or_eq_of_le h with h | h
    · exact .inl (Nat.mul_lt_mul_of_pos_right h hp)
    · exact .inr ⟨by rw [h], Nat.le_refl _⟩

/-- `099` is between `01` and `10`, `001` is not -/
example : FracLe (bs "01") (bs "099") ∧ FracLe (bs "099") (bs "10") ∧ ¬ FracLe (bs "01") (bs "001") := by
  unfold FracLe; decide +kernel

/-! ## C65 -/

/-- a copy field and a local field with only main fields, at least one, between them -/
def HiddenCut (r : List Field) : Prop :=
  ∃ u p ms q v, r = u ++ p :: (ms ++ q :: v) ∧ NewLocal p q ∧ ms ≠ [] ∧ ∀ f ∈ ms, f.level = some .main

/-- a part without cut lies within one segment -/
theorem seg_of_infix : ∀ {segs : List (List Field)} {l : List Field}, CutAt NewLocal l segs →
    ∀ {u w v : List Field}, l = u ++ w ++ v → w ≠ [] → NoCut w → ∃ s ∈ segs, ∃ u' v', s = u' ++ w ++ v' := by
  intro segs
  induction segs with
  | nil =>
    intro l h u w v hl hw _
    have : l = [] := by simpa using h.whole.symm
    rw [this] at hl
    exact absurd hl.symm (by simp [hw])
  | cons s ss ih =>
    intro l h u w v hl hw hn
    have hwhole : s ++ ss.flatten = u ++ (w ++ v) := by
      have := h.whole
      rw [List.flatten_cons] at this
      rw [this, hl, List.append_assoc]
    rcases List.append_eq_append_iff.1 hwhole with ⟨a, rfl, e2⟩ | ⟨a, rfl, e2⟩
    · obtain ⟨t, ht, u', v', e⟩ := ih h.tail (u := a) (w := w) (v := v) (by rw [e2, List.append_assoc]) hw hn
      exact ⟨t, by simp [ht], u', v', e⟩
    · rcases List.append_eq_append_iff.1 e2 with ⟨b, rfl, e4⟩ | ⟨b, rfl, e4⟩
      · exact ⟨_, List.mem_cons_self, u, b, by simp⟩
      · by_cases ha : a = []
        · subst ha
          obtain ⟨t, ht, u', v', e⟩ := ih h.tail (u := []) (w := b) (v := v) (by simpa using e4) (by simpa using hw)
            (by simpa using hn)
          exact ⟨t, by simp [ht], u', v', by simpa using e⟩
        · by_cases hb : b = []
          · subst hb
            exact ⟨_, List.mem_cons_self, u, [], by simp⟩
          · exfalso
            cases ss with
            | nil => simp at e4; exact hb e4.1
            | cons t ts =>
              obtain ⟨x, y, hx, hy, hxy⟩ := h.between [] _ t ts rfl
              have hx' : a.getLast? = some x := by
                rw [List.getLast?_append_of_ne_nil _ ha] at hx; exact hx
              have hy' : b.head? = some y := by
                have ht := h.nonempty t (by simp)
                cases t with
                | nil => exact absurd rfl ht
                | cons z t =>
                  cases b with
                  | nil => exact absurd rfl hb
                  | cons z' b => simp at e4 hy ⊢; rw [← e4.1, hy]
              obtain ⟨a', rfl⟩ := List.getLast?_eq_some_iff.1 hx'
              obtain ⟨b', rfl⟩ := List.head?_eq_some_iff.1 hy'
              exact hn a' x y b' (by simp) hxy

/-- the part below the main level of a segment is cut by the second run iff a cut was hidden -/
theorem hidden_iff {r : Record} {segs : List (List Field)} (hs : CutAt NewLocal r segs) :
    (∃ s ∈ segs, ¬ NoCut (belowMain s)) ↔ HiddenCut r := by
  constructor
  · rintro ⟨s, hm, h⟩
    unfold NoCut at h
    simp only [Classical.not_forall, Classical.not_not] at h
    obtain ⟨u, p, q, v, e, hpq⟩ := h
    unfold belowMain at e
    obtain ⟨l₁, l₂, rfl, -, e2⟩ := List.filter_eq_append_iff.1 e
    obtain ⟨k₁, k₂, rfl, n1, -, e3⟩ := List.filter_eq_cons_iff.1 e2
    obtain ⟨m₁, m₂, rfl, n2, -, -⟩ := List.filter_eq_cons_iff.1 e3
    have hmain : ∀ f ∈ m₁, f.level = some .main := fun f hf => by simpa using n2 f hf
    obtain ⟨A, B, rfl⟩ := List.append_of_mem hm
    refine ⟨A.flatten ++ (l₁ ++ k₁), p, m₁, q, m₂ ++ B.flatten, ?_, hpq, ?_, hmain⟩
    · rw [← hs.whole]; simp
    · rintro rfl
      exact hs.inside _ hm (l₁ ++ k₁) p q m₂ (by simp) hpq
  · rintro ⟨u, p, ms, q, v, rfl, hpq, hne, hmain⟩
    have hn : NoCut (p :: (ms ++ [q])) := by
      intro a x y b e hxy
      cases a with
      | nil =>
        cases ms with
        | nil => exact hne rfl
        | cons m ms =>
          simp at e
          have := hmain m (by simp)
          rw [e.2.1, hxy.2] at this
          cases this
      | cons z a =>
        have e' : ms ++ [q] = (a ++ [x]) ++ y :: b := by simpa using (List.cons.inj e).2
        have hxm : x ∈ ms := by
          have := congrArg List.dropLast e'
          rw [List.dropLast_concat, List.dropLast_append_of_ne_nil (by simp)] at this
          rw [this]; simp
        have := hmain x hxm
        rw [hxy.1] at this
        cases this
    obtain ⟨s, hm, u', v', rfl⟩ := seg_of_infix hs (u := u) (w := p :: (ms ++ [q])) (v := v) (by simp) (by simp) hn
    refine ⟨_, hm, fun h => ?_⟩
    have hb : belowMain (u' ++ p :: (ms ++ [q]) ++ v') = belowMain u' ++ p :: q :: belowMain v' := by
      have h1 : belowMain (p :: (ms ++ [q])) = [p, q] := by
        have h2 : belowMain ms = [] := belowMain_all_main hmain
        unfold belowMain at h2 ⊢
        rw [List.filter_cons, List.filter_append, h2]
        simp [hpq.1, hpq.2]
      rw [belowMain_append, belowMain_append, h1]; simp
    exact h _ p q _ hb hpq

theorem localRecords_length : ∀ (segs : List (List Field)) (main : List Field),
    (localRecords main segs).length = (segs.filter (fun s => decide (belowMain s ≠ []))).length := by
  intro segs
  induction segs with
  | nil => intro main; rfl
  | cons s ss ih =>
    intro main
    rw [localRecords, List.length_append, ih, List.filter_cons]
    by_cases h : belowMain s = [] <;> simp [h]; omega

theorem localRecords_has : ∀ {segs : List (List Field)} {main s : List Field},
    (∀ f ∈ main, f.level = some .main) → s ∈ segs → belowMain s ≠ [] →
    ∃ m, (∀ f ∈ m, f.level = some .main) ∧ m ++ belowMain s ∈ localRecords main segs := by
  intro segs
  induction segs with
  | nil => intro main s _ h; simp at h
  | cons t ss ih =>
    intro main s hm h hb
    have hm' : ∀ f ∈ main ++ ofLevel .main t, f.level = some .main := by
      intro f hf
      rcases List.mem_append.1 hf with hf | hf
      · exact hm f hf
      · exact all_main_ofLevel t f hf
    rw [localRecords]
    rcases List.mem_cons.1 h with rfl | h
    · exact ⟨main ++ ofLevel .main s, hm', by simp [hb]⟩
    · obtain ⟨m, h1, h2⟩ := ih hm' h hb
      exact ⟨m, h1, by simp [h2]⟩

/-- a record with main fields in front is given back iff there is no cut below the main level -/
theorem local_once_iff {m s : List Field} (hm : ∀ f ∈ m, f.level = some .main)
    (hs : ∀ f ∈ s, f.level = some .local ∨ f.level = some .copy) (hb : s ≠ []) :
    explodeRecord .local (m ++ s) = some [m ++ s] ↔ NoCut s := by
  have hbm : belowMain s = s := by
    rw [belowMain, List.filter_eq_self]
    intro f hf
    rcases hs f hf with h | h <;> simp [h]
  have hl : Leveled (m ++ s) := by
    intro f hf
    rcases List.mem_append.1 hf with hf | hf
    · exact ⟨_, hm f hf⟩
    · rcases hs f hf with h | h <;> exact ⟨_, h⟩
  constructor
  · intro h
    obtain ⟨segs, hc⟩ := cut_exists NewLocal (m ++ s)
    have := localLoop_segs segs (m ++ s) [] [] hc hl
    rw [explodeRecord, processLocal, this, List.nil_append] at h
    have hlen := localRecords_length segs []
    rw [Option.some.inj h] at hlen
    intro u a b v e hab
    have hone : ∃ t, segs = [t] := by
      cases segs with
      | nil => simp at hlen
      | cons t segs =>
        cases segs with
        | nil => exact ⟨t, rfl⟩
        | cons t' segs =>
          obtain ⟨x, y, hx, hy, hxy⟩ := hc.between [] t t' segs rfl
          have h1 : belowMain t ≠ [] := by
            refine List.ne_nil_of_mem (a := x) ?_
            rw [belowMain, List.mem_filter]
            exact ⟨List.mem_of_getLast? hx, by simp [hxy.1]⟩
          have h2 : belowMain t' ≠ [] := by
            refine List.ne_nil_of_mem (a := y) ?_
            rw [belowMain, List.mem_filter]
            exact ⟨List.mem_of_head? hy, by simp [hxy.2]⟩
          simp [h1, h2] at hlen
    obtain ⟨t, rfl⟩ := hone
    have ht : t = m ++ s := by simpa using hc.whole
    subst ht
    exact hc.inside (m ++ s) (by simp) (m ++ u) a b v (by simp [e]) hab
  · intro hn
    exact local_once hm (by
      unfold MainFirst
      refine List.Pairwise.imp_of_mem (R := fun _ _ => True) ?_ (List.pairwise_of_forall (fun _ _ => trivial))
      intro a b _ hb' _ he
      rcases hs b hb' with h | h <;> rw [h] at he <;> cases he) (fun f hf => hl f (by simp [hf])) hn (by rw [hbm]; exact hb)

/-- **C65** (exact condition) the records that explode local makes of a record are not divided any
further by a second run iff no copy field is separated from a following local field by main fields
only. -/
theorem C65_local_iff (b : Bytes) (r : Record) (h : Record.fromBytes b = some r) :
    (∃ xs, explodeRecord .local r = some xs ∧ ∀ x ∈ xs, explodeRecord .local x = some [x]) ↔ ¬ HiddenCut r := by
  obtain ⟨⟨segs, hs⟩, h2⟩ := C30_local b r h
  have h2 := h2 segs hs
  have hlev : ∀ s ∈ segs, ∀ f ∈ belowMain s, f.level = some .local ∨ f.level = some .copy := by
    intro s hm f hf
    rw [belowMain, List.mem_filter] at hf
    obtain ⟨k, hk⟩ := leveled h f (by rw [← hs.whole]; exact List.mem_flatten.2 ⟨s, hm, hf.1⟩)
    cases k with
    | main => rw [hk] at hf; simp at hf
    | «local» => exact .inl hk
    | copy => exact .inr hk
  rw [← hidden_iff hs]
  constructor
  · rintro ⟨xs, h3, h4⟩ ⟨s, hm, hcut⟩
    rw [h2] at h3
    cases h3
    by_cases he : belowMain s = []
    · exact hcut (by rw [he]; intro u a b v e; simp at e)
    · obtain ⟨m, hmain, hx⟩ := localRecords_has (main := []) (by simp) hm he
      exact hcut ((local_once_iff hmain (hlev s hm) he).1 (h4 _ hx))
  · intro hno
    refine ⟨_, h2, fun x hx => ?_⟩
    obtain ⟨m, s, a1, a2, a3, rfl⟩ := mem_localRecords (main := []) (by simp) hx
    refine (local_once_iff ?_ (hlev s a2) a3).2 (Classical.byContradiction fun hn => hno ⟨s, a2, hn⟩)
    intro f hf
    rcases List.mem_append.1 hf with hf | hf
    · exact a1 f hf
    · exact all_main_ofLevel s f hf

/-- such a record: the main field `010@` between a copy field and a local field -/
example : HiddenCut mainBetween :=
  ⟨mainBetween.take 2, ⟨bs "203@", some (bs "01"), [⟨0x30, bs "2"⟩]⟩, [⟨bs "010@", none, [⟨0x61, bs "x"⟩]⟩],
    ⟨bs "101@", none, [⟨0x61, bs "2"⟩]⟩, [], by decide +kernel, by unfold NewLocal; decide +kernel, by simp,
    by decide +kernel⟩

/-! ## C19 -/

/-- **C19** (exact difference) for every option, `in` compares the texts, in lower case if case is
ignored, and `==` compares the lengths of the unchanged texts as well. -/
theorem C19_in_exact (E : Env) (o : Opts) (xs : List Bytes) (v : Bytes) :
    (SubSingle.inCheck E o xs false v = true ↔
      ∃ x ∈ xs, if o.caseIgnore then E.lower v = E.lower x else v = x) ∧
    ((SubSingle.inCheck E o xs false v = true ∧ ¬ ∃ x ∈ xs, SubSingle.relCheck E o .eq x v = some true) ↔
      o.caseIgnore = true ∧ (∃ x ∈ xs, E.lower v = E.lower x) ∧
        ∀ x ∈ xs, E.lower v = E.lower x → x.length ≠ v.length) := by
  have h1 := inCheck_iff E o xs false v
  simp only [Bool.false_eq_true, if_false] at h1
  cases hc : o.caseIgnore with
  | false =>
    simp only [fold_cs E o hc] at h1
    refine ⟨by simpa using h1, ?_⟩
    simp only [Bool.false_eq_true, false_and, iff_false, not_and, Classical.not_not]
    exact fun h => (C19_in_partial E o xs v (.inl hc)).1 h
  | true =>
    simp only [fold_ci E o hc] at h1
    refine ⟨by simpa using h1, ?_⟩
    rw [h1]
    simp only [SubSingle.relCheck, Option.some.injEq, compare_iff, fold_ci E o hc, true_and]
    refine and_congr_right (fun _ => ?_)
    constructor
    · intro h x hx he hl; exact h ⟨x, hx, hl.symm, he⟩
    · rintro h ⟨x, hx, hl, he⟩; exact h x hx he hl.symm

/-! ## C46 -/

/-- every row at the first position where its hash occurs -/
def firstsBy (hash : List Bytes → Nat) (rows : List (List Bytes)) : List (List Bytes) :=
  (rows.zipIdx.filter (fun x : List Bytes × Nat => decide (hash x.1 ∉ (rows.take x.2).map hash))).map Prod.fst

theorem firstsBy_snoc (hash : List Bytes → Nat) (rows : List (List Bytes)) (r : List Bytes) :
    firstsBy hash (rows ++ [r]) = firstsBy hash rows ++ (if hash r ∈ rows.map hash then [] else [r]) := by
  unfold firstsBy
  rw [List.zipIdx_append, List.filter_append, List.map_append]
  congr 1
  · congr 1
    apply List.filter_congr
    intro x hx
    have := List.mem_zipIdx hx
    rw [List.take_append_of_le_length (by omega)]
  · simp only [List.zipIdx_cons, List.zipIdx_nil, Nat.zero_add]
    rw [List.filter_cons]
    simp only [List.take_append_of_le_length (Nat.le_refl rows.length), List.take_length]
    by_cases h : hash r ∈ rows.map hash
    · rw [if_neg (by simpa using h), if_pos h]; rfl
    · rw [if_pos (by simpa using h), if_neg h]; rfl

open Classical in
/-- **C46** (exactly the written rows) with `--unique`, whatever the hash function is: of the rows
that the option for empty columns lets pass, the first one of each hash value, unless all its cells
are empty. -/
theorem C46_unique_exact (c : SelectCmd) (hu : c.unique = true) (files : List (String × Bytes))
    (rs : List ByteRecord) (hi : Input files rs) (s : SelectState) (h : c.run files = .ok s) :
    ∃ results, SelResults c rs results ∧
      s.out = ((firstsBy c.hash (results.flatten.filter
          (fun row => decide (c.noEmptyColumns = true → ∀ cell ∈ row, cell ≠ [])))).filter
        (fun row => decide (∃ cell ∈ row, cell ≠ []))).map (·.map c.text) := by
  obtain ⟨results, h1, h2⟩ := select_run hi h
  refine ⟨results, h1, ?_⟩
  rw [h2]
  generalize results.flatten = rows
  refine (snoc_induction (P := fun rows =>
    (rows.foldl c.row ⟨[], [], 0⟩).out = ((firstsBy c.hash (rows.filter
          (fun row => decide (c.noEmptyColumns = true → ∀ cell ∈ row, cell ≠ [])))).filter
        (fun row => decide (∃ cell ∈ row, cell ≠ []))).map (·.map c.text) ∧
      ∀ n, n ∈ (rows.foldl c.row ⟨[], [], 0⟩).seen ↔ n ∈ (rows.filter
          (fun row => decide (c.noEmptyColumns = true → ∀ cell ∈ row, cell ≠ []))).map c.hash)
    ⟨by simp [firstsBy], by simp⟩ ?_ rows).1
  intro rows r ⟨ih1, ih2⟩
  rw [List.foldl_append, List.foldl_cons, List.foldl_nil, List.filter_append]
  generalize rows.foldl c.row ⟨[], [], 0⟩ = st at ih1 ih2 ⊢
  generalize hk : rows.filter (fun row => decide (c.noEmptyColumns = true → ∀ cell ∈ row, cell ≠ [])) = kept at *
  have hp : (c.noEmptyColumns = true → ∀ cell ∈ r, cell ≠ []) ↔
      ¬ (c.noEmptyColumns && r.any (fun e => e.isEmpty)) = true := by
    rw [Bool.and_eq_true, List.any_eq_true]
    simp only [List.isEmpty_iff, not_and, not_exists, ne_eq]
  have hq : (∃ cell ∈ r, cell ≠ []) ↔ (!r.all (fun e => e.isEmpty)) = true := by
    simp [List.isEmpty_iff]
  by_cases h1 : (c.noEmptyColumns && r.any (fun e => e.isEmpty)) = true
  · have hf : [r].filter (fun row => decide (c.noEmptyColumns = true → ∀ cell ∈ row, cell ≠ [])) = [] := by
      rw [List.filter_cons, if_neg (by rw [decide_eq_true_eq, hp]; exact fun h => h h1), List.filter_nil]
    rw [SelectCmd.row, if_pos h1, hf, List.append_nil]
    exact ⟨ih1, ih2⟩
  · have hf : [r].filter (fun row => decide (c.noEmptyColumns = true → ∀ cell ∈ row, cell ≠ [])) = [r] := by
      rw [List.filter_cons, if_pos (by rw [decide_eq_true_eq, hp]; exact h1), List.filter_nil]
    rw [SelectCmd.row, if_neg h1, hu, hf, firstsBy_snoc]
    by_cases h2 : c.hash r ∈ st.seen
    · have h2' := (ih2 _).1 h2
      rw [if_pos (by simpa using h2), if_pos h2', List.append_nil]
      refine ⟨ih1, fun n => ?_⟩
      rw [ih2, List.map_append, List.mem_append]
      constructor
      · exact .inl
      · rintro (h | h)
        · exact h
        · rw [List.map_singleton, List.mem_singleton] at h; rw [h]; exact h2'
    · have h2' : c.hash r ∉ kept.map c.hash := fun h => h2 ((ih2 _).2 h)
      rw [if_neg (by simpa using h2), if_neg h2', List.filter_append, List.map_append, ← ih1]
      have hseen : ∀ n, n ∈ c.hash r :: st.seen ↔ n ∈ (kept ++ [r]).map c.hash := by
        intro n
        rw [List.mem_cons, ih2, List.map_append, List.mem_append, List.map_singleton, List.mem_singleton]
        exact Or.comm
      by_cases h3 : (!r.all (fun e => e.isEmpty)) = true
      · have hf : [r].filter (fun row => decide (∃ cell ∈ row, cell ≠ [])) = [r] := by
          rw [List.filter_cons, if_pos (by rw [decide_eq_true_eq, hq]; exact h3), List.filter_nil]
        rw [hf]
        simp only [if_true, h3]
        exact ⟨rfl, hseen⟩
      · have hf : [r].filter (fun row => decide (∃ cell ∈ row, cell ≠ [])) = [] := by
          rw [List.filter_cons, if_neg (by rw [decide_eq_true_eq, hq]; exact h3), List.filter_nil]
        rw [hf, List.map_nil, List.append_nil]
        simp only [if_true, if_neg h3]
        exact ⟨trivial, hseen⟩

/-! ## C40 -/

/-- **C40** (exact condition) a PPN is reported by a link rule iff it has a dangling link, except when
the empty value is its only one. -/
theorem C40_dangling_exact {c : CheckCmd} {L : LinkSpec} {id : Bytes} {tags : Option (List Bytes)}
    {level : CheckLevel} {A B : List RuleSet} {X Y : List CheckRule} (hl : HasLink c L id tags level A B X Y)
    (hnf : c.NoFast) (hperm : ∀ l, (c.C.iterLink l).Perm l) (hlossy : IsLossy c.C.lossy)
    {files : List (String × Bytes)} {rs : List ByteRecord} (hi : Input files rs) {out : List Report}
    (h : c.run files = .ok out) (p : Bytes) :
    (∃ rep ∈ out, rep.rule = id ∧ rep.ppn = if p.isEmpty then none else some p) ↔
      L.danglings (c.checked rs) p ≠ [[]] ∧
      ∃ r ∈ c.checked rs, L.idn r = p ∧ ∃ v ∈ L.sources r, ∀ r' ∈ c.checked rs, v ∉ L.targets r' := by
  by_cases hs : L.danglings (c.checked rs) p = [[]]
  · refine ⟨fun ⟨rep, hrep, hid, hppn⟩ => ?_, fun h => absurd hs h.1⟩
    obtain ⟨q, rfl, hne⟩ := ((C40_reports hl hnf hperm hi h).1 rep).1 ⟨hrep, hid⟩
    have hq : q = p := by
      unfold linkReport at hppn
      cases q <;> cases p <;> simp_all
    subst hq
    rw [hs, hl.env] at hne
    exact absurd (by simp [joinText, hlossy.1 [] (by decide)]) hne
  · rw [C40_dangling_partial hl hnf hperm hlossy hi h p hs]
    exact ⟨fun h => ⟨hs, h⟩, fun h => h.2⟩

/-! ## the theorems on concrete values -/

example : isniOk (bs "0000 0001 2103 2683") = true := by decide +kernel
example := C39_length (bs "0000 0001 2103 2683") (by decide +kernel)
example := C13_range_exact (bs "01") (bs "10") ⟨by decide +kernel, by decide +kernel⟩ ⟨by decide +kernel, by decide +kernel⟩
  (by decide +kernel) (by decide +kernel)
example := C13_frac_same (bs "01") (bs "10") (by decide +kernel)
example := C65_local_iff explodeSample.write explodeSample (by decide +kernel)
example := C46_unique_exact ((selectSample true false (fun r => r.length)).get (by decide +kernel)) (by decide +kernel)
  [("a", selectLine "y" ++ selectLine "y")] _ (input_of _) ⟨[[bs "x", bs "y"]], [2], 2⟩ (by decide +kernel)

end Pica.Props
