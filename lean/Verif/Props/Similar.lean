import Verif.Lemmas.Similar
import Verif.Lemmas.Float
import Verif.Props.Lossy
import Verif.Props.Options
import Verif.Props.Trim

/-!
# C90: comparison by similarity
-/

namespace Pica.Props
open Pica Pica.Spec

/-- **C90** the number computed row by row is the least number of changes -/
theorem C90_distance {α : Type} [DecidableEq α] (a b : List α) (n : Nat) :
    levenshtein a b = n ↔ Differences a b n := by
  rw [levenshtein_eq]
  have h := dist_least a b
  constructor
  · rintro rfl; exact h
  · rintro ⟨h1, h2⟩
    have h3 := h.2 n h1
    have h4 := h2 _ h.1
    omega

example : Differences "kitten".toList "sitting".toList 3 := (C90_distance _ _ _).1 (by decide +kernel)

/-- thresholds at which rounding lets a score equal to the threshold pass -/
def roundedUp : List Nat := [1, 2, 3, 4, 5, 6, 15, 16, 17, 18, 29, 30, 31, 41, 42, 43, 57, 58, 59, 82]

theorem fl_hundred : fl 100 = 100 := by decide +kernel

theorem percentage_eq {t : Nat} (ht : t < 100) : percentage t = fl (t / 100 : ℚ) := by
  unfold percentage
  rw [fl_nat (by omega), fl_hundred]

theorem roundedUp_iff {t : Nat} (ht : t < 100) :
    fl (t / 100 : ℚ) < fl (1 - fl (((100 - t : ℕ) : ℚ) / 100)) ↔ t ∈ roundedUp := by
  have h : ∀ t : Fin 100, fl ((t.val : ℚ) / 100) < fl (1 - fl (((100 - t.val : ℕ) : ℚ) / 100)) ↔ t.val ∈ roundedUp := by
    decide +kernel
  exact h ⟨t, ht⟩

theorem fl_err' {q : ℚ} (hq : 0 ≤ q) : |fl q - q| ≤ q / 2 ^ 53 := by
  rcases hq.eq_or_lt with h | h
  · rw [← h, fl_zero]; norm_num
  · exact fl_err h

/-- the comparison of the score with the threshold -/
theorem score_iff {t d m : Nat} (ht : t < 100) (hm : 0 < m) (hm' : m < 2 ^ 40) (hd : d ≤ m) :
    percentage t < fl (1 - fl (fl d / fl m)) ↔
      t * m + 100 * d < 100 * m ∨ t * m + 100 * d = 100 * m ∧ t ∈ roundedUp := by
  rw [percentage_eq ht, fl_nat (n := d) (by omega), fl_nat (n := m) (by omega)]
  have hmq : (0 : ℚ) < m := by exact_mod_cast hm
  by_cases he : t * m + 100 * d = 100 * m
  · have hx : (d : ℚ) / m = ((100 - t : ℕ) : ℚ) / 100 := by
      rw [div_eq_div_iff hmq.ne' (by norm_num)]
      have : d * 100 = (100 - t) * m := by
        rw [Nat.sub_mul]; omega
      exact_mod_cast this
    rw [hx, roundedUp_iff ht]
    constructor
    · intro h; exact .inr ⟨he, h⟩
    · rintro (h | h)
      · omega
      · exact h.2
  · have hr : (t * m + 100 * d < 100 * m ∨ t * m + 100 * d = 100 * m ∧ t ∈ roundedUp) ↔
        t * m + 100 * d < 100 * m := ⟨fun h => h.resolve_right (fun h => he h.1), .inl⟩
    rw [hr]
    have hx0 : (0 : ℚ) ≤ d / m := by positivity
    have hx1 : (d : ℚ) / m ≤ 1 := by
      rw [div_le_one hmq]; exact_mod_cast hd
    have hp0 : (0 : ℚ) ≤ t / 100 := by positivity
    have hp1 : (t : ℚ) / 100 ≤ 1 := by
      rw [div_le_one (by norm_num)]; exact_mod_cast ht.le
    have hy := fl_err' hx0
    have hp := fl_err' hp0
    -- the score and the threshold differ by at least `1 / (100 m)`
    have hgap : (1 : ℚ) / (100 * 2 ^ 40) ≤ |1 - (d : ℚ) / m - t / 100| := by
      have e1 : (1 : ℚ) - d / m - t / 100 = ((100 * m - 100 * d - t * m : ℤ) : ℚ) / (100 * m) := by
        push_cast; field_simp
      rw [e1, abs_div, abs_of_pos (show (0 : ℚ) < 100 * m by positivity), div_le_div_iff₀ (by norm_num) (by positivity)]
      have e2 : (1 : ℤ) ≤ |(100 * m - 100 * d - t * m : ℤ)| := by
        apply Int.one_le_abs
        intro h
        apply he
        have : ((t * m + 100 * d : ℕ) : ℤ) = (100 * m : ℕ) := by push_cast; linarith
        exact_mod_cast this
      have e3 : (1 : ℚ) ≤ |((100 * m - 100 * d - t * m : ℤ) : ℚ)| := by
        rw [← Int.cast_abs]; exact_mod_cast e2
      have e4 : (m : ℚ) ≤ 2 ^ 40 := by exact_mod_cast hm'.le
      nlinarith
    have hlt : t * m + 100 * d < 100 * m ↔ (t : ℚ) / 100 < 1 - d / m := by
      rw [lt_sub_iff_add_lt, div_add_div _ _ (by norm_num) hmq.ne', div_lt_one (by positivity)]
      exact_mod_cast Iff.rfl
    rw [hlt]
    by_cases hone : d = m
    · subst hone
      rw [div_self hmq.ne', show fl 1 = 1 by decide +kernel, sub_self, fl_zero]
      constructor
      · intro h
        exfalso
        have := (abs_le.1 hp).1
        have : (t : ℚ) / 100 * (1 - 1 / 2 ^ 53) ≤ fl (t / 100) := by linarith
        have : (0 : ℚ) ≤ t / 100 * (1 - 1 / 2 ^ 53) := by
          apply mul_nonneg hp0; norm_num
        linarith
      · intro h; linarith
    · have hd1 : (d : ℚ) + 1 ≤ m := by exact_mod_cast (by omega : d + 1 ≤ m)
      have hx2 : (d : ℚ) / m ≤ 1 - 1 / 2 ^ 40 := by
        rw [div_le_iff₀ hmq]
        have e4 : (m : ℚ) ≤ 2 ^ 40 := by exact_mod_cast hm'.le
        have : (1 : ℚ) / 2 ^ 40 * m ≤ 1 := by
          rw [div_mul_eq_mul_div, one_mul, div_le_one (by norm_num)]; exact e4
        linarith
      generalize (d : ℚ) / m = x at *
      generalize (t : ℚ) / 100 = p at *
      generalize fl x = y at *
      generalize fl p = p' at *
      obtain ⟨y1, y2⟩ := abs_le.1 hy
      obtain ⟨q1, q2⟩ := abs_le.1 hp
      have hs0 : (0 : ℚ) ≤ 1 - y := by
        norm_num at *; linarith
      have hs := fl_err' hs0
      generalize fl (1 - y) = s at *
      obtain ⟨s1, s2⟩ := abs_le.1 hs
      rcases le_abs'.1 hgap with hg | hg
      · constructor
        · intro h; exfalso; norm_num at *; linarith
        · intro h; exfalso; norm_num at *; linarith
      · constructor
        · intro h; norm_num at *; linarith
        · intro h; norm_num at *; linarith

/-- **C90** the score is more than the threshold exactly if this holds for the exact numbers, or if they
are equal and the threshold is one of twenty numbers at which rounding makes a difference. -/
theorem C90_score {α : Type} [DecidableEq α] (a b : List α) (t : Nat) (ht : t < 100)
    (hl : max a.length b.length < 2 ^ 40) :
    percentage t < normScore a b ↔ ScoreAbove a b t ∨ ScoreIs a b t ∧ t ∈ roundedUp := by
  unfold normScore
  by_cases h0 : a = [] ∧ b = []
  · rw [if_pos h0]
    have h1 : percentage t < 1 := by
      have h : ∀ t : Fin 100, percentage t.val < 1 := by decide +kernel
      exact h ⟨t, ht⟩
    constructor
    · intro _; exact .inl (.inl ⟨h0.1, h0.2, ht⟩)
    · intro _; exact h1
  · rw [if_neg h0]
    have hm : 0 < max a.length b.length := by
      rcases a with _ | ⟨x, a⟩
      · rcases b with _ | ⟨y, b⟩
        · exact absurd ⟨rfl, rfl⟩ h0
        · simp
      · simp
    have hD := (C90_distance a b _).1 rfl
    have hu : ∀ n, Differences a b n → n = levenshtein a b := fun n h => ((C90_distance a b n).2 h).symm
    rw [score_iff ht hm hl (by rw [levenshtein_eq]; exact dist_le_max a b)]
    constructor
    · rintro (h | ⟨h, hr⟩)
      · exact .inl (.inr ⟨_, hD, h⟩)
      · exact .inr ⟨⟨h0, _, hD, h⟩, hr⟩
    · rintro ((⟨rfl, rfl, _⟩ | ⟨n, hn, h⟩) | ⟨⟨_, n, hn, h⟩, hr⟩)
      · exact absurd ⟨rfl, rfl⟩ h0
      · rw [hu n hn] at h; exact .inl h
      · rw [hu n hn] at h; exact .inr ⟨h, hr⟩

/-- the score is above no threshold that it does not reach -/
theorem ScoreAbove.not_is {α : Type} [DecidableEq α] {a b : List α} {t : Nat} (h : ScoreAbove a b t) : ¬ ScoreIs a b t := by
  rintro ⟨h0, n, hn, he⟩
  rcases h with h | ⟨k, hk, hlt⟩
  · exact h0 ⟨h.1, h.2.1⟩
  · have h1 := (C90_distance a b n).2 hn
    have h2 := (C90_distance a b k).2 hk
    omega

/-! ## values -/

theorem normScore_map {α β : Type} [DecidableEq α] [DecidableEq β] (f : α → β) (hf : ∀ x y, f x = f y → x = y)
    (a b : List α) : normScore (a.map f) (b.map f) = normScore a b := by
  unfold normScore
  rw [levenshtein_eq, levenshtein_eq, dist_map f hf, List.length_map, List.length_map]
  simp only [List.map_eq_nil_iff]

theorem compared_eq {lower : Bytes → Bytes} {ci : Bool} {v : Bytes} {cs : List Char} (h : Compared lower ci v cs) :
    (if ci then lower (lossyText v) else lossyText v) = textBytes cs := by
  obtain ⟨t, ht, he⟩ := h
  rw [C88_text] at ht
  subst ht
  exact he.symm

theorem simScore_eq {lower : Bytes → Bytes} {ci : Bool} {v w : Bytes} {cs ds : List Char} (hv : Compared lower ci v cs)
    (hw : Compared lower ci w ds) : simScore lower ci v w = normScore cs ds := by
  have h1 := compared_eq hv
  have h2 := compared_eq hw
  have h : simScore lower ci v w = normScore (utf8Chars (if ci then lower (lossyText v) else lossyText v))
      (utf8Chars (if ci then lower (lossyText w) else lossyText w)) := by
    unfold simScore; cases ci <;> rfl
  rw [h, h1, h2]
  unfold textBytes
  rw [utf8Chars_encode, utf8Chars_encode]
  exact normScore_map _ (fun _ _ h => encodeChar_inj h) _ _

/-- every value has characters to compare, if `to_lowercase` makes texts of texts -/
theorem C90_compared (lower : Bytes → Bytes) (hl : ∀ t, IsUtf8 t → IsUtf8 (lower t)) (ci : Bool) (v : Bytes) :
    ∃ cs, Compared lower ci v cs := by
  have h := (C88_valid v).1
  cases ci with
  | false => obtain ⟨cs, hc⟩ := h; exact ⟨cs, _, (C88_text v _).2 rfl, hc.symm⟩
  | true => obtain ⟨cs, hc⟩ := hl _ h; exact ⟨cs, _, (C88_text v _).2 rfl, hc.symm⟩

/-- **C90** two values are similar exactly if the score of their texts is above the threshold, or equal to
it and the threshold one of those at which rounding makes a difference.  The order does not matter. -/
theorem C90_similar (W : World) (lower : Bytes → Bytes) (ci : Bool) (t : Nat) (ht : t < 100) (v w : Bytes)
    (cs ds : List Char) (hv : Compared lower ci v cs) (hw : Compared lower ci w ds)
    (hl : max cs.length ds.length < 2 ^ 40) :
    ((scored (W.float lower) ((W.float lower).percent t)).similar ci v w = true ↔
      ScoreAbove cs ds t ∨ ScoreIs cs ds t ∧ t ∈ roundedUp) ∧
    (scored (W.float lower) ((W.float lower).percent t)).similar ci v w =
      (scored (W.float lower) ((W.float lower).percent t)).similar ci w v := by
  have key : ∀ v w cs ds, Compared lower ci v cs → Compared lower ci w ds →
      ((scored (W.float lower) ((W.float lower).percent t)).similar ci v w = true ↔ percentage t < normScore cs ds) := by
    intro v w cs ds hv hw
    show decide (percentage t < simScore lower ci v w) = true ↔ _
    rw [decide_eq_true_iff, simScore_eq hv hw]
  refine ⟨by rw [key v w cs ds hv hw, C90_score cs ds t ht hl], ?_⟩
  rw [Bool.eq_iff_iff, key v w cs ds hv hw, key w v ds cs hw hv]
  unfold normScore
  rw [levenshtein_eq, levenshtein_eq, dist_symm, Nat.max_comm]
  simp only [and_comm]

/-- **C90, part** with any threshold but the twenty, values are similar exactly if their score is above
the threshold.  Missing: the claim is false for the twenty, see below. -/
theorem C90_threshold_partial (W : World) (lower : Bytes → Bytes) (ci : Bool) (t : Nat) (ht : t < 100) (v w : Bytes)
    (cs ds : List Char) (hv : Compared lower ci v cs) (hw : Compared lower ci w ds)
    (hl : max cs.length ds.length < 2 ^ 40) (hr : t ∉ roundedUp ∨ ¬ ScoreIs cs ds t) :
    (scored (W.float lower) ((W.float lower).percent t)).similar ci v w = true ↔ ScoreAbove cs ds t := by
  rw [(C90_similar W lower ci t ht v w cs ds hv hw hl).1]
  constructor
  · rintro (h | h)
    · exact h
    · exact hr.elim (absurd h.2) (absurd h.1)
  · exact .inl

/-- **C90** with the default threshold 75, or 80 as in rules and for `--filter-set-source`, the decision is exact -/
theorem C90_default (W : World) (lower : Bytes → Bytes) (ci : Bool) (v w : Bytes) (cs ds : List Char)
    (hv : Compared lower ci v cs) (hw : Compared lower ci w ds) (hl : max cs.length ds.length < 2 ^ 40) :
    ((scored (W.float lower) ((W.float lower).percent 75)).similar ci v w = true ↔ ScoreAbove cs ds 75) ∧
    ((scored (W.float lower) (W.float lower).eighty).similar ci v w = true ↔ ScoreAbove cs ds 80) := by
  refine ⟨C90_threshold_partial W lower ci 75 (by decide) v w cs ds hv hw hl (.inl (by decide)), ?_⟩
  have h : (W.float lower).eighty = (W.float lower).percent 80 := by
    show fl (8 / 10) = percentage 80
    decide +kernel
  rw [h]
  exact C90_threshold_partial W lower ci 80 (by decide) v w cs ds hv hw hl (.inl (by decide))

/-- **C90** a value is similar to itself whatever the threshold, and values of which no character can be
kept are never similar unless both are empty -/
theorem C90_ends (W : World) (lower : Bytes → Bytes) (ci : Bool) (t : Nat) (ht : t < 100) (v w : Bytes) (cs ds : List Char)
    (hv : Compared lower ci v cs) (hw : Compared lower ci w ds) (hl : max cs.length ds.length < 2 ^ 40) :
    (cs = ds → (scored (W.float lower) ((W.float lower).percent t)).similar ci v w = true) ∧
    (¬ (cs = [] ∧ ds = []) → Differences cs ds (max cs.length ds.length) →
      (scored (W.float lower) ((W.float lower).percent t)).similar ci v w = false) := by
  have hs := (C90_similar W lower ci t ht v w cs ds hv hw hl).1
  constructor
  · rintro rfl
    rw [hs]
    left
    cases cs with
    | nil => exact .inl ⟨rfl, rfl, ht⟩
    | cons c cs =>
      refine .inr ⟨0, ⟨.nil _, fun k _ => Nat.zero_le k⟩, ?_⟩
      have : 0 < max (c :: cs).length (c :: cs).length := by simp
      generalize max (c :: cs).length (c :: cs).length = m at *
      have := Nat.mul_lt_mul_of_lt_of_le ht (Nat.le_refl m) this
      omega
  · intro h0 hd
    rw [Bool.eq_false_iff]
    intro h
    rw [hs] at h
    have hu : ∀ n, Differences cs ds n → n = max cs.length ds.length := fun n hn => by
      rw [← (C90_distance cs ds n).2 hn, ← (C90_distance cs ds _).2 hd]
    rcases h with (h | ⟨n, hn, h⟩) | ⟨⟨_, n, hn, h⟩, hr⟩
    · exact h0 ⟨h.1, h.2.1⟩
    · rw [hu n hn] at h; omega
    · rw [hu n hn] at h
      have hm : 0 < max cs.length ds.length := by
        rcases cs with _ | ⟨x, a⟩
        · rcases ds with _ | ⟨y, b⟩
          · exact absurd ⟨rfl, rfl⟩ h0
          · simp
        · simp
      have : t = 0 := by
        rcases Nat.eq_zero_or_pos t with h1 | h1
        · exact h1
        · have := Nat.mul_pos h1 hm; omega
      subst this
      exact absurd hr (by decide)

/-! ## matchers -/

/-- **C90** `x =* 'text'` holds for a field if some subfield with one of the codes is similar to the text,
with `ALL` if every such subfield is -/
theorem C90_matcher (W : World) (lower : Bytes → Bytes) (o : Opts) (t : Nat) (q : Quantifier) (codes text raw : Bytes)
    (sf : List Subfield) :
    (SubSingle.relation q codes .similar text raw).eval (scored (W.float lower) ((W.float lower).percent t)) o sf = some true ↔
      match q with
      | .any => ∃ s ∈ sf, s.code ∈ codes ∧
          (scored (W.float lower) ((W.float lower).percent t)).similar o.caseIgnore text s.value = true
      | .all => ∀ s ∈ sf, s.code ∈ codes →
          (scored (W.float lower) ((W.float lower).percent t)).similar o.caseIgnore text s.value = true := by
  have h : ∀ s : Subfield, SubSingle.relCheck (scored (W.float lower) ((W.float lower).percent t)) o .similar text s.value =
      some ((scored (W.float lower) ((W.float lower).percent t)).similar o.caseIgnore text s.value) := fun _ => rfl
  cases q with
  | any =>
    show anyP _ _ = some true ↔ _
    simp only [h]
    rw [anyP_some, Option.some.injEq, List.any_eq_true]
    constructor
    · rintro ⟨s, hs, hm⟩
      obtain ⟨h1, h2⟩ := List.mem_filter.1 hs
      exact ⟨s, h1, by simpa using h2, hm⟩
    · rintro ⟨s, h1, h2, hm⟩
      exact ⟨s, List.mem_filter.2 ⟨h1, by simpa using h2⟩, hm⟩
  | all =>
    show allP _ _ = some true ↔ _
    simp only [h]
    rw [allP_some, Option.some.injEq, List.all_eq_true]
    constructor
    · intro hh s h1 h2
      exact hh s (List.mem_filter.2 ⟨h1, by simpa using h2⟩)
    · intro hh s hs
      obtain ⟨h1, h2⟩ := List.mem_filter.1 hs
      exact hh s h1 (by simpa using h2)

/-! ## the claim is false -/

theorem compared_ascii (lower : Bytes → Bytes) (cs : List Char) : Compared lower false (textBytes cs) cs :=
  ⟨_, (C88_text _ _).2 ((C88_same _).1.2 ⟨cs, rfl⟩).symm, rfl⟩

/-- a text of ten characters -/
def tenA : List Char := "abcdefghij".toList
/-- another, with three of the characters -/
def tenB : List Char := "abcklmnopq".toList

/-- the records that `count` counts with these options, with `f64` and the score as defined -/
def floatCount (l : FilterOpts) (input : Bytes) : Option (LoopResult CountState) :=
  (CountArgs.prepare (toyWorld.float id) ⟨false, none⟩ Levels.zero ⟨false, false, false, false, false, false, l⟩).map
    (fun c => c.loop [("a", input)])

/-- **C90** is false: with `--strsim-threshold 30` texts with a score of exactly 30 are similar, although
the score is not above the threshold; with 20, texts with a score of exactly 20 are not. -/
theorem C90_threshold_false (W : World) (lower : Bytes → Bytes) :
    (Compared lower false (textBytes tenA) tenA ∧ Compared lower false (textBytes tenB) tenB ∧
      ScoreIs tenA tenB 30 ∧ ¬ ScoreAbove tenA tenB 30 ∧
      (scored (W.float lower) ((W.float lower).percent 30)).similar false (textBytes tenA) (textBytes tenB) = true) ∧
    (ScoreIs "abcde".toList "avwxy".toList 20 ∧
      (scored (W.float lower) ((W.float lower).percent 20)).similar false (bs "abcde") (bs "avwxy") = false) ∧
    floatCount (toyOpts 30 false none (some "003@.0 =* 'abcdefghij'")) (recLine "abcklmnopq") = some (.ok ⟨1, 1, 1⟩) ∧
    floatCount (toyOpts 20 false none (some "003@.0 =* 'abcde'")) (recLine "avwxy") = some (.ok ⟨0, 0, 0⟩) := by
  have hi : ScoreIs tenA tenB 30 := ⟨by decide, 7, (C90_distance _ _ _).1 (by decide +kernel), by decide⟩
  refine ⟨⟨compared_ascii lower _, compared_ascii lower _, hi, fun h => ScoreAbove.not_is h hi, ?_⟩, ⟨?_, ?_⟩, ?_, ?_⟩
  · show decide (percentage 30 < normScore (utf8Chars (lossyText (textBytes tenA))) (utf8Chars (lossyText (textBytes tenB)))) = true
    decide +kernel
  · exact ⟨by decide, 4, (C90_distance _ _ _).1 (by decide +kernel), by decide⟩
  · show decide (percentage 20 < normScore (utf8Chars (lossyText (bs "abcde"))) (utf8Chars (lossyText (bs "avwxy")))) = false
    decide +kernel
  · decide +kernel
  · decide +kernel

/-- the hypotheses of the theorems above -/
example : ∃ cs ds, Compared id false (bs "Heike") cs ∧ Compared id false (bs "Heiko") ds ∧
    max cs.length ds.length < 2 ^ 40 ∧ ScoreAbove cs ds 75 ∧ ¬ ScoreAbove cs ds 80 ∧ ScoreIs cs ds 80 ∧
    ¬ (cs = [] ∧ ds = []) := by
  have hb : bs "Heike" = textBytes "Heike".toList ∧ bs "Heiko" = textBytes "Heiko".toList := by decide +kernel
  have hd : Differences "Heike".toList "Heiko".toList 1 := (C90_distance _ _ _).1 (by decide +kernel)
  have hi : ScoreIs "Heike".toList "Heiko".toList 80 := ⟨by decide, 1, hd, by decide⟩
  exact ⟨"Heike".toList, "Heiko".toList, hb.1 ▸ compared_ascii id _, hb.2 ▸ compared_ascii id _, by decide,
    .inr ⟨1, hd, by decide⟩, fun h => ScoreAbove.not_is h hi, hi, by decide⟩

/-- texts without a common character -/
example : Differences "abc".toList "xy".toList (max "abc".toList.length "xy".toList.length) :=
  (C90_distance _ _ _).1 (by decide +kernel)

/-- two subfields, one of them similar -/
example : (SubSingle.relation .any (bs "a") .similar (bs "Heike") []).eval
      (scored (toyWorld.float id) ((toyWorld.float id).percent 75)) ⟨false⟩ [⟨0x61, bs "Fritz"⟩, ⟨0x61, bs "Heiko"⟩] = some true ∧
    (SubSingle.relation .all (bs "a") .similar (bs "Heike") []).eval
      (scored (toyWorld.float id) ((toyWorld.float id).percent 75)) ⟨false⟩ [⟨0x61, bs "Fritz"⟩, ⟨0x61, bs "Heiko"⟩] = some false := by
  decide +kernel

/-! ## rounding -/

theorem roundEven_near (q : ℚ) (k : ℤ) : |(roundEven q : ℚ) - q| ≤ |(k : ℚ) - q| := by
  have h1 := Int.floor_le q
  have h2 := Int.lt_floor_add_one q
  have hk : k ≤ ⌊q⌋ ∨ ⌊q⌋ + 1 ≤ k := by omega
  have hk' : (k : ℚ) ≤ ⌊q⌋ ∨ (⌊q⌋ : ℚ) + 1 ≤ k := by
    rcases hk with h | h
    · left; exact_mod_cast h
    · right; exact_mod_cast h
  have key : |(roundEven q : ℚ) - q| ≤ q - ⌊q⌋ ∧ |(roundEven q : ℚ) - q| ≤ ⌊q⌋ + 1 - q := by
    unfold roundEven
    rw [abs_le, abs_le]
    split
    · refine ⟨⟨?_, ?_⟩, ?_, ?_⟩ <;> linarith
    · split
      · push_cast
        refine ⟨⟨?_, ?_⟩, ?_, ?_⟩ <;> linarith
      · split
        · refine ⟨⟨?_, ?_⟩, ?_, ?_⟩ <;> linarith
        · push_cast
          refine ⟨⟨?_, ?_⟩, ?_, ?_⟩ <;> linarith
  rcases hk' with h | h
  · have := neg_le_abs ((k : ℚ) - q); linarith [key.1]
  · have := le_abs_self ((k : ℚ) - q); linarith [key.2]

/-- **C90** the numbers of the program are those with 53 binary digits nearest to the exact ones, and no
other such number is strictly nearer -/
theorem C90_rounding {q : ℚ} (hq : 0 < q) : Digits53 (fl q) ∧ ∀ y, Digits53 y → |fl q - q| ≤ |y - q| := by
  obtain ⟨h1, h2⟩ := expo_spec hq
  unfold fl
  rw [if_neg hq.ne']
  generalize expo q = e at *
  have hu : (0 : ℚ) < 2 ^ (e - 52) := by positivity
  have hs : (2 : ℚ) ^ e = 2 ^ (e - 52) * 2 ^ 52 := by
    rw [← zpow_natCast, ← zpow_add₀ (by norm_num)]; congr 1; push_cast; ring
  have hs' : (2 : ℚ) ^ (e + 1) = 2 ^ (e - 52) * 2 ^ 53 := by
    rw [← zpow_natCast, ← zpow_add₀ (by norm_num)]; congr 1; push_cast; ring
  -- nearest on the grid
  have grid : ∀ k : ℤ, |(roundEven (q / 2 ^ (e - 52)) : ℚ) * 2 ^ (e - 52) - q| ≤ |(k : ℚ) * 2 ^ (e - 52) - q| := by
    intro k
    have h := roundEven_near (q / 2 ^ (e - 52)) k
    have he : ∀ r : ℚ, r * 2 ^ (e - 52) - q = (r - q / 2 ^ (e - 52)) * 2 ^ (e - 52) := by
      intro r; field_simp
    rw [he, he, abs_mul, abs_mul, abs_of_pos hu]
    exact mul_le_mul_of_nonneg_right h hu.le
  constructor
  · have hlo : (2 : ℚ) ^ 52 ≤ q / 2 ^ (e - 52) := by
      rw [le_div_iff₀ hu, mul_comm, ← hs]; exact h1
    have hhi : q / 2 ^ (e - 52) < 2 ^ 53 := by
      rw [div_lt_iff₀ hu, mul_comm, ← hs']; exact h2
    have herr := roundEven_err (q / 2 ^ (e - 52))
    generalize roundEven (q / 2 ^ (e - 52)) = r at *
    generalize q / 2 ^ (e - 52) = x at *
    obtain ⟨r1, r2⟩ := abs_le.1 herr
    have hr0 : (0 : ℚ) < r := by
      have : (1 : ℚ) ≤ 2 ^ 52 := by norm_num
      linarith
    have hr0' : 0 < r := by exact_mod_cast hr0
    have hr1 : (r : ℚ) < 2 ^ 53 + 1 := by linarith
    have hr1' : r < 2 ^ 53 + 1 := by exact_mod_cast hr1
    by_cases hr : r = 2 ^ 53
    · refine ⟨1, e + 1, by norm_num, ?_⟩
      rw [hr, hs']; push_cast; ring
    · refine ⟨r.toNat, e - 52, by omega, ?_⟩
      congr 1
      have : ((r.toNat : ℤ) : ℚ) = r := by rw [Int.toNat_of_nonneg hr0'.le]
      exact_mod_cast this.symm
  · rintro y ⟨m, k, hm, rfl⟩
    by_cases hk : e - 52 ≤ k
    · obtain ⟨j, hj⟩ : ∃ j : Nat, k = (e - 52) + j := ⟨(k - (e - 52)).toNat, by omega⟩
      have h := grid (m * 2 ^ j)
      have : (((m : ℤ) * 2 ^ j : ℤ) : ℚ) * 2 ^ (e - 52) = m * 2 ^ k := by
        rw [hj, zpow_add₀ (by norm_num), zpow_natCast]; push_cast; ring
      rwa [this] at h
    · -- below the power of two under `q`
      have h := grid (2 ^ 52)
      have hy : (m : ℚ) * 2 ^ k ≤ 2 ^ e := by
        have m1 : (m : ℚ) ≤ 2 ^ 53 := by exact_mod_cast hm.le
        calc (m : ℚ) * 2 ^ k ≤ 2 ^ 53 * 2 ^ (e - 53) := by
              apply mul_le_mul m1 _ (by positivity) (by positivity)
              exact zpow_le_zpow_right₀ (by norm_num) (by omega)
          _ = 2 ^ e := by
              rw [← zpow_natCast, ← zpow_add₀ (by norm_num)]; congr 1; push_cast; ring
      refine h.trans ?_
      have hc : (((2 : ℤ) ^ 52 : ℤ) : ℚ) * 2 ^ (e - 52) = 2 ^ e := by rw [hs]; push_cast; ring
      rw [hc, abs_sub_comm, abs_of_nonneg (by linarith), abs_sub_comm, abs_of_nonneg (by linarith)]
      linarith

example : Digits53 (fl (1 / 3)) ∧ fl (1 / 3) ≠ 1 / 3 := ⟨(C90_rounding (by norm_num)).1, by decide +kernel⟩

end Pica.Props
