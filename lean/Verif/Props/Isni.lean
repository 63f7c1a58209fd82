import Verif.Spec.Isni
import Verif.Model.Check

/-! # C39: the isni check -/

namespace Pica.Props
open Pica Spec

theorem isniDigits_eq (v : Bytes) : isniDigits v = (unseparated v).map (fun c => c.toNat - 48) := by
  induction v with
  | nil => rfl
  | cons c v ih =>
    unfold isniDigits unseparated at *
    rw [List.filterMap_cons, List.filter_cons]
    by_cases h : c ≥ 48
    · rw [if_pos h, if_pos (decide_eq_true h), List.map_cons, ih]
    · rw [if_neg h, if_neg (by simpa using h), ih]

theorem weighted_append (a b : List Nat) : weighted (a ++ b) = weighted a * 2 ^ b.length + weighted b := by
  induction a with
  | nil => simp [weighted]
  | cons x a ih =>
    simp only [List.cons_append, weighted, List.length_append, ih, Nat.pow_add, Nat.add_mul, Nat.mul_assoc,
      Nat.add_assoc]

theorem isni_fold (ds : List Nat) : ∀ acc, ds.foldl (fun acc item => (acc + item) * 2) acc =
    acc * 2 ^ ds.length + 2 * weighted ds := by
  induction ds with
  | nil => intro acc; simp [weighted]
  | cons d ds ih =>
    intro acc
    rw [List.foldl_cons, ih, weighted, List.length_cons, Nat.pow_succ]
    have e1 : (acc + d) * 2 * 2 ^ ds.length = acc * (2 ^ ds.length * 2) + 2 * (d * 2 ^ ds.length) := by
      rw [Nat.add_mul, Nat.add_mul, Nat.mul_assoc acc, Nat.mul_comm 2 (2 ^ _), Nat.mul_comm d 2, Nat.mul_assoc 2]
    omega

/-- what the code computes, as a congruence: the last character is `0` to `9` or
`X`, and the weighted sum, with 40 for an `X` before the last position, is 1
modulo 11 -/
theorem isniOk_iff (v : Bytes) : isniOk v = true ↔ ∃ ds c, unseparated v = ds ++ [c] ∧ ds.length = 15 ∧
    (Digit c ∨ c = 0x58) ∧ (2 * weighted (ds.map (fun c => c.toNat - 48)) + charValue c) % 11 = 1 := by
  have hlast : ∀ (ds : Bytes) (c : Byte), 0x30 ≤ c → ds.length = 15 →
      ((isniCheckDigit ((ds ++ [c]).map (fun c => c.toNat - 48)) ==
        ((ds ++ [c]).map (fun c => c.toNat - 48)).getD 15 0) = true ↔
      (Digit c ∨ c = 0x58) ∧ (2 * weighted (ds.map (fun c => c.toNat - 48)) + charValue c) % 11 = 1) := by
    intro ds c hc hlen
    have h15 : (ds.map (fun c : Byte => c.toNat - 48)).length = 15 := by simpa using hlen
    have ht : ((ds ++ [c]).map (fun c : Byte => c.toNat - 48)).take 15 = ds.map (fun c => c.toNat - 48) := by
      rw [List.map_append, List.take_append_of_le_length (by omega), List.take_of_length_le (by omega)]
    have hd : ((ds ++ [c]).map (fun c : Byte => c.toNat - 48)).getD 15 0 = c.toNat - 48 := by
      rw [List.map_append, List.getD_eq_getElem?_getD, List.getElem?_append_right (by omega), h15]
      rfl
    rw [isniCheckDigit, ht, hd, isni_fold, beq_iff_eq]
    have hn : 48 ≤ c.toNat := UInt8.le_iff_toNat_le.1 hc
    have h9 : Digit c ↔ c.toNat ≤ 57 := by
      unfold Digit
      rw [and_iff_right hc, UInt8.le_iff_toNat_le]; rfl
    have hX : c = 0x58 ↔ c.toNat = 88 := ⟨fun h => by rw [h]; rfl, fun h => UInt8.toNat_inj.1 (by rw [h]; rfl)⟩
    rw [h9, hX]
    have hcv : charValue c = if c.toNat = 88 then 10 else c.toNat - 48 := by
      unfold charValue
      by_cases h : c = 0x58
      · rw [if_pos h, if_pos (hX.1 h)]
      · rw [if_neg h, if_neg (fun h' => h (hX.2 h'))]
    rw [hcv]
    generalize weighted (ds.map (fun c => c.toNat - 48)) = w
    generalize c.toNat = n at *
    rw [Nat.zero_mul, Nat.zero_add]
    split <;> split <;> omega
  unfold isniOk
  dsimp only
  rw [isniDigits_eq]
  rw [List.length_map]
  by_cases hl : (unseparated v).length = 16
  · have hne : unseparated v ≠ [] := by intro h; rw [h] at hl; simp at hl
    have hsplit := (List.dropLast_concat_getLast hne).symm
    have hlen : (unseparated v).dropLast.length = 15 := by rw [List.length_dropLast]; omega
    have hge : 0x30 ≤ (unseparated v).getLast hne := by
      have := List.getLast_mem hne
      simpa using (List.mem_filter.1 this).2
    rw [if_neg (by simpa using hl)]
    generalize (unseparated v).getLast hne = c at *
    generalize (unseparated v).dropLast = ds at *
    rw [hsplit, hlast ds c hge hlen]
    constructor
    · intro h; exact ⟨ds, c, rfl, hlen, h⟩
    · rintro ⟨ds', c', he, _, h⟩
      obtain ⟨rfl, h2⟩ := List.append_inj' he rfl
      simp only [List.cons.injEq, and_true] at h2
      rw [h2]; exact h
  · rw [if_pos (by simpa using hl)]
    simp only [Bool.false_eq_true, false_iff]
    rintro ⟨ds, c, he, h15, _⟩
    rw [he] at hl
    simp [h15] at hl

/-- digits have their value as character value -/
theorem map_charValue {ds : Bytes} (h : ∀ d ∈ ds, Digit d) :
    ds.map charValue = ds.map (fun c => c.toNat - 48) := by
  apply List.map_congr_left
  intro d hd
  unfold charValue
  rw [if_neg]
  rintro rfl
  exact absurd (h _ hd) (by decide)

/-- **C39** (accepted values) a value whose characters, except separators and the
last one, are digits is accepted iff it satisfies MOD 11-2.  Missing: values with
other characters, which should be rejected, see below. -/
theorem C39_accepts_partial (v : Bytes) (hd : ∀ c ∈ (unseparated v).dropLast, Digit c) :
    isniOk v = true ↔ Mod112 (unseparated v) := by
  rw [isniOk_iff]
  constructor
  · rintro ⟨ds, c, he, hl, hc, hw⟩
    rw [he, List.dropLast_concat] at hd
    refine ⟨ds, c, he, hl, hd, hc, ?_⟩
    rw [he, List.map_append, map_charValue hd, weighted_append]
    simpa [weighted, Nat.mul_comm] using hw
  · rintro ⟨ds, c, he, hl, hd, hc, hw⟩
    refine ⟨ds, c, he, hl, hc, ?_⟩
    rw [he, List.map_append, map_charValue hd, weighted_append] at hw
    simpa [weighted, Nat.mul_comm] using hw

/-- **C39** (no false alarm) whatever the separators are, a correct number is never
reported. -/
theorem C39_complete (v : Bytes) (h : Mod112 (unseparated v)) : isniOk v = true := by
  refine (C39_accepts_partial v ?_).2 h
  obtain ⟨ds, c, he, hl, hd, hc, hw⟩ := h
  rw [he, List.dropLast_concat]
  exact hd

theorem unseparated_append (p q : Bytes) : unseparated (p ++ q) = unseparated p ++ unseparated q :=
  List.filter_append ..

theorem unseparated_digit {a : Byte} (h : Digit a) (q : Bytes) : unseparated (a :: q) = a :: unseparated q :=
  List.filter_cons_of_pos (decide_eq_true h.1)

/-- powers of two are invertible modulo 11 -/
theorem pow_cancel {k a b : Nat} (ha : a < 11) (hb : b < 11) (h : (a * 2 ^ k) % 11 = (b * 2 ^ k) % 11) : a = b := by
  induction k with
  | zero => omega
  | succ k ih =>
    apply ih
    rw [Nat.pow_succ, ← Nat.mul_assoc, ← Nat.mul_assoc] at h
    omega

theorem digit_lt {a : Byte} (h : Digit a) : a.toNat - 48 < 10 := by
  have := UInt8.le_iff_toNat_le.1 h.2
  have e : (0x39 : Byte).toNat = 57 := rfl
  omega

theorem digit_inj {a b : Byte} (ha : Digit a) (hb : Digit b) (h : a.toNat - 48 = b.toNat - 48) : a = b := by
  have h1 := UInt8.le_iff_toNat_le.1 ha.1
  have h2 := UInt8.le_iff_toNat_le.1 hb.1
  have e : (0x30 : Byte).toNat = 48 := rfl
  apply UInt8.toNat_inj.1
  omega

theorem charValue_digit {a : Byte} (h : Digit a) : charValue a = a.toNat - 48 := by
  have := map_charValue (ds := [a]) (by simpa using h)
  simpa using this

/-- **C39** (single errors) of two values that differ in one digit at most one is
accepted, whatever the other characters are. -/
theorem C39_single_error (p q : Bytes) (a b : Byte) (ha : Digit a) (hb : Digit b)
    (h1 : isniOk (p ++ a :: q) = true) (h2 : isniOk (p ++ b :: q) = true) : a = b := by
  obtain ⟨ds, c, e1, l1, c1, w1⟩ := (isniOk_iff _).1 h1
  obtain ⟨ds', c', e2, l2, c2, w2⟩ := (isniOk_iff _).1 h2
  rw [unseparated_append, unseparated_digit ha] at e1
  rw [unseparated_append, unseparated_digit hb] at e2
  generalize unseparated p = p' at *
  generalize unseparated q = q' at *
  rcases q'.eq_nil_or_concat with rfl | ⟨q'', x, rfl⟩
  · obtain ⟨rfl, h3⟩ := List.append_inj' e1 rfl
    obtain ⟨rfl, h4⟩ := List.append_inj' e2 rfl
    simp only [List.cons.injEq, and_true] at h3 h4
    subst h3 h4
    rw [charValue_digit ha] at w1
    rw [charValue_digit hb] at w2
    have := digit_lt ha
    have := digit_lt hb
    exact digit_inj ha hb (by omega)
  · rw [List.concat_eq_append] at e1 e2
    rw [← List.cons_append, ← List.append_assoc] at e1 e2
    obtain ⟨rfl, h3⟩ := List.append_inj' e1 rfl
    obtain ⟨rfl, h4⟩ := List.append_inj' e2 rfl
    simp only [List.cons.injEq, and_true] at h3 h4
    subst h3 h4
    simp only [List.map_append, List.map_cons, weighted_append, weighted, List.length_cons, List.length_map] at w1 w2
    apply digit_inj ha hb
    apply pow_cancel (k := q''.length + 1) (by have := digit_lt ha; omega) (by have := digit_lt hb; omega)
    have e1 : (a.toNat - 48) * 2 ^ (q''.length + 1) = 2 * ((a.toNat - 48) * 2 ^ q''.length) := by
      rw [Nat.pow_succ, ← Nat.mul_assoc, Nat.mul_comm]
    have e2 : (b.toNat - 48) * 2 ^ (q''.length + 1) = 2 * ((b.toNat - 48) * 2 ^ q''.length) := by
      rw [Nat.pow_succ, ← Nat.mul_assoc, Nat.mul_comm]
    rw [e1, e2]
    omega

/-- **C39** (transpositions) of two values that differ by the transposition of two
adjacent digits at most one is accepted. -/
theorem C39_transposition (p q : Bytes) (a b : Byte) (ha : Digit a) (hb : Digit b)
    (h1 : isniOk (p ++ a :: b :: q) = true) (h2 : isniOk (p ++ b :: a :: q) = true) : a = b := by
  obtain ⟨ds, c, e1, l1, c1, w1⟩ := (isniOk_iff _).1 h1
  obtain ⟨ds', c', e2, l2, c2, w2⟩ := (isniOk_iff _).1 h2
  rw [unseparated_append, unseparated_digit ha, unseparated_digit hb] at e1
  rw [unseparated_append, unseparated_digit hb, unseparated_digit ha] at e2
  generalize unseparated p = p' at *
  generalize unseparated q = q' at *
  have hla := digit_lt ha
  have hlb := digit_lt hb
  apply digit_inj ha hb
  rcases q'.eq_nil_or_concat with rfl | ⟨q'', x, rfl⟩
  · rw [show p' ++ [a, b] = (p' ++ [a]) ++ [b] by simp] at e1
    rw [show p' ++ [b, a] = (p' ++ [b]) ++ [a] by simp] at e2
    obtain ⟨rfl, h3⟩ := List.append_inj' e1 rfl
    obtain ⟨rfl, h4⟩ := List.append_inj' e2 rfl
    simp only [List.cons.injEq, and_true] at h3 h4
    subst h3 h4
    rw [charValue_digit hb] at w1
    rw [charValue_digit ha] at w2
    simp only [List.map_append, List.map_cons, List.map_nil, weighted_append, weighted, List.length_cons,
      List.length_nil] at w1 w2
    omega
  · rw [List.concat_eq_append] at e1 e2
    rw [show p' ++ a :: b :: (q'' ++ [x]) = (p' ++ a :: b :: q'') ++ [x] by simp] at e1
    rw [show p' ++ b :: a :: (q'' ++ [x]) = (p' ++ b :: a :: q'') ++ [x] by simp] at e2
    obtain ⟨rfl, h3⟩ := List.append_inj' e1 rfl
    obtain ⟨rfl, h4⟩ := List.append_inj' e2 rfl
    simp only [List.cons.injEq, and_true] at h3 h4
    subst h3 h4
    simp only [List.map_append, List.map_cons, weighted_append, weighted, List.length_cons, List.length_map] at w1 w2
    generalize a.toNat - 48 = m at *
    generalize b.toNat - 48 = n at *
    apply pow_cancel (k := q''.length + 1) (by omega) (by omega)
    have e1 : ∀ m : Nat, m * 2 ^ (q''.length + 1) = 2 * (m * 2 ^ q''.length) := by
      intro m; rw [Nat.pow_succ, ← Nat.mul_assoc, Nat.mul_comm]
    rw [e1, e1] at *
    omega

theorem mod112_digits {s : Bytes} (h : Mod112 s) : ∀ c ∈ s.dropLast, Digit c := by
  obtain ⟨ds, c, he, _, hd, _⟩ := h
  rw [he, List.dropLast_concat]
  exact hd

/-- **C39** is false: letters are taken for digits, so that a number of twelve
digits after the letters `ISNI` is accepted. -/
theorem C39_letters_false : isniOk (bs "ISNI 0000 0001 2103") = true ∧
    ¬ Mod112 (unseparated (bs "ISNI 0000 0001 2103")) := by
  refine ⟨by decide +kernel, fun h => ?_⟩
  exact absurd (mod112_digits h) (by decide +kernel)

/-- **C39** is false: the transposition of a digit and the check character `X` may
not be detected. -/
theorem C39_transposition_false : isniOk (bs "000000012109004X") = true ∧
    isniOk (bs "00000001210900X4") = true := by decide +kernel

/-- **C39** is false: an `X` in place of a `7` is not detected. -/
theorem C39_single_error_false : isniOk (bs "0000 0001 2118 007X") = true ∧
    isniOk (bs "0000 0001 2118 00XX") = true := by decide +kernel

/-- **C39** (rule) the check reports a record iff one of the selected values that
have the prefix is not accepted. -/
theorem C39_rule (C : CheckEnv) (E : Env) (o : Opts) (path : Path) (pre : Option Bytes) (r : Record)
    (vs : List Bytes) (hv : path.values E o r = some vs) :
    ∃ b msg, (Checks.isni E o path pre).check C r = some (.isni E o path pre, b, msg) ∧
      (b = true ↔ ∃ v ∈ vs, match pre with
        | none => isniOk v = false
        | some p => ∃ w, v = p ++ w ∧ isniOk w = false) := by
  refine ⟨(badValues C.lossy (vs.filter (fun v => !isniAccepts pre v))).1,
    (badValues C.lossy (vs.filter (fun v => !isniAccepts pre v))).2, by rw [Checks.check, hv]; rfl, ?_⟩
  have h1 : ∀ l : List Bytes, (badValues C.lossy l).1 = true ↔ l ≠ [] := by
    intro l
    cases l <;> simp [badValues]
  rw [h1, ne_eq, List.filter_eq_nil_iff]
  simp only [Bool.not_eq_eq_eq_not, Bool.not_true, Classical.not_forall, Classical.not_not]
  constructor
  · rintro ⟨v, hv, h⟩
    refine ⟨v, hv, ?_⟩
    cases pre with
    | none => exact h
    | some p =>
      rw [isniAccepts] at h
      split at h
      · rename_i hp
        obtain ⟨w, rfl⟩ := List.isPrefixOf_iff_prefix.1 hp
        rw [List.drop_left] at h
        exact ⟨w, rfl, h⟩
      · simp at h
  · rintro ⟨v, hv, h⟩
    refine ⟨v, hv, ?_⟩
    cases pre with
    | none => exact h
    | some p =>
      obtain ⟨w, rfl, h⟩ := h
      rw [isniAccepts]
      rw [if_pos (List.isPrefixOf_iff_prefix.2 (List.prefix_append p w)), List.drop_left]
      exact h

example : Mod112 (bs "0000000121032683") := by
  refine ⟨bs "000000012103268", 0x33, ?_, ?_, ?_, ?_, ?_⟩ <;> decide +kernel
example : isniOk (bs "0000 0001 2150-090X") = true := by decide +kernel
example : isniOk (bs "0000 0001 2150-0901") = false := by decide +kernel
example : isniAccepts (some (bs "isni:")) (bs "isni:0000 0001 2103 2684") = false := by decide +kernel
example : isniAccepts (some (bs "isni:")) (bs "viaf:1") = true := by decide +kernel

end Pica.Props
