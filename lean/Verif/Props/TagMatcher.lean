import Verif.Lemmas.OccMatcher

/-! C12 (tag patterns), C13 (occurrence selectors). -/

namespace Pica.Props
open Pica Pica.Spec

/-- **C12** an accepted matcher text is a pattern, and the matcher accepts a tag
iff each of its four bytes is in the class denoted at that position. -/
theorem C12_pattern_sound (text : Bytes) (m : TagMatcher) (h : TagMatcher.new text = some m) :
    ∃ S0 S1 S2 S3, PatternText text S0 S1 S2 S3 ∧
      ∀ a b c d, m.isMatch [a, b, c, d] = true ↔ S0 a ∧ S1 b ∧ S2 c ∧ S3 d := by
  obtain ⟨t, S0, S1, S2, S3, he, hp, hd⟩ := pTagMatcher_sound (Parser.parseAll_eq_some.1 h)
  rw [List.append_nil] at he
  subst he
  exact ⟨S0, S1, S2, S3, hp, hd⟩

/-- **C12** every pattern text is accepted, with that meaning. -/
theorem C12_pattern_complete (text : Bytes) (S0 S1 S2 S3 : ByteSet)
    (h : PatternText text S0 S1 S2 S3) :
    ∃ m, TagMatcher.new text = some m ∧
      ∀ a b c d, m.isMatch [a, b, c, d] = true ↔ S0 a ∧ S1 b ∧ S2 c ∧ S3 d := by
  obtain ⟨m, hm, hd⟩ := pTagMatcher_complete h []
  rw [List.append_nil] at hm
  exact ⟨m, Parser.parseAll_eq_some.2 hm, hd⟩

/-- **C12** a literal tag is accepted and matches only itself. -/
theorem C12_literal (t : Bytes) (h : IsTag t) :
    ∃ m, TagMatcher.new t = some m ∧ ∀ t', IsTag t' → (m.isMatch t' = true ↔ t' = t) := by
  obtain ⟨a, b, c, d, rfl, hp⟩ := IsTag.patternText h
  obtain ⟨m, hm, hd⟩ := C12_pattern_complete _ _ _ _ _ hp
  refine ⟨m, hm, ?_⟩
  rintro t' ⟨a', b', c', d', rfl, -⟩
  rw [hd]; simp

example : TagMatcher.new (bs ".0[2-4A]@") = none := by decide +kernel
example : (TagMatcher.new (bs ".0[2-46]@")).map (fun m =>
    (m.isMatch (bs "103@"), m.isMatch (bs "206@"), m.isMatch (bs "105@"))) =
    some (true, true, false) := by decide +kernel

/-- the pattern `.0[2-46]@` and its meaning, from the specification -/
example : ∃ S0 S1 S2 S3, PatternText (bs ".0[2-46]@") S0 S1 S2 S3 ∧ S2 0x33 ∧ ¬ S2 0x35 := by
  refine ⟨A0, (· = 0x30), (fun b => (0x32 ≤ b ∧ b ≤ 0x34) ∨ b = 0x36), (· = 0x40),
    ⟨[0x2E], [0x30], [0x5B] ++ ([0x32, 0x2D, 0x34] ++ [0x36]) ++ [0x5D], [0x40], by decide +kernel,
    ?_, ?_, ?_, ?_⟩, ?_, ?_⟩
  · exact .dot
  · exact .byte 0x30 (by simp [A1])
  · exact .cls (.more (.range 0x32 0x34 (by simp [A1]) (by simp [A1]) (by decide))
      (.one (.single 0x36 (by simp [A1]))))
  · exact .byte 0x40 (by simp [A3])
  · decide
  · decide

/-- **C13** exactly the selector texts are accepted. -/
theorem C13_accepts (text : Bytes) :
    (∃ m, OccMatcher.new text = some m) ↔ ∃ P w, OccSel text P w := by
  constructor
  · rintro ⟨m, h⟩
    obtain ⟨t, P, w, he, hs, _⟩ := pOccMatcher_sound (Parser.parseAll_eq_some.1 h)
    rw [List.append_nil] at he
    subst he
    exact ⟨P, w, hs⟩
  · rintro ⟨P, w, h⟩; exact OccMatcher.new_complete h

/-- **C13** (partial) the accepted selector has the documented meaning, for
occurrences that have as many digits as the bounds of a range.  Missing for the
full statement: ranges applied to occurrences of a different width; there the
statement is false, see `C13_range_false`. -/
theorem C13_selector_partial (text : Bytes) (m : OccMatcher) (h : OccMatcher.new text = some m) :
    ∃ P w, OccSel text P w ∧
      ∀ o, (∀ n, o = some n → IsOccDigits n ∧ ∀ k, w = some k → n.length = k) →
        (m.isMatch o = true ↔ P o) := by
  obtain ⟨t, P, w, he, hs, hm⟩ := pOccMatcher_sound (Parser.parseAll_eq_some.1 h)
  rw [List.append_nil] at he
  subst he
  exact ⟨P, w, hs, hm⟩

/-- `/01-10` is such a selector -/
example : OccSel [0x2F, 0x30, 0x31, 0x2D, 0x31, 0x30]
    (fun o => ∃ n, o = some n ∧ 1 ≤ numVal n ∧ numVal n ≤ 10) (some 2) :=
  OccSel.range [0x30, 0x31] [0x31, 0x30] ⟨by decide, by decide⟩ ⟨by decide, by decide⟩
    (by decide) (by decide)

/-- **C13** without selector: no occurrence or `00`. -/
theorem C13_no_selector (o : Option Bytes) :
    ∃ m, OccMatcher.new [] = some m ∧ (m.isMatch o = true ↔ o = none ∨ o = some [0x30, 0x30]) := by
  refine ⟨.none, by decide, ?_⟩
  cases o <;> simp [OccMatcher.isMatch]

/-- **C13** `/*` matches every field. -/
theorem C13_any (o : Option Bytes) :
    ∃ m, OccMatcher.new [0x2F, 0x2A] = some m ∧ m.isMatch o = true := by
  refine ⟨.any, by decide, ?_⟩
  cases o <;> simp [OccMatcher.isMatch]

/-- **C13** `/n` matches exactly `n` (for `n = 00`: `00` or no occurrence). -/
theorem C13_exact (n : Bytes) (h : IsOccDigits n) (o : Option Bytes) :
    ∃ m, OccMatcher.new (0x2F :: n) = some m ∧
      (m.isMatch o = true ↔ o = some n ∨ (n = [0x30, 0x30] ∧ o = none)) := by
  by_cases h0 : n = [0x30, 0x30]
  · subst h0
    refine ⟨.none, by decide, ?_⟩
    cases o <;> simp [OccMatcher.isMatch]
  · refine ⟨.exact n, ?_, ?_⟩
    · refine Parser.parseAll_eq_some.2 ?_
      unfold pOccMatcher
      refine Parser.alt_eq_some.2 (.inl (Parser.preceded_eq_some.2 ⟨SLASH, n, Parser.byte_cons_self _ _, ?_⟩))
      refine Parser.alt_eq_some.2 (.inr ⟨pOccRange_none_of_exact h, ?_⟩)
      refine Parser.alt_eq_some.2 (.inl (Parser.map_eq_some.2 ⟨n, Parser.verify_eq_some.2 ⟨?_, by simpa using h0⟩, rfl⟩))
      simpa using pOccurrence_complete (r := []) (isOcc_iff.2 h) (by simp)
    · cases o <;> simp [OccMatcher.isMatch, h0]

/-- **C13** the numeric reading of ranges is false of the code: `/01-10` matches
the occurrence `099` and does not match `001`. -/
theorem C13_range_false :
    ∃ m, OccMatcher.new (bs "/01-10") = some m ∧
      m.isMatch (some (bs "099")) = true ∧ ¬ numVal (bs "099") ≤ numVal (bs "10") ∧
      m.isMatch (some (bs "001")) = false ∧ numVal (bs "01") ≤ numVal (bs "001") ∧
      numVal (bs "001") ≤ numVal (bs "10") :=
  ⟨.range (bs "01") (bs "10"), by decide +kernel⟩

end Pica.Props
