import Verif.Lemmas.Reads
import Verif.Lemmas.Record
import Verif.Model.TagMatcher
import Verif.Spec.TagPattern

/-! Tag patterns: the parser implements the pattern language. -/

namespace Pica
open Parser Spec

theorem mem_byteRange {c d b : Byte} : b ∈ byteRange c d ↔ c ≤ b ∧ b ≤ d := by
  unfold byteRange
  rw [List.mem_map, UInt8.le_iff_toNat_le, UInt8.le_iff_toNat_le]
  constructor
  · rintro ⟨k, hk, rfl⟩
    rw [List.mem_range] at hk
    have h1 := d.toNat_lt
    rw [UInt8.toNat_ofNat_of_lt' (by simp [UInt8.size]; omega)]
    omega
  · rintro ⟨h1, h2⟩
    refine ⟨b.toNat - c.toNat, by rw [List.mem_range]; omega, ?_⟩
    have : c.toNat + (b.toNat - c.toNat) = b.toNat := by omega
    rw [this]; simp

theorem separatedPair_eq_some {α β γ} {p : Parser α} {s : Parser β} {q : Parser γ} {i a c r} :
    separatedPair p s q i = some ((a, c), r) ↔
      ∃ r1 b r2, p i = some (a, r1) ∧ s r1 = some (b, r2) ∧ q r2 = some (c, r) := by
  unfold separatedPair
  rw [seq_eq_some]
  constructor
  · rintro ⟨r1, h1, h2⟩
    obtain ⟨b, r2, h3, h4⟩ := preceded_eq_some.1 h2
    exact ⟨r1, b, r2, h1, h3, h4⟩
  · rintro ⟨r1, b, r2, h1, h3, h4⟩
    exact ⟨r1, h1, preceded_eq_some.2 ⟨b, r2, h3, h4⟩⟩

/-- result and text of an item in brackets -/
def ItemRel (al : Bytes) (x : Bytes) (t : Bytes) : Prop :=
  (∃ c, c ∈ al ∧ x = [c] ∧ t = [c]) ∨
  (∃ c d, c ∈ al ∧ d ∈ al ∧ c < d ∧ x = byteRange c d ∧ t = [c, 0x2D, d])

theorem ItemRel.text {al x t} (h : ItemRel al x t) :
    ∃ S, ItemText (· ∈ al) t S ∧ ∀ b, b ∈ x ↔ S b := by
  rcases h with ⟨c, hc, rfl, rfl⟩ | ⟨c, d, hc, hd, hlt, rfl, rfl⟩
  · exact ⟨_, .single c hc, by simp⟩
  · exact ⟨_, .range c d hc hd hlt, fun b => mem_byteRange⟩

theorem ItemText.rel {al t S} (h : ItemText (· ∈ al) t S) :
    ∃ x, ItemRel al x t ∧ ∀ b, b ∈ x ↔ S b := by
  cases h with
  | single c hc => exact ⟨[c], .inl ⟨c, hc, rfl, rfl⟩, by simp⟩
  | range c d hc hd hlt =>
    exact ⟨_, .inr ⟨c, d, hc, hd, hlt, rfl, rfl⟩, fun b => mem_byteRange⟩

theorem pClassItem_sound {al i x r} (h : pClassItem al i = some (x, r)) :
    ∃ t, i = t ++ r ∧ ItemRel al x t := by
  unfold pClassItem at h
  rcases alt_eq_some.1 h with h | ⟨_, h⟩
  · obtain ⟨⟨c, d⟩, hv, rfl⟩ := map_eq_some.1 h
    obtain ⟨hs, hlt⟩ := verify_eq_some.1 hv
    obtain ⟨r1, b, r2, h1, h2, h3⟩ := separatedPair_eq_some.1 hs
    obtain ⟨rfl, hc⟩ := oneOf_eq_some.1 h1
    obtain ⟨rfl, rfl⟩ := byte_eq_some.1 h2
    obtain ⟨rfl, hd⟩ := oneOf_eq_some.1 h3
    refine ⟨[c, 0x2D, d], rfl, .inr ⟨c, d, by simpa using hc, by simpa using hd, by simpa using hlt, rfl, rfl⟩⟩
  · obtain ⟨c, ho, rfl⟩ := map_eq_some.1 h
    obtain ⟨rfl, hc⟩ := oneOf_eq_some.1 ho
    exact ⟨[c], rfl, .inl ⟨c, by simpa using hc, rfl, rfl⟩⟩

/-- what follows an item: not a dash -/
def NoDash (r : Bytes) : Prop := ∀ t, r ≠ 0x2D :: t

theorem pClassItem_complete {al x t} (r : Bytes) (h : ItemRel al x t) (hr : NoDash r) :
    pClassItem al (t ++ r) = some (x, r) := by
  unfold pClassItem
  rcases h with ⟨c, hc, rfl, rfl⟩ | ⟨c, d, hc, hd, hlt, rfl, rfl⟩
  · refine alt_eq_some.2 (.inr ⟨?_, map_eq_some.2 ⟨c, oneOf_eq_some.2 ⟨rfl, by simpa using hc⟩, rfl⟩⟩)
    rw [Option.eq_none_iff_forall_ne_some]
    rintro ⟨x, r'⟩ h
    obtain ⟨⟨c', d⟩, h, -⟩ := map_eq_some.1 h
    obtain ⟨h, -⟩ := verify_eq_some.1 h
    obtain ⟨r1, b, r2, h1, h2, h3⟩ := separatedPair_eq_some.1 h
    obtain ⟨h1, -⟩ := oneOf_eq_some.1 h1
    obtain ⟨rfl, rfl⟩ := byte_eq_some.1 h2
    simp at h1
    exact hr _ h1.2
  · refine alt_eq_some.2 (.inl (map_eq_some.2 ⟨(c, d), verify_eq_some.2 ⟨?_, by simpa using hlt⟩, rfl⟩))
    exact separatedPair_eq_some.2 ⟨0x2D :: d :: r, 0x2D, d :: r,
      oneOf_eq_some.2 ⟨rfl, by simpa using hc⟩, byte_cons_self _ _,
      oneOf_eq_some.2 ⟨rfl, by simpa using hd⟩⟩

theorem classText_of_spells {al : Bytes} {xs t} (hne : xs ≠ []) (h : Spells (ItemRel al) xs t) :
    ∃ S, ClassText (· ∈ al) t S ∧ ∀ b, b ∈ xs.flatten ↔ S b := by
  induction h with
  | nil => exact absurd rfl hne
  | @cons x xs t ts h1 h2 ih =>
    obtain ⟨S, hS, hx⟩ := h1.text
    cases h2 with
    | nil => exact ⟨S, by simpa using ClassText.one hS, by simpa using hx⟩
    | cons h3 h4 =>
      obtain ⟨S', hS', hxs⟩ := ih (by simp)
      refine ⟨_, .more hS hS', ?_⟩
      intro b
      rw [List.flatten_cons, List.mem_append, hx, hxs]

theorem spells_of_classText {al : Bytes} {t S} (h : ClassText (· ∈ al) t S) :
    ∃ xs, xs ≠ [] ∧ Spells (ItemRel al) xs t ∧ ∀ b, b ∈ xs.flatten ↔ S b := by
  induction h with
  | one h =>
    obtain ⟨x, hx, hS⟩ := ItemText.rel h
    refine ⟨[x], by simp, ?_, by simpa using hS⟩
    have := Spells.cons hx Spells.nil
    simpa using this
  | more h _ ih =>
    obtain ⟨x, hx, hS⟩ := ItemText.rel h
    obtain ⟨xs, _, hsp, hS'⟩ := ih
    refine ⟨x :: xs, by simp, .cons hx hsp, ?_⟩
    intro b
    rw [List.flatten_cons, List.mem_append, hS, hS']

theorem pTagFragment_sound {al i p r} (h : pTagFragment al i = some (p, r)) :
    ∃ t S, PosText (· ∈ al) t S ∧ i = t ++ r ∧ ∀ b, b ∈ p ↔ S b := by
  unfold pTagFragment at h
  rcases alt_eq_some.1 h with h | ⟨_, h⟩
  · obtain ⟨c, ho, rfl⟩ := map_eq_some.1 h
    obtain ⟨rfl, hc⟩ := oneOf_eq_some.1 ho
    exact ⟨[c], _, .byte c (by simpa using hc), rfl, by simp⟩
  · rcases alt_eq_some.1 h with h | ⟨_, h⟩
    · obtain ⟨rfl, c, hb⟩ := value_eq_some.1 h
      obtain ⟨rfl, rfl⟩ := byte_eq_some.1 hb
      exact ⟨[0x2E], _, .dot, rfl, fun b => Iff.rfl⟩
    · obtain ⟨a, r1, c, r2, h1, h2, h3⟩ := delimited_eq_some.1 h
      obtain ⟨rfl, rfl⟩ := byte_eq_some.1 h1
      obtain ⟨rfl, rfl⟩ := byte_eq_some.1 h3
      obtain ⟨xs, h4, rfl⟩ := map_eq_some.1 h2
      obtain ⟨t, rfl, hne, hsp⟩ := repeat1_spells (fun _ _ _ h => pClassItem_sound h) h4
      obtain ⟨S, hS, hmem⟩ := classText_of_spells hne hsp
      exact ⟨_, S, .cls hS, by simp, hmem⟩

/-- bytes with a special meaning -/
def NoSpecial (al : Bytes) : Prop := 0x2E ∉ al ∧ 0x5B ∉ al ∧ 0x5D ∉ al ∧ 0x2D ∉ al

theorem pTagFragment_complete {al t S} (hal : NoSpecial al) (h : PosText (· ∈ al) t S) :
    ∃ p, (∀ r, pTagFragment al (t ++ r) = some (p, r)) ∧ ∀ b, b ∈ p ↔ S b := by
  obtain ⟨h1, h2, h3, h4⟩ := hal
  unfold pTagFragment
  cases h with
  | byte c hc =>
    exact ⟨[c], fun r => alt_eq_some.2 (.inl (map_eq_some.2 ⟨c, oneOf_eq_some.2 ⟨rfl, by simpa using hc⟩, rfl⟩)),
      by simp⟩
  | dot =>
    refine ⟨al, fun r => alt_eq_some.2 (.inr ⟨?_, alt_eq_some.2 (.inl (value_eq_some.2 ⟨rfl, 0x2E, by simp [byte, oneOf]⟩))⟩),
      by simp⟩
    simp [map, oneOf, h1]
  | @cls t S hc =>
    obtain ⟨xs, hne, hsp, hmem⟩ := spells_of_classText hc
    refine ⟨xs.flatten, fun r => alt_eq_some.2 (.inr ⟨?_, alt_eq_some.2 (.inr ⟨?_, ?_⟩)⟩), hmem⟩
    · simp [map, oneOf, h2]
    · simp [value, map, byte, oneOf]
    · refine delimited_eq_some.2 ⟨0x5B, t ++ 0x5D :: r, 0x5D, 0x5D :: r, ?_, ?_, byte_cons_self _ _⟩
      · simp [byte, oneOf]
      · refine map_eq_some.2 ⟨xs, ?_, rfl⟩
        refine repeat1_of_spells NoDash (fun a t r hR hF => pClassItem_complete r hR hF) ?_ ?_ ?_ ?_ hne hsp
        · rintro a t r (⟨c, hc, _, rfl⟩ | ⟨c, d, hc, _, _, _, rfl⟩) t' heq <;>
          · simp at heq; rw [heq.1] at hc; exact h4 hc
        · rintro a t (⟨c, hc, _, rfl⟩ | ⟨c, d, hc, _, _, _, rfl⟩) <;> simp
        · intro t' h; simp at h
        · simp [pClassItem, alt, map, verify, separatedPair, seq, oneOf, h3]

theorem mem_allowed0 : (· ∈ allowed0) = A0 := by
  funext b; simp [allowed0, A0]

theorem mem_allowedDigit : (· ∈ allowedDigit) = A1 := by
  funext b
  apply propext
  have h : ∀ n : Fin 256, (UInt8.ofFin n ∈ allowedDigit) ↔ (0x30 ≤ UInt8.ofFin n ∧ UInt8.ofFin n ≤ 0x39) := by
    decide +kernel
  have := h b.toFin
  simpa [A1] using this

theorem mem_allowed3 : (· ∈ allowed3) = A3 := by
  funext b
  apply propext
  have h : ∀ n : Fin 256, (UInt8.ofFin n ∈ allowed3) ↔
      ((0x41 ≤ UInt8.ofFin n ∧ UInt8.ofFin n ≤ 0x5A) ∨ UInt8.ofFin n = 0x40) := by
    decide +kernel
  have := h b.toFin
  simpa [A3] using this

theorem noSpecial0 : NoSpecial allowed0 := by unfold NoSpecial; decide
theorem noSpecialDigit : NoSpecial allowedDigit := by unfold NoSpecial; decide
theorem noSpecial3 : NoSpecial allowed3 := by unfold NoSpecial; decide +kernel

/-- the set of tags a matcher accepts is described by `S0 × S1 × S2 × S3` -/
def Denotes (m : TagMatcher) (S0 S1 S2 S3 : ByteSet) : Prop :=
  ∀ a b c d, m.isMatch [a, b, c, d] = true ↔ S0 a ∧ S1 b ∧ S2 c ∧ S3 d

theorem pTagPattern_sound {i m r} (h : pTagPattern i = some (m, r)) :
    ∃ t S0 S1 S2 S3, i = t ++ r ∧ PatternText t S0 S1 S2 S3 ∧ Denotes m S0 S1 S2 S3 := by
  unfold pTagPattern at h
  obtain ⟨⟨⟨p0, p1, p2, p3⟩, raw⟩, h0, rfl⟩ := map_eq_some.1 h
  obtain ⟨r1, h1, h0⟩ := seq_eq_some.1 (withTaken_eq_some.1 h0).1
  obtain ⟨r2, h2, h0⟩ := seq_eq_some.1 h0
  obtain ⟨r3, h3, h4⟩ := seq_eq_some.1 h0
  obtain ⟨t0, S0, hS0, rfl, hm0⟩ := pTagFragment_sound h1
  obtain ⟨t1, S1, hS1, rfl, hm1⟩ := pTagFragment_sound h2
  obtain ⟨t2, S2, hS2, rfl, hm2⟩ := pTagFragment_sound h3
  obtain ⟨t3, S3, hS3, rfl, hm3⟩ := pTagFragment_sound h4
  rw [mem_allowed0] at hS0
  rw [mem_allowedDigit] at hS1 hS2
  rw [mem_allowed3] at hS3
  refine ⟨t0 ++ t1 ++ t2 ++ t3, S0, S1, S2, S3, by simp, ⟨t0, t1, t2, t3, rfl, hS0, hS1, hS2, hS3⟩, ?_⟩
  intro a b c d
  simp [TagMatcher.isMatch, inClass, hm0, hm1, hm2, hm3, and_assoc]

theorem pTagPattern_complete {t S0 S1 S2 S3} (h : PatternText t S0 S1 S2 S3) :
    ∃ m, (∀ r, pTagPattern (t ++ r) = some (m, r)) ∧ Denotes m S0 S1 S2 S3 := by
  obtain ⟨t0, t1, t2, t3, rfl, h0, h1, h2, h3⟩ := h
  rw [← mem_allowed0] at h0
  rw [← mem_allowedDigit] at h1 h2
  rw [← mem_allowed3] at h3
  obtain ⟨p0, e0, m0⟩ := pTagFragment_complete noSpecial0 h0
  obtain ⟨p1, e1, m1⟩ := pTagFragment_complete noSpecialDigit h1
  obtain ⟨p2, e2, m2⟩ := pTagFragment_complete noSpecialDigit h2
  obtain ⟨p3, e3, m3⟩ := pTagFragment_complete noSpecial3 h3
  refine ⟨.pattern p0 p1 p2 p3 (t0 ++ t1 ++ t2 ++ t3), fun r => ?_, ?_⟩
  · unfold pTagPattern
    refine map_eq_some.2 ⟨((p0, p1, p2, p3), t0 ++ t1 ++ t2 ++ t3), withTaken_run ?_ rfl, rfl⟩
    refine seq_eq_some.2 ⟨_, by simpa using e0 (t1 ++ (t2 ++ (t3 ++ r))), ?_⟩
    refine seq_eq_some.2 ⟨_, e1 _, ?_⟩
    exact seq_eq_some.2 ⟨_, e2 _, e3 _⟩
  · intro a b c d
    simp [TagMatcher.isMatch, inClass, m0, m1, m2, m3, and_assoc]

/-- a literal tag is a pattern -/
theorem IsTag.patternText {t : Bytes} (h : IsTag t) :
    ∃ a b c d, t = [a, b, c, d] ∧
      PatternText t (· = a) (· = b) (· = c) (· = d) := by
  obtain ⟨a, b, c, d, rfl, ha, hb, hc, hd⟩ := h
  exact ⟨a, b, c, d, rfl, [a], [b], [c], [d], rfl, .byte a ha, .byte b hb, .byte c hc, .byte d hd⟩

theorem tag_isMatch_iff {a b c d a' b' c' d' : Byte} :
    (TagMatcher.tag [a, b, c, d]).isMatch [a', b', c', d'] = true ↔
      a' = a ∧ b' = b ∧ c' = c ∧ d' = d := by
  simp only [TagMatcher.isMatch, beq_iff_eq, List.cons.injEq, and_true]
  constructor <;> (rintro ⟨rfl, rfl, rfl, rfl⟩; exact ⟨rfl, rfl, rfl, rfl⟩)

theorem pTagMatcher_sound {i m r} (h : pTagMatcher i = some (m, r)) :
    ∃ t S0 S1 S2 S3, i = t ++ r ∧ PatternText t S0 S1 S2 S3 ∧ Denotes m S0 S1 S2 S3 := by
  unfold pTagMatcher at h
  rcases alt_eq_some.1 h with h | ⟨_, h⟩
  · obtain ⟨t, h', rfl⟩ := map_eq_some.1 h
    obtain ⟨ht, rfl⟩ := pTag_eq_some.1 h'
    obtain ⟨a, b, c, d, rfl, hp⟩ := IsTag.patternText ht
    refine ⟨_, _, _, _, _, rfl, hp, ?_⟩
    intro a' b' c' d'
    exact tag_isMatch_iff
  · exact pTagPattern_sound h

/-- patterns of different length: if a tag is a prefix, it is the pattern -/
theorem PosText.head {A : ByteSet} {t S} (h : PosText A t S) :
    (∃ c, A c ∧ t = [c] ∧ S = (· = c)) ∨ (∃ c t', ¬ A c ∧ t = c :: t') ∨
      A 0x2E ∨ A 0x5B := by
  cases h with
  | byte c hc => exact .inl ⟨c, hc, rfl, rfl⟩
  | dot =>
    by_cases h : A 0x2E
    · exact .inr (.inr (.inl h))
    · exact .inr (.inl ⟨_, [], h, rfl⟩)
  | cls _ =>
    by_cases h : A 0x5B
    · exact .inr (.inr (.inr h))
    · exact .inr (.inl ⟨_, _, h, rfl⟩)

theorem posText_cases {al : Bytes} (hal : NoSpecial al) {t S c r} (h : PosText (· ∈ al) t S)
    (hc : c ∈ al) {r' : Bytes} (he : t ++ r' = c :: r) : t = [c] ∧ S = (· = c) ∧ r' = r := by
  rcases PosText.head h with ⟨c', _, rfl, rfl⟩ | ⟨c', t', hn, rfl⟩ | h' | h'
  · simp at he; obtain ⟨rfl, rfl⟩ := he; simp
  · simp at he; obtain ⟨rfl, _⟩ := he; exact absurd hc hn
  · exact absurd h' hal.1
  · exact absurd h' hal.2.1

theorem pTagMatcher_complete {t S0 S1 S2 S3} (h : PatternText t S0 S1 S2 S3) (r : Bytes) :
    ∃ m, pTagMatcher (t ++ r) = some (m, r) ∧ Denotes m S0 S1 S2 S3 := by
  unfold pTagMatcher
  cases ht : pTag (t ++ r) with
  | none =>
    obtain ⟨m, hm, hD⟩ := pTagPattern_complete h
    exact ⟨m, alt_eq_some.2 (.inr ⟨by simp [map, ht], hm r⟩), hD⟩
  | some x =>
    obtain ⟨t', r'⟩ := x
    obtain ⟨⟨a, b, c, d, rfl, ha, hb, hc, hd⟩, he⟩ := pTag_eq_some.1 ht
    obtain ⟨t0, t1, t2, t3, rfl, h0, h1, h2, h3⟩ := h
    rw [← mem_allowed0] at h0
    rw [← mem_allowedDigit] at h1 h2
    rw [← mem_allowed3] at h3
    have ha' : a ∈ allowed0 := by have := congrFun mem_allowed0 a; rw [this]; exact ha
    have hb' : b ∈ allowedDigit := by have := congrFun mem_allowedDigit b; rw [this]; exact hb
    have hc' : c ∈ allowedDigit := by have := congrFun mem_allowedDigit c; rw [this]; exact hc
    have hd' : d ∈ allowed3 := by have := congrFun mem_allowed3 d; rw [this]; exact hd
    simp only [List.append_assoc, List.cons_append, List.nil_append] at he
    obtain ⟨rfl, rfl, he⟩ := posText_cases noSpecial0 h0 ha' he
    obtain ⟨rfl, rfl, he⟩ := posText_cases noSpecialDigit h1 hb' he
    obtain ⟨rfl, rfl, he⟩ := posText_cases noSpecialDigit h2 hc' he
    obtain ⟨rfl, rfl, he⟩ := posText_cases noSpecial3 h3 hd' he
    subst he
    refine ⟨.tag [a, b, c, d], alt_eq_some.2 (.inl (map_eq_some.2 ⟨_, ht, rfl⟩)), ?_⟩
    intro a' b' c' d'
    exact tag_isMatch_iff

end Pica
