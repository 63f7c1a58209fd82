import Verif.Lemmas.Trim
import Verif.Props.Lossy
import Verif.Props.Predicates
import Verif.Props.Parts
import Verif.Model.Csv
import Verif.Model.Format

/-! # C89: white space around the components of lists -/

namespace Pica.Props
open Pica Spec

theorem textBytes_inj {a b : List Char} (h : textBytes a = textBytes b) : a = b := by
  have := congrArg utf8Chars h
  unfold textBytes at this
  rw [utf8Chars_encode, utf8Chars_encode] at this
  exact List.map_injective_iff.2 (fun _ _ h => encodeChar_inj h) this

/-- **C89** of a text, `trim` leaves the part between the white space at both ends, and nothing else fits
this description. -/
theorem C89_text (cs t : List Char) : trimText (textBytes cs) = textBytes t ↔ TrimmedText cs t := by
  rw [trimText_text, trimmed_iff]
  exact ⟨fun h => (textBytes_inj h).symm, fun h => by rw [h]⟩

/-- **C89** of any byte string, encoded white space is removed at both ends until there is none. -/
theorem C89_bytes (b : Bytes) : ∃ x y : List Char, (∀ c ∈ x, IsWhite c) ∧ (∀ c ∈ y, IsWhite c) ∧
    b = textBytes x ++ trimText b ++ textBytes y ∧
    ∀ c, IsWhite c → ¬ String.utf8EncodeChar c <+: trimText b ∧ ¬ String.utf8EncodeChar c <:+ trimText b := by
  have chars : ∀ a : List Bytes, (∀ w ∈ a, w ∈ whiteSpaces) → ∃ x, (∀ c ∈ x, IsWhite c) ∧ a.flatten = textBytes x := by
    intro a
    induction a with
    | nil => intro _; exact ⟨[], by simp, rfl⟩
    | cons w a ih =>
      intro h
      obtain ⟨c, hc, rfl⟩ := whiteSpaces_char (h w (by simp))
      obtain ⟨x, hx, e⟩ := ih (fun w hw => h w (by simp [hw]))
      refine ⟨c :: x, fun d hd => ?_, by rw [List.flatten_cons, e, textBytes_cons]⟩
      rcases List.mem_cons.1 hd with rfl | hd
      · exact hc
      · exact hx d hd
  obtain ⟨⟨a, ha, e1⟩, h1⟩ := stripLoop_spec whiteSpaces whiteSpaces_ne b.length b (Nat.le_refl _)
  obtain ⟨⟨d, hd, e2⟩, h2⟩ := stripLoop_spec (whiteSpaces.map List.reverse) whiteSpaces_rev_ne (trimStart b).length
    (trimStart b).reverse (by simp)
  obtain ⟨x, hx, ex⟩ := chars a ha
  obtain ⟨y, hy, ey⟩ := chars (d.map List.reverse).reverse (by
    intro w hw
    obtain ⟨v, hv, rfl⟩ := List.mem_map.1 (List.mem_reverse.1 hw)
    obtain ⟨u, hu, rfl⟩ := List.mem_map.1 (hd v hv)
    rwa [List.reverse_reverse])
  have e3 : trimStart b = trimText b ++ textBytes y := by
    have := congrArg List.reverse e2
    rw [List.reverse_reverse, List.reverse_append, List.reverse_flatten] at this
    rw [← ey]
    exact this
  refine ⟨x, y, hx, hy, ?_, fun c hc => ⟨fun hp => ?_, fun hs => ?_⟩⟩
  · rw [List.append_assoc, ← e3, ← ex]
    exact e1
  · exact h1 _ ((white_iff c).1 hc) (hp.trans (by rw [show stripLoop whiteSpaces b.length b = trimStart b from rfl, e3]; exact List.prefix_append _ _))
  · refine h2 _ (List.mem_map.2 ⟨_, (white_iff c).1 hc, rfl⟩) ?_
    have : (trimText b).reverse = stripLoop (whiteSpaces.map List.reverse) (trimStart b).length (trimStart b).reverse := by
      unfold trimText trimEnd
      rw [List.reverse_reverse]
    rw [← this]
    exact List.reverse_prefix.2 hs

theorem stripLoop_fix {ws : List Bytes} {b : Bytes} (h : ∀ w ∈ ws, ¬ w <+: b) (n : Nat) : stripLoop ws n b = b := by
  cases n with
  | zero => rfl
  | succ n =>
    rw [stripLoop]
    have : ws.find? (fun w => w.isPrefixOf b) = none := by
      rw [List.find?_eq_none]
      intro w hw hp
      rw [List.isPrefixOf_iff_prefix] at hp
      exact h w hw hp
    rw [this]

theorem trimText_fix {b : Bytes} (h : ∀ w ∈ whiteSpaces, ¬ w <+: b ∧ ¬ w <:+ b) : trimText b = b := by
  have e : trimStart b = b := stripLoop_fix (fun w hw => (h w hw).1) _
  unfold trimText
  rw [e]
  unfold trimEnd
  rw [stripLoop_fix, List.reverse_reverse]
  intro w hw hp
  obtain ⟨v, hv, rfl⟩ := List.mem_map.1 hw
  exact (h v hv).2 (List.reverse_prefix.1 hp)

/-- **C89** trimming again changes nothing. -/
theorem C89_again (b : Bytes) : trimText (trimText b) = trimText b := by
  obtain ⟨_, _, _, _, _, h⟩ := C89_bytes b
  refine trimText_fix (fun w hw => ?_)
  obtain ⟨c, hc, rfl⟩ := whiteSpaces_char hw
  exact h c hc

theorem trimChars_pad (a p b : List Char) (ha : ∀ c ∈ a, IsWhite c) (hb : ∀ c ∈ b, IsWhite c) :
    trimChars (a ++ p ++ b) = trimChars p := by
  obtain ⟨⟨x, y, e, hx, hy⟩, h1, h2⟩ := (trimmed_iff p _).2 rfl
  refine ((trimmed_iff _ _).1 ⟨⟨a ++ x, y ++ b, ?_, ?_, ?_⟩, h1, h2⟩).symm
  · conv => lhs; rw [e]
    simp
  · intro c hc
    rcases List.mem_append.1 hc with hc | hc
    · exact ha c hc
    · exact hx c hc
  · intro c hc
    rcases List.mem_append.1 hc with hc | hc
    · exact hy c hc
    · exact hb c hc

/-- a component with white space before and behind it -/
structure Padded3 where
  before : List Char
  part : List Char
  behind : List Char

/-- the component as it is written -/
def Padded3.written (x : Padded3) : Bytes := textBytes (x.before ++ x.part ++ x.behind)

/-- only white space has been added, and the component has no comma -/
def Padded3.Ok (x : Padded3) : Prop :=
  (∀ c ∈ x.before, IsWhite c) ∧ (∀ c ∈ x.behind, IsWhite c) ∧ ∀ c ∈ x.part, c.toNat ≠ 0x2C

theorem enc_no_comma {c : Char} (h : c.toNat ≠ 0x2C) : (0x2C : Byte) ∉ String.utf8EncodeChar c := by
  intro hm
  rcases encShape_ascii (encShape_char c) with ⟨b0, he, hlt⟩ | hn
  · rw [he, List.mem_singleton] at hm
    subst hm
    have : String.utf8EncodeChar c = String.utf8EncodeChar (Char.ofNat 0x2C) := by rw [he]; decide
    rw [encodeChar_inj this] at h
    exact h (by decide)
  · exact hn _ hm (by decide)

theorem text_no_comma {cs : List Char} (h : ∀ c ∈ cs, c.toNat ≠ 0x2C) : (0x2C : Byte) ∉ textBytes cs := by
  intro hm
  obtain ⟨c, hc, hm⟩ := List.mem_flatMap.1 hm
  exact enc_no_comma (h c hc) hm

theorem white_no_comma {c : Char} (h : IsWhite c) : c.toNat ≠ 0x2C := by
  intro hc
  unfold IsWhite at h
  omega

/-- **C89** the components of a list are the same with and without white space around them. -/
theorem C89_components (xs : List Padded3) (hne : xs ≠ []) (h : ∀ x ∈ xs, x.Ok) :
    (splitComma (joinText [0x2C] (xs.map Padded3.written))).map trimText =
      (splitComma (joinText [0x2C] (xs.map (fun x => textBytes x.part)))).map trimText := by
  have p1 : Parts (joinText [0x2C] (xs.map Padded3.written)) (xs.map Padded3.written) := by
    refine ⟨by simpa using hne, rfl, fun p hp => ?_⟩
    obtain ⟨x, hx, rfl⟩ := List.mem_map.1 hp
    obtain ⟨h1, h2, h3⟩ := h x hx
    refine text_no_comma (fun c hc => ?_)
    rcases List.mem_append.1 hc with hc | hc
    · rcases List.mem_append.1 hc with hc | hc
      · exact white_no_comma (h1 c hc)
      · exact h3 c hc
    · exact white_no_comma (h2 c hc)
  have p2 : Parts (joinText [0x2C] (xs.map (fun x => textBytes x.part))) (xs.map (fun x => textBytes x.part)) := by
    refine ⟨by simpa using hne, rfl, fun p hp => ?_⟩
    obtain ⟨x, hx, rfl⟩ := List.mem_map.1 hp
    exact text_no_comma (h x hx).2.2
  rw [← parts_unique p1, ← parts_unique p2, List.map_map, List.map_map]
  refine List.map_congr_left (fun x hx => ?_)
  obtain ⟨h1, h2, -⟩ := h x hx
  show trimText (textBytes _) = trimText (textBytes _)
  rw [trimText_text, trimText_text, trimChars_pad _ _ _ h1 h2]

/-- **C89** so are the predicates of `--keep` and `--discard`, the header of a table, and the rules
selected by their tags. -/
theorem C89_lists (xs : List Padded3) (hne : xs ≠ []) (h : ∀ x ∈ xs, x.Ok) :
    parsePredicates trimText (joinText [0x2C] (xs.map Padded3.written)) =
      parsePredicates trimText (joinText [0x2C] (xs.map (fun x => textBytes x.part))) ∧
    headerRow trimText (joinText [0x2C] (xs.map Padded3.written)) =
      headerRow trimText (joinText [0x2C] (xs.map (fun x => textBytes x.part))) ∧
    ∀ (c : CheckCmd) (r : CheckRule), c.C.trim = trimText →
      ({ c with tags := some (joinText [0x2C] (xs.map Padded3.written)) } : CheckCmd).keeps r =
        ({ c with tags := some (joinText [0x2C] (xs.map (fun x => textBytes x.part))) } : CheckCmd).keeps r := by
  have e := C89_components xs hne h
  refine ⟨by rw [parsePredicates, parsePredicates, e], e, fun c r hc => ?_⟩
  unfold CheckCmd.keeps
  simp only [hc, e]

theorem plain_fix {b : Bytes} (h : ∀ x ∈ b, 0x21 ≤ x ∧ x < 0x80) : trimText b = b := by
  have hw : ∀ w ∈ whiteSpaces, ∃ x ∈ w, ¬ (0x21 ≤ x ∧ x < 0x80) := by decide
  refine trimText_fix (fun w hm => ?_)
  obtain ⟨x, hx, hn⟩ := hw w hm
  exact ⟨fun hp => hn (h x (hp.subset hx)), fun hs => hn (h x (hs.subset hx))⟩

theorem isTag_plain {t : Bytes} (h : IsTag t) : ∀ x ∈ t, 0x2D ≤ x ∧ x < 0x80 := by
  intro x hx
  refine ⟨?_, isTag_ascii h x hx⟩
  obtain ⟨a, b, c, d, rfl, ha, hb, hc, hd⟩ := h
  simp only [List.mem_cons, List.not_mem_nil, or_false] at hx
  rcases hx with rfl | rfl | rfl | rfl
  · rcases ha with rfl | rfl | rfl <;> decide
  · exact UInt8.le_trans (by decide) hb.1
  · exact UInt8.le_trans (by decide) hc.1
  · rcases hd with hd | rfl
    · exact UInt8.le_trans (by decide) hd.1
    · decide

/-- **C89** the printed tag and occurrence of a field address the fields with this tag and this
occurrence, with any white space around them. -/
theorem C89_printed (f : Field) (hf : IsField f) (a b : List Char) (ha : ∀ c ∈ a, IsWhite c)
    (hb : ∀ c ∈ b, IsWhite c) :
    ∃ p, parsePredicates trimText (textBytes a ++ (Tag.display lossyText f.tag ++
        (match f.occ with | some o => Occurrence.display lossyText o | none => [])) ++ textBytes b) = some [p] ∧
      ∀ g, IsField g → (ByteRecord.keepPred [p] g = true ↔
        g.tag = f.tag ∧ (g.occ = f.occ ∨
          ((f.occ = none ∨ f.occ = some (bs "00")) ∧ (g.occ = none ∨ g.occ = some (bs "00"))))) := by
  have hl := C88_assumptions.2.1
  have hp : ∀ x ∈ f.tag ++ (match f.occ with | some o => Occurrence.display lossyText o | none => []),
      0x2D ≤ x ∧ x < 0x80 := by
    intro x hx
    rcases List.mem_append.1 hx with hx | hx
    · exact isTag_plain hf.1 x hx
    · cases ho : f.occ with
      | none => rw [ho] at hx; simp at hx
      | some o =>
        rw [ho] at hx
        have hio := hf.2.1 o ho
        have hdo : Occurrence.display lossyText o = 0x2F :: o := by
          unfold Occurrence.display; rw [hl o (isOcc_ascii hio), bs_slash_eq]; rfl
        dsimp only at hx
        rw [hdo] at hx
        rcases List.mem_cons.1 hx with rfl | hx
        · decide
        · exact ⟨UInt8.le_trans (by decide) (hio.2 x hx).1, isOcc_ascii hio x hx⟩
  obtain ⟨p, hp1, hp2⟩ := C85_predicate lossyText trimText hl f hf 
    (plain_fix (fun x hx => ⟨UInt8.le_trans (by decide) (hp x hx).1, (hp x hx).2⟩))
  refine ⟨p, ?_, hp2⟩
  rw [← hp1, show Tag.display lossyText f.tag = f.tag from hl _ (isTag_ascii hf.1)]
  generalize f.tag ++ (match f.occ with | some o => Occurrence.display lossyText o | none => []) = t at hp
  obtain ⟨cs, rfl⟩ : ∃ cs, t = textBytes cs := isUtf8_of_valid t (utf8Valid_ascii (fun x hx => (hp x hx).2))
  have := (C89_lists [⟨a, cs, b⟩] (by simp) (by
    intro x hx
    rw [List.mem_singleton.1 hx]
    refine ⟨ha, hb, fun c hc e => ?_⟩
    have hm : (0x2C : Byte) ∈ textBytes cs := List.mem_flatMap.2 ⟨c, hc, by
      have : c = Char.ofNat 0x2C := Char.ext (UInt32.toNat_inj.1 e)
      rw [this]; decide⟩
    exact absurd (hp _ hm).1 (by decide))).1
  simpa [joinText, Padded3.written, textBytes] using this

/-- **C89** a value of a format with the modifier `trim` has no white space at its ends, also if the mark
`@` has been taken away at one of them. -/
theorem C89_format (E : FmtEnv) (hE : E.trim = trimText) (m : Modifier) (ht : m.trim = true)
    (hw : m.removeWs = false) (hl : m.lowercase = false) (hu : m.uppercase = false) (v : Bytes) (c : Char)
    (hc : IsWhite c) :
    ¬ String.utf8EncodeChar c <+: m.modify E v ∧ ¬ String.utf8EncodeChar c <:+ m.modify E v := by
  obtain ⟨_, _, _, _, _, h⟩ := C89_bytes (if m.strip then stripOverread v else v)
  unfold Modifier.modify
  rw [ht, hw, hl, hu, hE]
  exact h c hc

/-! ## Examples -/

/-- a no-break space before the first component, a tab and an ideographic space behind it -/
def padSample : List Padded3 :=
  [⟨[Char.ofNat 0xA0], "003@".toList, [Char.ofNat 9, Char.ofNat 0x3000]⟩, ⟨[' '], "012A/01".toList, []⟩]

example : padSample ≠ [] ∧ ∀ x ∈ padSample, x.Ok := by
  refine ⟨by simp [padSample], fun x hx => ?_⟩
  simp only [padSample, List.mem_cons, List.not_mem_nil, or_false] at hx
  rcases hx with rfl | rfl <;> refine ⟨?_, ?_, ?_⟩ <;> (try unfold IsWhite) <;> decide +kernel

example : (parsePredicates trimText (joinText [0x2C] (padSample.map Padded3.written))).map List.length = some 2 := by
  decide +kernel

/-- a text of white space has no characters left; `U+200B` is no white space -/
example : trimText (textBytes [' ', Char.ofNat 0x2003]) = [] ∧
    trimText (textBytes [' ', Char.ofNat 0x200B, ' ']) = textBytes [Char.ofNat 0x200B] := by decide +kernel

/-- a byte string that is no text -/
example : trimText [0x20, 0xFF, 0x20, 0x85, 0xC2, 0x85] = [0xFF, 0x20, 0x85] := by decide +kernel

end Pica.Props
