import Verif.Lemmas.Lossy
import Verif.Props.Json
import Verif.Props.Concat
import Verif.Props.Place
import Verif.Props.Parts
import Verif.Props.Checks
import Verif.Props.Partition

/-! # C88: byte strings as text -/

namespace Pica.Props
open Pica Spec

theorem utf8Step_pos (b0 : Byte) (r : Bytes) : 1 ≤ (utf8Step b0 r).1 := by
  rcases utf8Step_cases b0 r with ⟨_, h, _⟩ | ⟨_, h, _⟩
  · have := encShape_ne h
    apply Classical.byContradiction
    intro hn
    exact this (by rw [show (utf8Step b0 r).1 = 0 by omega]; rfl)
  · exact h

theorem lossyLoop_fuel : ∀ (n m : Nat) (b : Bytes), b.length ≤ n → b.length ≤ m → lossyLoop n b = lossyLoop m b := by
  intro n
  induction n with
  | zero =>
    intro m b hn _
    have : b = [] := List.length_eq_zero_iff.1 (by omega)
    subst this
    cases m <;> rfl
  | succ n ih =>
    intro m b hn hm
    cases b with
    | nil => cases m <;> rfl
    | cons b0 r =>
      obtain ⟨m, rfl⟩ : ∃ k, m = k + 1 := ⟨m - 1, by simp at hm; omega⟩
      have := utf8Step_pos b0 r
      simp only [lossyLoop]
      rw [ih m _ (by simp at hn ⊢; omega) (by simp at hm ⊢; omega)]

theorem lossyText_cons (b0 : Byte) (r : Bytes) : lossyText (b0 :: r) =
    (if (utf8Step b0 r).2 then (b0 :: r).take (utf8Step b0 r).1 else fffd) ++
      lossyText ((b0 :: r).drop (utf8Step b0 r).1) := by
  have := utf8Step_pos b0 r
  show lossyLoop (r.length + 1) (b0 :: r) = _
  simp only [lossyLoop]
  rw [lossyText, lossyLoop_fuel r.length _ _ (by simp; omega) (Nat.le_refl _)]

theorem lossyText_char {e : Bytes} (he : EncShape e) (b : Bytes) : lossyText (e ++ b) = e ++ lossyText b := by
  obtain ⟨b0, r, hr⟩ : ∃ b0 r, e ++ b = b0 :: r := by
    cases h : e ++ b with
    | nil => exact absurd (List.append_eq_nil_iff.1 h).1 (encShape_ne he)
    | cons b0 r => exact ⟨b0, r, rfl⟩
  have hs := utf8Step_shape he hr.symm
  rw [hr, lossyText_cons, hs, ← hr]
  simp

theorem lossyText_bad {m b : Bytes} (h : MaximalSubpart m b) : lossyText (m ++ b) = fffd ++ lossyText b := by
  obtain ⟨b0, r, hr⟩ : ∃ b0 r, m ++ b = b0 :: r := by
    cases h' : m ++ b with
    | nil => exact absurd (List.append_eq_nil_iff.1 h').1 h.begin_.1
    | cons b0 r => exact ⟨b0, r, rfl⟩
  rw [hr, lossyText_cons]
  rcases utf8Step_cases b0 r with ⟨_, he, _⟩ | ⟨h2, h3, h4, h5⟩
  · exfalso
    obtain ⟨c, hc⟩ := char_encShape he
    exact h.noChar c (by rw [hc, hr]; exact List.take_prefix _ _)
  · have hk : (utf8Step b0 r).1 = m.length := by
      apply Nat.le_antisymm
      · rcases h5 with h5 | ⟨e, he, hp⟩
        · rw [h5]
          exact List.length_pos_iff.2 h.begin_.1
        · obtain ⟨c, hc⟩ := char_encShape he
          have := h.longest ((b0 :: r).take (utf8Step b0 r).1) (by rw [hr]; exact List.take_prefix _ _)
            ⟨c, by rw [hc]; exact hp⟩
          rwa [List.length_take, Nat.min_eq_left h4] at this
      · rcases h.begin_.2 with ⟨c, hc⟩ | h1
        · exact utf8Step_longest (encShape_char c) hc hr.symm
        · omega
    rw [h2, hk, ← hr]
    simp

/-- **C88** the text of a byte string is what the Unicode standard says. -/
theorem C88_text (b t : Bytes) : TextOf b t ↔ t = lossyText b := by
  constructor
  · intro h
    induction h with
    | nil => rfl
    | char c b t _ ih => rw [lossyText_char (encShape_char c), ih]
    | bad m b t hm _ ih => rw [lossyText_bad hm, ih]; rfl
  · rintro rfl
    suffices key : ∀ n (b : Bytes), b.length ≤ n → TextOf b (lossyText b) from key _ b (Nat.le_refl _)
    intro n
    induction n with
    | zero =>
      intro b hb
      have : b = [] := List.length_eq_zero_iff.1 (by omega)
      subst this
      exact .nil
    | succ n ih =>
      intro b hb
      cases b with
      | nil => exact .nil
      | cons b0 r =>
        have hpos := utf8Step_pos b0 r
        have hrest := ih ((b0 :: r).drop (utf8Step b0 r).1) (by simp at hb ⊢; omega)
        rw [lossyText_cons]
        rcases utf8Step_cases b0 r with ⟨h2, he, _⟩ | ⟨h2, h3, h4, h5⟩
        · rw [h2, if_pos rfl]
          obtain ⟨c, hc⟩ := char_encShape he
          have := TextOf.char c _ _ hrest
          rwa [hc, List.take_append_drop] at this
        · rw [h2, if_neg (by simp)]
          have hm : MaximalSubpart ((b0 :: r).take (utf8Step b0 r).1) ((b0 :: r).drop (utf8Step b0 r).1) := by
            constructor
            · rintro c ⟨rest, hc⟩
              rw [List.take_append_drop] at hc
              rw [utf8Step_shape (encShape_char c) hc.symm] at h2
              simp at h2
            · refine ⟨fun h => ?_, ?_⟩
              · have := congrArg List.length h
                rw [List.length_take, Nat.min_eq_left h4] at this
                simp at this
                omega
              · rcases h5 with h5 | ⟨e, he, hp⟩
                · right
                  rw [List.length_take, Nat.min_eq_left h4, h5]
                · left
                  obtain ⟨c, hc⟩ := char_encShape he
                  exact ⟨c, by rw [hc]; exact hp⟩
            · rintro m' ⟨rest, hm'⟩ ⟨c, hc⟩
              rw [List.take_append_drop] at hm'
              rw [List.length_take, Nat.min_eq_left h4]
              exact utf8Step_longest (encShape_char c) hc hm'.symm
          have := TextOf.bad _ _ _ hm hrest
          rwa [List.take_append_drop] at this

theorem fffd_char : ∃ c : Char, String.utf8EncodeChar c = fffd := ⟨Char.ofNat 0xFFFD, by decide⟩

/-- **C88** every byte string has exactly one text, which is valid UTF-8. -/
theorem C88_valid (b : Bytes) : IsUtf8 (lossyText b) ∧ utf8Valid (lossyText b) = true := by
  have h := (C88_text b _).2 rfl
  generalize lossyText b = t at h
  have key : IsUtf8 t := by
    induction h with
    | nil => exact ⟨[], rfl⟩
    | char c b t _ ih => exact isUtf8_cons ih
    | bad m b t _ _ ih =>
      obtain ⟨c, hc⟩ := fffd_char
      have := isUtf8_cons (c := c) ih
      rwa [hc] at this
  exact ⟨key, (utf8Valid_iff _).2 key⟩

/-- **C88** exactly the valid strings are shown as they are; showing a text again changes nothing. -/
theorem C88_same (b : Bytes) : (lossyText b = b ↔ IsUtf8 b) ∧ lossyText (lossyText b) = lossyText b := by
  have key : ∀ b, IsUtf8 b → lossyText b = b := by
    rintro b ⟨cs, rfl⟩
    induction cs with
    | nil => rfl
    | cons c cs ih => rw [List.flatMap_cons, lossyText_char (encShape_char c), ih]
  exact ⟨⟨fun h => h ▸ (C88_valid b).1, key b⟩, key _ (C88_valid b).1⟩

theorem encShape_ascii {e : Bytes} (h : EncShape e) : (∃ b0, e = [b0] ∧ b0 < 0x80) ∨ ∀ x ∈ e, ¬ x < 0x80 := by
  have hc : ∀ {b : Byte}, isCont b = true → ¬ b < 0x80 := fun hb => not_lt80 (isCont_iff.1 hb).1
  rcases h with h | ⟨b0, b1, rfl, h0, h1⟩ | ⟨b0, b1, b2, rfl, h0, h1, h2⟩ | ⟨b0, b1, b2, b3, rfl, h0, h1, h2, h3⟩
  · exact .inl h
  · right
    have := range2_iff.1 h0
    intro x hx
    simp only [List.mem_cons, List.not_mem_nil, or_false] at hx
    rcases hx with rfl | rfl
    · exact not_lt80 (by omega)
    · exact hc h1
  · right
    have := range3_iff.1 h0
    have := second3_iff.1 h1
    intro x hx
    simp only [List.mem_cons, List.not_mem_nil, or_false] at hx
    rcases hx with rfl | rfl | rfl
    · exact not_lt80 (by omega)
    · exact not_lt80 (by omega)
    · exact hc h2
  · right
    have := range4_iff.1 h0
    have := second4_iff.1 h1
    intro x hx
    simp only [List.mem_cons, List.not_mem_nil, or_false] at hx
    rcases hx with rfl | rfl | rfl | rfl
    · exact not_lt80 (by omega)
    · exact not_lt80 (by omega)
    · exact hc h2
    · exact hc h3

theorem subpart_not_ascii {m b : Bytes} (h : MaximalSubpart m b) : ∀ x ∈ m, ¬ x < 0x80 := by
  intro x hx hlt
  rcases h.begin_.2 with ⟨c, hp⟩ | h1
  · rcases encShape_ascii (encShape_char c) with ⟨b0, he, _⟩ | hn
    · refine h.noChar c ?_
      have : m = String.utf8EncodeChar c := by
        refine hp.eq_of_length_le ?_
        rw [he]
        exact List.length_pos_iff.2 h.begin_.1
      rw [this]
      exact List.prefix_append _ _
    · exact hn x (hp.subset hx) hlt
  · obtain ⟨y, rfl⟩ := List.length_eq_one_iff.1 h1
    rw [List.mem_singleton] at hx
    subst hx
    obtain ⟨c, hc⟩ := char_encShape (.inl ⟨x, rfl, hlt⟩)
    exact h.noChar c (by rw [hc]; exact List.prefix_append _ _)

/-- **C88** ASCII characters are neither lost nor added nor moved. -/
theorem C88_ascii (b : Bytes) : (lossyText b).filter (fun x => decide (x < 0x80)) = b.filter (fun x => decide (x < 0x80)) := by
  have h := (C88_text b _).2 rfl
  generalize lossyText b = t at h
  induction h with
  | nil => rfl
  | char c b t _ ih => rw [List.filter_append, List.filter_append, ih]
  | bad m b t hm _ ih =>
    have e : m.filter (fun x => decide (x < 0x80)) = [] :=
      List.filter_eq_nil_iff.2 (fun x hx => by simpa using subpart_not_ascii hm x hx)
    rw [List.filter_append, List.filter_append, ih, e]
    rfl

theorem mem_lossyText {b : Bytes} {x : Byte} (hx : x < 0x80) : x ∈ lossyText b ↔ x ∈ b := by
  have h := C88_ascii b
  have key : ∀ l : Bytes, x ∈ l.filter (fun x => decide (x < 0x80)) ↔ x ∈ l := by
    intro l; simp [List.mem_filter, hx]
  rw [← key, h, key]

/-- **C88** the text is empty only for the empty string, and at most three times as long. -/
theorem C88_length (b : Bytes) : (lossyText b = [] ↔ b = []) ∧ (lossyText b).length ≤ 3 * b.length := by
  constructor
  · constructor
    · intro h
      have := (C88_text b _).2 rfl
      rw [h] at this
      generalize ht : ([] : Bytes) = t at this
      cases this with
      | nil => rfl
      | char c b t _ => exact absurd (List.append_eq_nil_iff.1 ht.symm).1 (encShape_ne (encShape_char c))
      | bad m b t _ _ => simp at ht
    · rintro rfl; rfl
  · have h := (C88_text b _).2 rfl
    generalize lossyText b = t at h
    induction h with
    | nil => simp
    | char c b t _ ih => simp only [List.length_append]; omega
    | bad m b t hm _ ih =>
      have := List.length_pos_iff.2 hm.begin_.1
      simp only [List.length_append, List.length_cons, List.length_nil]
      omega

/-- an ASCII byte cuts the decoding -/
theorem utf8Step_cut (b0 : Byte) (r b : Bytes) {x : Byte} (hx : x < 0x80) :
    utf8Step b0 (r ++ x :: b) = utf8Step b0 r := by
  have h1 := ascii_not_cont hx
  have h3 := ascii_not_second3 (b0 := b0) hx
  have h4 := ascii_not_second4 (b0 := b0) hx
  match r with
  | [] => simp [utf8Step, h1, h3, h4]
  | [y] => simp [utf8Step, h1]
  | [y, z] => simp [utf8Step, h1]
  | y :: z :: w :: r => simp [utf8Step]

/-- **C88** the text of a string with an ASCII character in it is put together from the texts of the
parts before and behind it. -/
theorem C88_cut (a b : Bytes) (x : Byte) (hx : x < 0x80) : lossyText (a ++ x :: b) = lossyText a ++ x :: lossyText b := by
  suffices key : ∀ n (a : Bytes), a.length ≤ n → lossyText (a ++ x :: b) = lossyText a ++ x :: lossyText b from
    key _ a (Nat.le_refl _)
  intro n
  have hnil : lossyText ([] ++ x :: b) = lossyText [] ++ x :: lossyText b := by
    have := lossyText_char (.inl ⟨x, rfl, hx⟩) b
    exact this
  induction n with
  | zero =>
    intro a ha
    have : a = [] := List.length_eq_zero_iff.1 (by omega)
    subst this
    exact hnil
  | succ n ih =>
    intro a ha
    cases a with
    | nil => exact hnil
    | cons b0 r =>
      have hpos := utf8Step_pos b0 r
      have hle : (utf8Step b0 r).1 ≤ (b0 :: r).length := by
        rcases utf8Step_cases b0 r with ⟨_, _, h⟩ | ⟨_, _, h, _⟩ <;> exact h
      rw [lossyText_cons b0 r, List.cons_append, lossyText_cons, utf8Step_cut b0 r b hx, ← List.cons_append,
        List.take_append_of_le_length hle, List.drop_append_of_le_length hle, ih _ (by simp at ha ⊢; omega)]
      simp

/-! ## what follows for the commands -/

/-- **C88** the assumptions made about `to_string` in the other properties hold. -/
theorem C88_assumptions :
    IsLossy lossyText ∧ PrintsAscii lossyText ∧ (∀ v, utf8Valid v = true → lossyText v = v) ∧
    (∀ v, utf8Valid (lossyText v) = true) := by
  have hv : ∀ v, utf8Valid v = true → lossyText v = v := fun v h => (C88_same v).1.2 (isUtf8_of_valid v h)
  exact ⟨⟨hv, fun v h => (C88_length v).1.1 h⟩, fun b h => hv b (utf8Valid_ascii h), hv, fun v => (C88_valid v).2⟩

/-- **C88** `convert --to json` writes a JSON text whatever the bytes of the values are. -/
theorem C88_json (c : ConvertCmd) (hto : c.to = .json) (hc : c.lossy = lossyText) (files : List (String × Bytes))
    (rs : List ByteRecord) (hi : Input files rs) (out : Bytes) (h : c.run files = .ok out) (v : Json) :
    JsonText out v ↔ v = picaJson ((recordsOf rs).map (fun r => r.map (shownField lossyText))) := by
  rw [C77_text c hto (by rw [hc]; exact C88_assumptions.2.2.2) files rs hi out h v, hc]

/-- **C88** `partition` with a default template: the file of a value without a slash is in the output
directory, whatever its bytes are. -/
theorem C88_partition (c : PartitionCmd) (hc : c.lossy = lossyText)
    (ht : c.template = bs "{}.dat" ∨ c.template = bs "{}.dat.gz") (cwd : List Bytes) (outdir v : Bytes)
    (hv : (0x2F : Byte) ∉ v) : Inside cwd outdir (c.filePath outdir v) :=
  C84_default_partial c ht cwd outdir v (by rw [hc, mem_lossyText (by decide)]; exact hv)

/-- **C88** different strings may have the same text: the file names of `partition` and the keys of
`concat --unique` do not tell them apart, and a record is lost. -/
theorem C88_ambiguous (c : ConcatCmd) (hc : c.lossy = lossyText) (hu : c.unique = true) (hs : c.strategy = .idn)
    (ht : c.tee = false) :
    (∀ p : PartitionCmd, p.lossy = lossyText → p.name [0xFF] = p.name [0xFE]) ∧
    c.run [("a", bs "003@ " ++ [0x1F, 0x30, 0xFF, 0x1E, 0x0A] ++ (bs "003@ " ++ [0x1F, 0x30, 0xFE, 0x1E, 0x0A]))]
      = .ok ⟨bs "003@ " ++ [0x1F, 0x30, 0xFF, 0x1E, 0x0A], none, [[0xEF, 0xBF, 0xBD]]⟩ := by
  refine ⟨fun p hp => ?_, C32_lossy_false c hu hs (by rw [hc]; decide) (by rw [hc]; decide) ht⟩
  have : lossyText [0xFF] = lossyText [0xFE] := by decide
  simp only [PartitionCmd.name, hp, this]

/-! ## cases that meet the hypotheses -/

example : lossyText (bs "a" ++ [0xC3, 0xA4, 0xFF, 0xE2, 0x82, 0x2F, 0xF0, 0x9F, 0x92]) =
    bs "a" ++ [0xC3, 0xA4] ++ fffd ++ fffd ++ [0x2F] ++ fffd := by decide +kernel
/-- table 3-8 of the Unicode standard -/
example : lossyText [0xC0, 0xAF, 0xE0, 0x80, 0xBF, 0xF0, 0x81, 0x82, 0x41] =
    fffd ++ fffd ++ fffd ++ fffd ++ fffd ++ fffd ++ fffd ++ fffd ++ [0x41] := by decide +kernel
/-- table 3-11 of the Unicode standard -/
example : lossyText [0xE1, 0x80, 0xE2, 0xF0, 0x91, 0x92, 0xF1, 0xBF, 0x41] =
    fffd ++ fffd ++ fffd ++ fffd ++ [0x41] := by decide +kernel
example : ¬ IsUtf8 [0xED, 0xA0, 0x80] := by
  rw [← utf8Valid_iff]; decide
example : MaximalSubpart [0xE2, 0x82] [0x2F] := by
  refine ⟨fun c hc => ?_, ⟨by simp, .inl ?_⟩, fun m' hm' hc => ?_⟩
  · obtain ⟨rest, h⟩ := hc
    have := utf8Step_shape (b0 := 0xE2) (r := [0x82, 0x2F]) (encShape_char c) h.symm
    have e : utf8Step 0xE2 [0x82, 0x2F] = (2, false) := by decide
    rw [e] at this
    simp at this
  · obtain ⟨c, hc⟩ := char_encShape (e := [0xE2, 0x82, 0x80]) (.inr (.inr (.inl ⟨_, _, _, rfl, by decide, by decide, by decide⟩)))
    exact ⟨c, by rw [hc]; exact ⟨[0x80], rfl⟩⟩
  · obtain ⟨rest, h⟩ := hm'
    obtain ⟨c, hc⟩ := hc
    exact utf8Step_longest (b0 := 0xE2) (r := [0x82, 0x2F]) (encShape_char c) hc h.symm
example : ∃ c : ConcatCmd, c.lossy = lossyText ∧ c.unique = true ∧ c.strategy = .idn ∧ c.tee = false :=
  ⟨⟨true, true, .idn, false, toyEnv, ⟨false⟩, lossyText, id⟩, rfl, rfl, rfl, rfl⟩

end Pica.Props
