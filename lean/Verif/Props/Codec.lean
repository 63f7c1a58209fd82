import Verif.Lemmas.Record

/-! C01, C02, C03, C09: decoder and encoder of PICA+. -/

namespace Pica.Props
open Pica Pica.Spec

/-- Test record: `003@ \x1f0123456789X\x1e` `012A/01 \x1fa1\x1fb\x1e` -/
def sample : Record :=
  [⟨bs "003@", none, [⟨0x30, bs "123456789X"⟩]⟩,
   ⟨bs "012A", some (bs "01"), [⟨0x61, bs "1"⟩, ⟨0x62, []⟩]⟩]

/-- its PICA+ text -/
def sampleBytes : Bytes :=
  bs "003@ " ++ [0x1F] ++ bs "0123456789X" ++ [0x1E] ++
  bs "012A/01 " ++ [0x1F] ++ bs "a1" ++ [0x1F] ++ bs "b" ++ [0x1E, 0x0A]

/-- **C01** decode, then encode from the parsed fields, is the identity. -/
theorem C01_decode_encode (b : Bytes) (r : Record) (h : Record.fromBytes b = some r) :
    r.write = b := by
  obtain ⟨h1, _, h3⟩ := Record.fromBytes_eq_some.1 h
  rw [Record.write_of_ne h1, h3]

example : Record.fromBytes sampleBytes = some sample := by decide +kernel

/-- **C02** a non-empty record put together by the validating constructors is
decoded again from what `write_to` produces. -/
theorem C02_encode_decode (fs : List (Bytes × Option Bytes × List (Char × Bytes))) (r : Record)
    (h : Record.new fs = some r) (hne : fs ≠ []) : Record.fromBytes r.write = some r := by
  refine Record.fromBytes_write (Record.new_ok h) ?_
  rintro rfl
  have := mapM_some_length h
  simp at this
  exact hne (List.eq_nil_of_length_eq_zero this.symm)

example : Record.new
    [(bs "003@", none, [('0', bs "123456789X")]), (bs "012A", some (bs "01"), [('a', bs "1"), ('b', [])])]
    = some sample := by decide +kernel

/-- **C02** the same for every well-formed record, however it came about. -/
theorem C02_encode_decode_valid (r : Record) (h : IsRecord r) (hne : r ≠ []) :
    Record.fromBytes r.write = some r := Record.fromBytes_write h hne

/-- **C02** distinct well-formed records have distinct encodings. -/
theorem C02_encode_injective (r s : Record) (hr : IsRecord r) (hs : IsRecord s)
    (h : r.write = s.write) : r = s := by
  by_cases hr0 : r = []
  · by_cases hs0 : s = []
    · rw [hr0, hs0]
    · subst hr0
      have := Record.write_of_ne hs0
      rw [← h] at this
      simp [Record.write] at this
  · by_cases hs0 : s = []
    · subst hs0
      have := Record.write_of_ne hr0
      rw [h] at this
      simp [Record.write] at this
    · have h1 := Record.fromBytes_write hr hr0
      have h2 := Record.fromBytes_write hs hs0
      rw [h, h2] at h1
      exact (Option.some.inj h1).symm

/-- **C02** (error branch) the record without fields can be constructed, writes
nothing and is rejected when read back. -/
theorem C02_empty_record :
    Record.new [] = some [] ∧ Record.write [] = [] ∧ Record.fromBytes [] = none := by
  refine ⟨rfl, rfl, ?_⟩
  cases h : Record.fromBytes [] with
  | none => rfl
  | some r => have := (Record.fromBytes_eq_some.1 h).2.2; simp at this

/-- **C03** the decoder accepts exactly the texts of the PICA+ grammar, and
returns the record the text spells. -/
theorem C03_accepts_grammar (b : Bytes) (r : Record) :
    Record.fromBytes b = some r ↔ RecordText r b := by
  rw [Record.fromBytes_eq_some]
  unfold RecordText
  simp only [spells_fields, exists_eq_left]
  rfl

/-- **C03** rejection: an error is returned iff the text spells no record. -/
theorem C03_rejects_rest (b : Bytes) :
    Record.fromBytes b = none ↔ ¬ ∃ r, RecordText r b := by
  constructor
  · rintro h ⟨r, hr⟩
    rw [(C03_accepts_grammar b r).2 hr] at h
    simp at h
  · intro h
    cases hb : Record.fromBytes b with
    | none => rfl
    | some r => exact absurd ⟨r, (C03_accepts_grammar b r).1 hb⟩ h

/-- the grammar is not vacuous -/
example : RecordText sample sampleBytes :=
  (C03_accepts_grammar _ _).1 (by decide +kernel)
/-- a missing newline is rejected -/
example : Record.fromBytes (sampleBytes.dropLast) = none := by decide +kernel

/-- **C03** the same for the single parts. -/
theorem C03_parts (b : Bytes) :
    (∀ t, Tag.fromBytes b = some t ↔ b = t ∧ IsTag t) ∧
    (∀ o, Occurrence.fromBytes b = some o ↔ b = o ∧ IsOcc o) ∧
    (∀ s, Subfield.fromBytes b = some s ↔ SubfieldText s b ∧ IsSubfield s) ∧
    (∀ f, Field.fromBytes b = some f ↔ FieldText f b ∧ IsField f) := by
  refine ⟨?_, ?_, ?_, ?_⟩
  · intro t; rw [Tag.fromBytes_eq_some]; exact And.comm
  · intro t; rw [Occurrence.fromBytes_eq_some]; exact And.comm
  · intro t; rw [Subfield.fromBytes_eq_some, and_comm]; rfl
  · intro t; rw [Field.fromBytes_eq_some, and_comm, fieldText_iff]

/-- **C09** the level of a parsed tag is defined (no panic) and given by the
first digit. -/
theorem C09_level_total (b t : Bytes) (h : Tag.fromBytes b = some t) :
    (Tag.level t = some .main ∧ t.head? = some 0x30) ∨
    (Tag.level t = some .local ∧ t.head? = some 0x31) ∨
    (Tag.level t = some .copy ∧ t.head? = some 0x32) := by
  obtain ⟨⟨a, b, c, d, rfl, ha, _⟩, _⟩ := Tag.fromBytes_eq_some.1 h
  rcases ha with rfl | rfl | rfl
  · exact .inl ⟨rfl, rfl⟩
  · exact .inr (.inl ⟨rfl, rfl⟩)
  · exact .inr (.inr ⟨rfl, rfl⟩)

/-- **C09** for every field of every decoded record. -/
theorem C09_level_of_decoded (b : Bytes) (r : Record) (h : Record.fromBytes b = some r) :
    ∀ f ∈ r, ∃ l, f.level = some l ∧
      (l = .main ↔ f.tag.head? = some 0x30) ∧ (l = .local ↔ f.tag.head? = some 0x31) ∧
      (l = .copy ↔ f.tag.head? = some 0x32) := by
  intro f hf
  have hft := ((Record.fromBytes_eq_some.1 h).2.1 f hf).1
  have := C09_level_total f.tag f.tag (Tag.fromBytes_eq_some.2 ⟨hft, rfl⟩)
  unfold Field.level
  rcases this with ⟨h1, h2⟩ | ⟨h1, h2⟩ | ⟨h1, h2⟩ <;> simp [h1, h2]

example : Tag.fromBytes (bs "209@") = some (bs "209@") ∧ Tag.level (bs "209@") = some .copy := by
  decide +kernel
/-- the panic branch exists in the code: it is the grammar that excludes it -/
example : Tag.level (bs "309@") = none := by decide +kernel

end Pica.Props
