import Verif.Props.Owned

/-! C02: which arguments the constructors of records and of their parts accept. -/

namespace Pica.Props
open Pica Pica.Spec Parser

/-- the argument of `RecordRef::new` that names the parts of a field -/
def partsOf (f : Field) : Bytes × Option Bytes × List (Char × Bytes) :=
  (f.tag, f.occ, f.subfields.map fun s => (Char.ofNat s.code.toNat, s.value))

theorem mapM_iff {α β : Type} {f : α → Option β} {g : β → α} {P : β → Prop}
    (h : ∀ a b, f a = some b ↔ a = g b ∧ P b) :
    ∀ (l : List α) (m : List β), l.mapM f = some m ↔ l = m.map g ∧ ∀ b ∈ m, P b := by
  intro l
  induction l with
  | nil => intro m; cases m <;> simp
  | cons a l ih =>
    intro m
    rw [List.mapM_cons]
    cases hf : f a with
    | none =>
      cases m with
      | nil => simp
      | cons b m =>
        have := mt (h a b).2 (by simp [hf])
        simp only [Option.bind_eq_bind, Option.bind_none, List.map_cons, List.cons.injEq, List.forall_mem_cons,
          reduceCtorEq, false_iff]
        exact fun h => this ⟨h.1.1, h.2.1⟩
    | some b =>
      have hb := (h a b).1 hf
      cases m with
      | nil => cases l.mapM f <;> simp
      | cons c m =>
        simp only [List.map_cons, List.cons.injEq, List.forall_mem_cons]
        constructor
        · intro e
          cases hl : l.mapM f with
          | none => simp [hl] at e
          | some m' =>
            simp only [hl, Option.bind_eq_bind, Option.bind_some, Option.pure_def, Option.some.injEq, List.cons.injEq] at e
            obtain ⟨rfl, rfl⟩ := e
            have := (ih m').1 hl
            exact ⟨⟨hb.1, this.1⟩, hb.2, this.2⟩
        · rintro ⟨⟨e1, e2⟩, e3, e4⟩
          have h1 := (h a c).2 ⟨e1, e3⟩
          rw [hf] at h1; cases h1
          rw [(ih m).2 ⟨e2, e4⟩]; rfl

theorem char_toNat (b : Byte) : (Char.ofNat b.toNat).toNat = b.toNat := by
  have hv : Nat.isValidChar b.toNat := Or.inl (by have := b.toNat_lt; omega)
  rw [Char.ofNat, dif_pos hv]; rfl

theorem char_of_toNat {c : Char} {b : Byte} (h : b.toNat = c.toNat) : c = Char.ofNat b.toNat := by
  apply Char.ext
  apply UInt32.toNat_inj.1
  show c.toNat = (Char.ofNat b.toNat).toNat
  rw [char_toNat, h]

/-- **C02** (constructors) a character is accepted as a code iff it is one of the letters and digits. -/
theorem C02_code (c : Char) (b : Byte) : SubfieldCode.new c = some b ↔ c = Char.ofNat b.toNat ∧ IsCode b := by
  unfold SubfieldCode.new
  constructor
  · intro h
    split at h
    · rename_i hc
      cases h
      refine ⟨char_of_toNat ?_, isAlnum_iff.1 hc.2⟩
      have := hc.1
      simp; omega
    · cases h
  · rintro ⟨rfl, h⟩
    have hb : UInt8.ofNat b.toNat = b := by simp
    rw [char_toNat, hb, if_pos]
    refine ⟨?_, isAlnum_iff.2 h⟩
    rcases h with ⟨_, h⟩ | ⟨_, h⟩ | ⟨_, h⟩ <;>
    · have := UInt8.le_iff_toNat_le.1 h
      simp at this; omega

theorem value_new (v w : Bytes) : SubfieldValue.new v = some w ↔ v = w ∧ IsValue w := by
  unfold SubfieldValue.new
  have e : (v.contains US || v.contains RS) = true ↔ ¬ IsValue v := by
    simp only [Bool.or_eq_true, List.contains_iff_mem, IsValue]
    constructor
    · rintro (h | h) h2
      · exact (h2 _ h).1 rfl
      · exact (h2 _ h).2 rfl
    · intro h
      rcases Classical.em (US ∈ v) with h1 | h1
      · exact .inl h1
      · rcases Classical.em (RS ∈ v) with h2 | h2
        · exact .inr h2
        · exact absurd (fun b hb => ⟨by rintro rfl; exact h1 hb, by rintro rfl; exact h2 hb⟩) h
  split
  · rename_i h
    refine ⟨(by intro h2; cases h2), ?_⟩
    rintro ⟨rfl, h2⟩
    exact absurd h2 (e.1 h)
  · rename_i h
    have h1 : IsValue v := by
      rcases Classical.em (IsValue v) with h1 | h1
      · exact h1
      · exact absurd (e.2 h1) h
    constructor
    · intro h2; cases h2; exact ⟨rfl, h1⟩
    · rintro ⟨rfl, _⟩; rfl

/-- **C02** (constructors) a value is accepted iff it contains no separator; `from_bytes` accepts the same. -/
theorem C02_value (v w : Bytes) :
    (SubfieldValue.new v = some w ↔ v = w ∧ IsValue w) ∧
    (SubfieldValue.fromBytes v = some w ↔ v = w ∧ IsValue w) := by
  refine ⟨value_new v w, ?_⟩
  rw [SubfieldValue.fromBytes, parseAll_eq_some, pSubfieldValue, takeTill0_eq_some]
  simp only [List.append_nil, isSep_false_iff]
  constructor
  · rintro ⟨rfl, h, _⟩; exact ⟨rfl, h⟩
  · rintro ⟨rfl, h⟩; exact ⟨rfl, h, by simp⟩

/-- **C02** (constructors) a subfield is accepted iff its code and its value are. -/
theorem C02_subfield (a : Char × Bytes) (s : Subfield) :
    Subfield.new a.1 a.2 = some s ↔ a = (Char.ofNat s.code.toNat, s.value) ∧ IsSubfield s := by
  obtain ⟨c, v⟩ := a
  obtain ⟨b, w⟩ := s
  unfold Subfield.new
  constructor
  · intro h
    split at h
    · cases h
    · rename_i hv
      split at h
      · cases h
      · rename_i hc
        cases h
        have h1 := (value_new _ _).1 hv
        have h2 := (C02_code _ _).1 hc
        exact ⟨Prod.ext h2.1 h1.1, h2.2, h1.2⟩
  · rintro ⟨h, h2, h3⟩
    cases h
    dsimp only at h2 h3 ⊢
    rw [(value_new _ _).2 ⟨rfl, h3⟩, (C02_code _ _).2 ⟨rfl, h2⟩]

/-- **C02** (constructors) a field is accepted iff its parts are; it may have no subfields. -/
theorem C02_field (a : Bytes × Option Bytes × List (Char × Bytes)) (f : Field) :
    Field.new a.1 a.2.1 a.2.2 = some f ↔ a = partsOf f ∧ IsField f := by
  obtain ⟨t, o, ss⟩ := a
  obtain ⟨t', o', ss'⟩ := f
  have hm := mapM_iff C02_subfield
  have ht : ∀ t u, Tag.fromBytes t = some u ↔ t = u ∧ IsTag u := fun t => (C03_parts t).1
  have ho : ∀ t u, Occurrence.fromBytes t = some u ↔ t = u ∧ IsOcc u := fun t => (C03_parts t).2.1
  unfold Field.new
  constructor
  · intro h
    dsimp only at h
    split at h
    · cases h
    · rename_i ht1
      have ht1 := (ht _ _).1 ht1
      split at h
      · split at h
        · cases h
        · rename_i hs
          cases h
          have hs := (hm _ _).1 hs
          exact ⟨by rw [partsOf, ht1.1, hs.1], ht1.2, by simp, hs.2⟩
      · split at h
        · cases h
        · rename_i ho1
          have ho1 := (ho _ _).1 ho1
          split at h
          · cases h
          · rename_i hs
            cases h
            have hs := (hm _ _).1 hs
            exact ⟨by rw [partsOf, ht1.1, ho1.1, hs.1], ht1.2, by simpa using ho1.2, hs.2⟩
  · rintro ⟨h, h1, h2, h3⟩
    cases h
    dsimp only at h1 h2 h3 ⊢
    rw [(ht _ _).2 ⟨rfl, h1⟩, (hm _ _).2 ⟨rfl, h3⟩]
    cases o' with
    | none => rfl
    | some o => dsimp only; rw [(ho _ _).2 ⟨rfl, h2 o rfl⟩]

/-- **C02** the constructors accept exactly the well-formed parts: every well-formed record is
constructed, from its parts and from nothing else, and nothing else is constructed. -/
theorem C02_constructors (args : List (Bytes × Option Bytes × List (Char × Bytes))) (r : Record) :
    Record.new args = some r ↔ args = r.map partsOf ∧ IsRecord r :=
  mapM_iff C02_field args r

example := (C02_constructors
    [(bs "003@", none, [('0', bs "123456789X")]), (bs "012A", some (bs "01"), [('a', bs "1"), ('b', [])])] sample).1
  (by decide +kernel)
example := (C02_field (bs "012A", none, []) ⟨bs "012A", none, []⟩).1 (by decide +kernel)
example := (C02_subfield ('a', bs "x\n") ⟨0x61, bs "x\n"⟩).1 (by decide +kernel)
example := (C02_value (bs "a b") (bs "a b")).2.1 (by decide +kernel)
example := (C02_code 'Z' 0x5A).1 (by decide +kernel)
/-- rejected: a code that is a letter but not ASCII, and a separator within a value -/
example : SubfieldCode.new 'ä' = none ∧ SubfieldValue.new (bs "a\x1fb") = none := by decide +kernel

/-- **C70** (parts) the owned tags, occurrences and subfields are made from exactly the well-formed
parts, as the borrowed ones; a borrowed part equals an owned one iff this is its copy. -/
theorem C70_parts (b : Bytes) (c : Char) :
    (∀ o, OTag.new b = some o ↔ IsTag b ∧ o.bytes = b) ∧
    (∀ o, OOcc.new b = some o ↔ IsOcc b ∧ o.bytes = b) ∧
    (∀ o, OSubfield.new c b = some o ↔ IsCode o.code ∧ c = Char.ofNat o.code.toNat ∧ IsValue b ∧ o.value = b) ∧
    (∀ o, tagEq b o = true ↔ o.bytes = b) ∧ (∀ o, occEq b o = true ↔ o.bytes = b) ∧
    (∀ s o, subfieldEq s o = true ↔ o.code = s.code ∧ o.value = s.value) := by
  have ht : ∀ u, Tag.fromBytes b = some u ↔ b = u ∧ IsTag u := (C03_parts b).1
  have ho : ∀ u, Occurrence.fromBytes b = some u ↔ b = u ∧ IsOcc u := (C03_parts b).2.1
  refine ⟨fun o => ?_, fun o => ?_, fun o => ?_, fun o => ?_, fun o => ?_, fun s o => ?_⟩
  · obtain ⟨o⟩ := o
    simp only [OTag.new, Option.map_eq_some_iff, OTag.from, OTag.mk.injEq]
    constructor
    · rintro ⟨u, h, rfl⟩
      have := (ht u).1 h
      obtain ⟨rfl, h⟩ := this
      exact ⟨h, rfl⟩
    · rintro ⟨h, rfl⟩
      exact ⟨o, (ht o).2 ⟨rfl, h⟩, rfl⟩
  · obtain ⟨o⟩ := o
    simp only [OOcc.new, Option.map_eq_some_iff, OOcc.from, OOcc.mk.injEq]
    constructor
    · rintro ⟨u, h, rfl⟩
      have := (ho u).1 h
      obtain ⟨rfl, h⟩ := this
      exact ⟨h, rfl⟩
    · rintro ⟨h, rfl⟩
      exact ⟨o, (ho o).2 ⟨rfl, h⟩, rfl⟩
  · obtain ⟨k, v⟩ := o
    simp only [OSubfield.new, Option.map_eq_some_iff, OSubfield.from, OSubfield.mk.injEq]
    constructor
    · rintro ⟨s, h, rfl, rfl⟩
      have := (C02_subfield (c, b) s).1 h
      simp only [Prod.mk.injEq] at this
      obtain ⟨⟨h1, rfl⟩, h2, h3⟩ := this
      exact ⟨h2, h1, h3, rfl⟩
    · rintro ⟨h1, h2, h3, rfl⟩
      exact ⟨⟨k, v⟩, (C02_subfield (c, v) ⟨k, v⟩).2 ⟨by rw [h2], h1, h3⟩, rfl, rfl⟩
  · rw [tagEq, beq_iff_eq, eq_comm]
  · rw [occEq, beq_iff_eq, eq_comm]
  · rw [subfieldEq, Bool.and_eq_true, beq_iff_eq, beq_iff_eq, @eq_comm _ s.code, @eq_comm _ s.value]

example := ((C70_parts (bs "012A") 'a').1 ⟨bs "012A"⟩).1 (by decide +kernel)
example := ((C70_parts (bs "01") 'a').2.1 ⟨bs "01"⟩).1 (by decide +kernel)
example := ((C70_parts (bs "x") 'a').2.2.1 ⟨0x61, bs "x"⟩).1 (by decide +kernel)
example : OTag.new (bs "012a") = none ∧ OOcc.new (bs "1") = none ∧ OSubfield.new '!' (bs "x") = none ∧
    tagEq (bs "012A") ⟨bs "012B"⟩ = false ∧ subfieldEq ⟨0x61, bs "x"⟩ ⟨0x62, bs "x"⟩ = false := by decide +kernel

end Pica.Props
