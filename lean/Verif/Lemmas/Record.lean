import Verif.Lemmas.Parser
import Verif.Spec.Grammar

/-! The decoder and encoder of PICA+ are inverse to each other. -/

namespace Pica
open Parser Spec

theorem isDigit_iff {b : Byte} : isDigit b = true ↔ 0x30 ≤ b ∧ b ≤ 0x39 := by
  simp [isDigit]

theorem isAlnum_iff {b : Byte} : isAlnum b = true ↔ IsCode b := by
  simp [isAlnum, isDigit, isUpper, isLower, IsCode, or_assoc]

theorem isSep_iff {b : Byte} : isSep b = true ↔ b = 0x1F ∨ b = 0x1E := by
  simp [isSep, US, RS]

theorem isSep_false_iff {b : Byte} : isSep b = false ↔ b ≠ 0x1F ∧ b ≠ 0x1E := by
  simp [isSep, US, RS]

/-- what follows a value: end of input or a separator -/
def SepFollow (r : Bytes) : Prop := r = [] ∨ ∃ b t, r = b :: t ∧ isSep b = true

theorem pSubfield_eq_some {i s r} :
    pSubfield i = some (s, r) ↔ IsSubfield s ∧ i = s.write ++ r ∧ SepFollow r := by
  unfold pSubfield
  rw [map_eq_some]
  constructor
  · rintro ⟨⟨c, v⟩, h, rfl⟩
    obtain ⟨b, r1, h1, h2⟩ := preceded_eq_some.1 h
    obtain ⟨r2, h3, h4⟩ := seq_eq_some.1 h2
    obtain ⟨rfl, rfl⟩ := byte_eq_some.1 h1
    obtain ⟨rfl, hc⟩ := oneOf_eq_some.1 h3
    obtain ⟨rfl, hv, hf⟩ := takeTill0_eq_some.1 h4
    refine ⟨⟨isAlnum_iff.1 hc, fun b hb => isSep_false_iff.1 (hv b hb)⟩, ?_, hf⟩
    simp [Subfield.write]
  · rintro ⟨⟨hc, hv⟩, rfl, hf⟩
    refine ⟨(s.code, s.value), preceded_eq_some.2 ⟨US, s.code :: (s.value ++ r), ?_, ?_⟩, rfl⟩
    · simp [Subfield.write, byte_eq_some]
    · refine seq_eq_some.2 ⟨s.value ++ r, oneOf_eq_some.2 ⟨rfl, isAlnum_iff.2 hc⟩, ?_⟩
      exact takeTill0_eq_some.2 ⟨rfl, fun b hb => isSep_false_iff.2 (hv b hb), hf⟩

theorem pTag_eq_some {i t r} : pTag i = some (t, r) ↔ IsTag t ∧ i = t ++ r := by
  unfold pTag
  rw [map_eq_some]
  constructor
  · rintro ⟨⟨x, t'⟩, h, rfl⟩
    unfold withTaken at h
    split at h
    · rename_i x' r' h1
      simp at h
      obtain ⟨⟨rfl, rfl⟩, rfl⟩ := h
      obtain ⟨a, b, c, d⟩ := x'
      obtain ⟨r1, h1, h2⟩ := seq_eq_some.1 h1
      obtain ⟨r2, h2, h3⟩ := seq_eq_some.1 h2
      obtain ⟨r3, h3, h4⟩ := seq_eq_some.1 h3
      obtain ⟨rfl, ha⟩ := oneOf_eq_some.1 h1
      obtain ⟨rfl, hb⟩ := oneOf_eq_some.1 h2
      obtain ⟨rfl, hc⟩ := oneOf_eq_some.1 h3
      obtain ⟨rfl, hd⟩ := oneOf_eq_some.1 h4
      have : (a :: b :: c :: d :: r').length - r'.length = 4 := by simp; omega
      rw [this]
      refine ⟨⟨a, b, c, d, by simp, ?_, ?_, ?_, ?_⟩, by simp⟩
      · simpa [isTag0, or_assoc] using ha
      · exact isDigit_iff.1 hb
      · exact isDigit_iff.1 hc
      · simpa [isTag3, isUpper] using hd
    · simp at h
  · rintro ⟨⟨a, b, c, d, rfl, ha, hb, hc, hd⟩, rfl⟩
    refine ⟨((a, b, c, d), [a, b, c, d]), ?_, rfl⟩
    have ha' : isTag0 a = true := by simpa [isTag0, or_assoc] using ha
    have hb' := isDigit_iff.2 hb
    have hc' := isDigit_iff.2 hc
    have hd' : isTag3 d = true := by simpa [isTag3, isUpper] using hd
    have h4 : r.length + 1 + 1 + 1 + 1 - r.length = 4 := by omega
    simp [withTaken, seq, oneOf, ha', hb', hc', hd', h4]

theorem takeWhile_eq_self {α} {p : α → Bool} {l : List α} (h : ∀ a ∈ l, p a = true) :
    l.takeWhile p = l := by
  have := List.takeWhile_append_of_pos (l₂ := []) h
  simpa using this

/-- An occurrence is read completely, provided that no further digit follows. -/
theorem pOccurrence_complete {o r : Bytes} (h : IsOcc o)
    (hr : ∀ b t, r = b :: t → isDigit b = false) : pOccurrence (o ++ r) = some (o, r) := by
  obtain ⟨hlen, hd⟩ := h
  have hd' : ∀ a ∈ o, isDigit a = true := fun a ha => isDigit_iff.2 (hd a ha)
  have ht : ((o ++ r).take 3).takeWhile isDigit = o := by
    rw [List.take_append, List.takeWhile_append_of_pos]
    · have h0 : (r.take (3 - o.length)).takeWhile isDigit = [] := by
        cases r with
        | nil => simp
        | cons b t =>
          cases h3 : 3 - o.length with
          | zero => simp
          | succ n => simp [hr b t rfl]
      rw [h0, List.take_of_length_le (by omega)]; simp
    · intro a ha; exact hd' a (List.mem_of_mem_take ha)
  simp only [pOccurrence, takeWhileMN, ht]
  rw [if_pos (by omega)]; simp

theorem pOccurrence_sound {i o r : Bytes} (h : pOccurrence i = some (o, r)) :
    IsOcc o ∧ i = o ++ r := by
  simp only [pOccurrence, takeWhileMN] at h
  split at h
  · rename_i hl
    simp only [Option.some.injEq, Prod.mk.injEq] at h
    obtain ⟨rfl, rfl⟩ := h
    have hle : ((i.take 3).takeWhile isDigit).length ≤ 3 :=
      Nat.le_trans (List.takeWhile_prefix _).length_le (by simp; omega)
    refine ⟨⟨by omega, ?_⟩, ?_⟩
    · intro b hb
      have := List.all_takeWhile (p := isDigit) (l := i.take 3)
      rw [List.all_eq_true] at this
      exact isDigit_iff.1 (this b hb)
    · have hp : (i.take 3).takeWhile isDigit <+: i :=
        (List.takeWhile_prefix _).trans (List.take_prefix _ _)
      obtain ⟨t, ht⟩ := hp
      have hd : t = i.drop ((i.take 3).takeWhile isDigit).length := by
        have := List.drop_left (l₁ := (i.take 3).takeWhile isDigit) (l₂ := t)
        rw [ht] at this; exact this.symm
      rw [← hd]; exact ht.symm
  · simp at h

theorem pSubfield_sound : Sound pSubfield IsSubfield Subfield.write := by
  intro i s r h; have := pSubfield_eq_some.1 h; exact ⟨this.1, this.2.1⟩

theorem pField_sound : Sound pField IsField Field.write := by
  intro i f r h
  unfold pField at h
  obtain ⟨⟨t, o, sp, ss, e⟩, h0, rfl⟩ := map_eq_some.1 h
  clear h
  obtain ⟨r1, h1, h⟩ := seq_eq_some.1 h0
  obtain ⟨r2, h2, h⟩ := seq_eq_some.1 h
  obtain ⟨r3, h3, h⟩ := seq_eq_some.1 h
  obtain ⟨r4, h4, h5⟩ := seq_eq_some.1 h
  obtain ⟨ht, rfl⟩ := pTag_eq_some.1 h1
  obtain ⟨rfl, rfl⟩ := byte_eq_some.1 h3
  obtain ⟨rfl, rfl⟩ := byte_eq_some.1 h5
  obtain ⟨hss, rfl⟩ := repeat0_sound pSubfield_sound _ _ _ h4
  rcases opt_eq_some.1 h2 with ⟨o', rfl, h8⟩ | ⟨rfl, _, rfl⟩
  · obtain ⟨b, r', h6, h7⟩ := preceded_eq_some.1 h8
    obtain ⟨rfl, rfl⟩ := byte_eq_some.1 h6
    obtain ⟨ho, rfl⟩ := pOccurrence_sound h7
    refine ⟨⟨ht, by simpa using ho, hss⟩, ?_⟩
    simp [Field.write, writeOcc]
  · refine ⟨⟨ht, by simp, hss⟩, ?_⟩
    simp [Field.write, writeOcc]

theorem write_ne_nil (s : Subfield) : s.write ≠ [] := by simp [Subfield.write]

theorem pSubfields_complete {ss : List Subfield} (h : ∀ s ∈ ss, IsSubfield s) (r : Bytes) :
    repeat0 pSubfield (ss.flatMap Subfield.write ++ RS :: r) = some (ss, RS :: r) := by
  apply repeat0_complete SepFollow
  · intro s hs r hr
    exact pSubfield_eq_some.2 ⟨h s hs, rfl, hr⟩
  · intro s _ r
    exact .inr ⟨US, s.code :: (s.value ++ r), by simp [Subfield.write], rfl⟩
  · intro s _; exact write_ne_nil s
  · exact .inr ⟨RS, r, rfl, rfl⟩
  · simp [pSubfield, map, preceded, seq, byte, oneOf, RS, US]

theorem pField_complete {f : Field} (h : IsField f) (r : Bytes) :
    pField (f.write ++ r) = some (f, r) := by
  obtain ⟨tag, occ, ss⟩ := f
  obtain ⟨ht, ho, hss⟩ := h
  simp only at ht ho hss
  unfold pField
  refine map_eq_some.2 ⟨(tag, occ, SP, ss, RS), ?_, rfl⟩
  refine seq_eq_some.2 ⟨writeOcc occ ++ (SP :: (ss.flatMap Subfield.write ++ RS :: r)), ?_, ?_⟩
  · exact pTag_eq_some.2 ⟨ht, by simp [Field.write]⟩
  refine seq_eq_some.2 ⟨SP :: (ss.flatMap Subfield.write ++ RS :: r), ?_, ?_⟩
  · cases occ with
    | none =>
      refine opt_eq_some.2 (.inr ⟨rfl, ?_, rfl⟩)
      simp [preceded, map, seq, writeOcc, byte, oneOf, SP, SLASH]
    | some o =>
      refine opt_eq_some.2 (.inl ⟨o, rfl, ?_⟩)
      refine preceded_eq_some.2 ⟨SLASH, o ++ (SP :: (ss.flatMap Subfield.write ++ RS :: r)), ?_, ?_⟩
      · simp [writeOcc, byte_cons_self]
      · apply pOccurrence_complete (ho o rfl)
        intro b t hb
        simp at hb
        rw [← hb.1]; rfl
  refine seq_eq_some.2 ⟨ss.flatMap Subfield.write ++ RS :: r, byte_cons_self _ _, ?_⟩
  exact seq_eq_some.2 ⟨RS :: r, pSubfields_complete hss r, byte_cons_self _ _⟩

theorem Field.write_ne_nil (f : Field) : f.write ≠ [] := by simp [Field.write]

theorem pTag_LF (r) : pTag (LF :: r) = none := by
  simp [pTag, map, withTaken, seq, oneOf, isTag0, LF]

theorem pField_LF (r) : pField (LF :: r) = none := by
  simp [pField, map, seq, pTag_LF]

theorem pRecord_sound {i rec r} (h : pRecord i = some (rec, r)) :
    rec ≠ [] ∧ IsRecord rec ∧ i = rec.flatMap Field.write ++ LF :: r := by
  unfold pRecord at h
  obtain ⟨b, r', h1, h2⟩ := terminated_eq_some.1 h
  obtain ⟨⟨h3, h4⟩, rfl⟩ := repeat1_sound pField_sound _ _ _ h1
  obtain ⟨rfl, rfl⟩ := byte_eq_some.1 h2
  exact ⟨h3, h4, rfl⟩

theorem pRecord_complete {rec : Record} (hne : rec ≠ []) (h : IsRecord rec) (r : Bytes) :
    pRecord (rec.flatMap Field.write ++ LF :: r) = some (rec, r) := by
  unfold pRecord
  refine terminated_eq_some.2 ⟨LF, LF :: r, ?_, byte_cons_self _ _⟩
  apply repeat1_complete (fun _ => True) hne
  · intro f hf r _; exact pField_complete (h f hf) r
  · simp
  · intro f _; exact Field.write_ne_nil f
  · trivial
  · exact pField_LF r

theorem Record.write_of_ne {r : Record} (h : r ≠ []) : r.write = r.flatMap Field.write ++ [LF] := by
  unfold Record.write; rw [if_neg (by simpa using h)]

theorem Record.fromBytes_eq_some {b : Bytes} {r : Record} :
    Record.fromBytes b = some r ↔ r ≠ [] ∧ IsRecord r ∧ b = r.flatMap Field.write ++ [LF] := by
  unfold Record.fromBytes
  rw [parseAll_eq_some]
  constructor
  · exact pRecord_sound
  · rintro ⟨h1, h2, rfl⟩; exact pRecord_complete h1 h2 []

theorem Field.fromBytes_eq_some {b : Bytes} {f : Field} :
    Field.fromBytes b = some f ↔ IsField f ∧ b = f.write := by
  unfold Field.fromBytes
  rw [parseAll_eq_some]
  constructor
  · intro h; simpa using pField_sound _ _ _ h
  · rintro ⟨h1, rfl⟩; simpa using pField_complete h1 []

theorem Subfield.fromBytes_eq_some {b : Bytes} {s : Subfield} :
    Subfield.fromBytes b = some s ↔ IsSubfield s ∧ b = s.write := by
  unfold Subfield.fromBytes
  rw [parseAll_eq_some, pSubfield_eq_some]
  simp [SepFollow]

theorem Tag.fromBytes_eq_some {b t : Bytes} : Tag.fromBytes b = some t ↔ IsTag t ∧ b = t := by
  unfold Tag.fromBytes
  rw [parseAll_eq_some, pTag_eq_some]; simp

theorem Occurrence.fromBytes_eq_some {b t : Bytes} :
    Occurrence.fromBytes b = some t ↔ IsOcc t ∧ b = t := by
  unfold Occurrence.fromBytes
  rw [parseAll_eq_some]
  constructor
  · intro h; simpa using pOccurrence_sound h
  · rintro ⟨h, rfl⟩; simpa using pOccurrence_complete (r := []) h (by simp)

end Pica

namespace Pica
open Parser Spec

theorem mapM_some_mem {α β : Type} {f : α → Option β} :
    ∀ {xs : List α} {ys : List β}, xs.mapM f = some ys → ∀ y ∈ ys, ∃ x ∈ xs, f x = some y := by
  intro xs
  induction xs with
  | nil => intro ys h; simp at h; subst h; simp
  | cons x xs ih =>
    intro ys h
    rw [List.mapM_cons] at h
    cases hx : f x with
    | none => simp [hx] at h
    | some y =>
      cases hxs : xs.mapM f with
      | none => simp [hx, hxs] at h
      | some ys' =>
        simp [hx, hxs] at h
        subst h
        intro z hz
        cases hz with
        | head => exact ⟨x, by simp, hx⟩
        | tail _ hz => obtain ⟨w, hw, h'⟩ := ih hxs z hz; exact ⟨w, by simp [hw], h'⟩

theorem mapM_some_length {α β : Type} {f : α → Option β} :
    ∀ {xs : List α} {ys : List β}, xs.mapM f = some ys → ys.length = xs.length := by
  intro xs
  induction xs with
  | nil => intro ys h; simp at h; subst h; simp
  | cons x xs ih =>
    intro ys h
    rw [List.mapM_cons] at h
    cases hx : f x with
    | none => simp [hx] at h
    | some y =>
      cases hxs : xs.mapM f with
      | none => simp [hx, hxs] at h
      | some ys' => simp [hx, hxs] at h; subst h; simp [ih hxs]

theorem Subfield.new_ok {c v s} (h : Subfield.new c v = some s) :
    IsSubfield s ∧ s.value = v ∧ s.code.toNat = c.toNat := by
  unfold Subfield.new at h
  split at h
  · simp at h
  · rename_i v' hv
    split at h
    · simp at h
    · rename_i c' hc
      simp at h; subst h
      unfold SubfieldValue.new at hv
      split at hv
      · simp at hv
      · rename_i hv'
        simp at hv; subst hv
        unfold SubfieldCode.new at hc
        split at hc
        · rename_i hc'
          simp at hc; subst hc
          refine ⟨⟨isAlnum_iff.1 hc'.2, ?_⟩, rfl, ?_⟩
          · intro b hb
            simp at hv'
            constructor
            · rintro rfl; exact hv'.1 hb
            · rintro rfl; exact hv'.2 hb
          · simp; have := hc'.1; omega
        · simp at hc

theorem Field.new_ok {t o ss f} (h : Field.new t o ss = some f) : IsField f := by
  unfold Field.new at h
  split at h
  · simp at h
  · rename_i t' ht
    have ht' := (Tag.fromBytes_eq_some.1 ht).1
    have key : ∀ subs, List.mapM (fun s => Subfield.new s.1 s.2) ss = some subs →
        ∀ s ∈ subs, IsSubfield s := by
      intro subs hs s hm
      obtain ⟨x, _, hx⟩ := mapM_some_mem hs s hm
      exact (Subfield.new_ok hx).1
    split at h
    · split at h
      · simp at h
      · rename_i subs hs
        simp at h; subst h
        exact ⟨ht', by simp, key subs hs⟩
    · split at h
      · simp at h
      · rename_i o' ho
        split at h
        · simp at h
        · rename_i subs hs
          simp at h; subst h
          exact ⟨ht', by simpa using (Occurrence.fromBytes_eq_some.1 ho).1, key subs hs⟩

theorem Record.new_ok {fs r} (h : Record.new fs = some r) : IsRecord r := by
  intro f hf
  obtain ⟨x, _, hx⟩ := mapM_some_mem h f hf
  exact Field.new_ok hx

theorem Record.fromBytes_write {r : Record} (h : IsRecord r) (hne : r ≠ []) :
    Record.fromBytes r.write = some r :=
  Record.fromBytes_eq_some.2 ⟨hne, h, Record.write_of_ne hne⟩

theorem spells_subfields {ss b} : Spells SubfieldText ss b ↔ b = ss.flatMap Subfield.write := by
  constructor
  · intro h
    induction h with
    | nil => rfl
    | cons h1 _ ih => rw [ih, h1]; simp [Subfield.write, US]
  · rintro rfl
    induction ss with
    | nil => exact .nil
    | cons s ss ih => exact .cons rfl ih

theorem fieldText_iff {f b} : FieldText f b ↔ b = f.write := by
  unfold FieldText
  constructor
  · rintro ⟨occ, subs, ho, hs, rfl⟩
    rw [spells_subfields.1 hs]
    rcases ho with ⟨h, rfl⟩ | ⟨o, h, rfl⟩ <;> simp [Field.write, h, writeOcc, SP, RS, SLASH]
  · rintro rfl
    refine ⟨writeOcc f.occ, _, ?_, spells_subfields.2 rfl, rfl⟩
    cases h : f.occ <;> simp [writeOcc, SLASH]

theorem spells_fields {r b} : Spells FieldText r b ↔ b = r.flatMap Field.write := by
  constructor
  · intro h
    induction h with
    | nil => rfl
    | cons h1 _ ih => rw [ih, fieldText_iff.1 h1]; simp
  · rintro rfl
    induction r with
    | nil => exact .nil
    | cons s ss ih => exact .cons (fieldText_iff.2 rfl) ih

end Pica
