import Verif.Model.Owned
import Verif.Props.Codec

/-! # C70: owned and borrowed records -/

namespace Pica.Props
open Pica

theorem subfieldEq_iff (s : Subfield) (o : OSubfield) : subfieldEq s o = true ↔ o = .from s := by
  cases s; cases o
  simp only [subfieldEq, OSubfield.from, Bool.and_eq_true, beq_iff_eq, OSubfield.mk.injEq]
  exact ⟨fun h => ⟨h.1.symm, h.2.symm⟩, fun h => ⟨h.1.symm, h.2.symm⟩⟩

theorem vecEq_iff {α β : Type} {eq : α → β → Bool} {f : α → β} (h : ∀ a b, eq a b = true ↔ b = f a) :
    ∀ (l : List α) (m : List β), vecEq eq l m = true ↔ m = l.map f := by
  intro l
  induction l with
  | nil => intro m; cases m <;> simp [vecEq]
  | cons a l ih => intro m; cases m <;> simp [vecEq, h, ih]

/-- **C70** (comparison) a borrowed field equals an owned one iff the owned one is its copy. -/
theorem C70_field_eq (f : Field) (o : OField) : fieldEq f o = true ↔ o = .from f := by
  obtain ⟨t, oc, ss⟩ := f
  obtain ⟨⟨t'⟩, oc', ss'⟩ := o
  simp only [fieldEq, OField.from, OTag.from, Bool.and_eq_true, tagEq, beq_iff_eq, vecEq_iff subfieldEq_iff,
    OField.mk.injEq, OTag.mk.injEq]
  cases oc with
  | none =>
    cases oc' with
    | none => simp [eq_comm]
    | some b => simp
  | some a =>
    cases oc' with
    | none => simp
    | some b =>
      obtain ⟨b⟩ := b
      simp only [occEq, beq_iff_eq, Option.map_some, OOcc.from, Option.some.injEq, OOcc.mk.injEq]
      constructor
      · rintro ⟨⟨rfl, rfl⟩, rfl⟩; exact ⟨rfl, rfl, rfl⟩
      · rintro ⟨rfl, rfl, rfl⟩; exact ⟨⟨rfl, rfl⟩, rfl⟩

/-- **C70** (comparison) the same for records. -/
theorem C70_record_eq (r : Record) (o : ORecord) : recordEq r o = true ↔ o = .from r := by
  obtain ⟨fs⟩ := o
  simp [recordEq, ORecord.from, vecEq_iff C70_field_eq]

theorem subfield_from_inj {s t : Subfield} (h : OSubfield.from s = .from t) : s = t := by
  cases s; cases t
  simpa [OSubfield.from] using h

theorem map_inj {α β : Type} {f : α → β} (h : ∀ {a b}, f a = f b → a = b) : ∀ {l m : List α}, l.map f = m.map f → l = m
  | [], [], _ => rfl
  | [], _ :: _, e => by simp at e
  | _ :: _, [], e => by simp at e
  | a :: l, b :: m, e => by
    simp only [List.map_cons, List.cons.injEq] at e
    rw [h e.1, map_inj h e.2]

theorem field_from_inj {f g : Field} (h : OField.from f = .from g) : f = g := by
  obtain ⟨t, o, s⟩ := f
  obtain ⟨t', o', s'⟩ := g
  simp only [OField.from, OTag.from, OField.mk.injEq, OTag.mk.injEq] at h
  obtain ⟨rfl, h2, h3⟩ := h
  have h3 := map_inj subfield_from_inj h3
  have h2 : o = o' := by
    cases o <;> cases o' <;> simp [OOcc.from] at h2 ⊢
    exact h2
  rw [h2, h3]

/-- **C70** (nothing is lost) two borrowed records with the same copy are the same, and an owned record
equals two borrowed ones only if these are equal. -/
theorem C70_faithful (r r' : Record) : ORecord.from r = .from r' ↔ r = r' := by
  refine ⟨fun h => ?_, fun h => by rw [h]⟩
  simp only [ORecord.from, ORecord.mk.injEq] at h
  exact map_inj field_from_inj h

theorem subfield_write_from (s : Subfield) : (OSubfield.from s).write = s.write := rfl

theorem flatMap_from {α β : Type} {f : α → β} {g : β → Bytes} {g' : α → Bytes} (h : ∀ a, g (f a) = g' a) (l : List α) :
    (l.map f).flatMap g = l.flatMap g' := by
  induction l with
  | nil => rfl
  | cons a l ih => rw [List.map_cons, List.flatMap_cons, List.flatMap_cons, ih, h]

theorem field_write_from (f : Field) : (OField.from f).write = f.write := by
  obtain ⟨t, o, s⟩ := f
  simp only [OField.write, OField.from, OTag.from, Field.write, flatMap_from subfield_write_from]
  cases o <;> rfl

/-- **C70** (same bytes) an owned copy writes what the borrowed record writes. -/
theorem C70_write (r : Record) : (ORecord.from r).write = r.write := by
  simp only [ORecord.write, ORecord.from, Record.write, flatMap_from field_write_from, List.isEmpty_map]

theorem mapM_from {α β γ : Type} {f : α → Option β} {g : β → γ} (l : List α) :
    l.mapM (fun a => (f a).map g) = (l.mapM f).map (·.map g) := by
  induction l with
  | nil => rfl
  | cons a l ih =>
    rw [List.mapM_cons, List.mapM_cons, ih]
    cases f a with
    | none => rfl
    | some b => cases l.mapM f <;> rfl

/-- **C70** (same arguments) the constructor of owned fields accepts exactly what that of borrowed fields
accepts, and gives the copy of its result. -/
theorem C70_field_new (tag : Bytes) (occ : Option Bytes) (subs : List (Char × Bytes)) :
    OField.new tag occ subs = (Field.new tag occ subs).map .from := by
  have hm : subs.mapM (fun s => OSubfield.new s.1 s.2) =
      (subs.mapM (fun s => Subfield.new s.1 s.2)).map (·.map .from) :=
    mapM_from (f := fun s : Char × Bytes => Subfield.new s.1 s.2) subs
  unfold OField.new Field.new OTag.new OOcc.new
  rw [hm]
  cases Tag.fromBytes tag with
  | none => rfl
  | some t =>
    cases occ with
    | none => cases subs.mapM (fun s => Subfield.new s.1 s.2) <;> rfl
    | some o =>
      cases h : Occurrence.fromBytes o with
      | none => simp [h]
      | some o => cases subs.mapM (fun s => Subfield.new s.1 s.2) <;> simp [h, OField.from]

/-- **C70** an owned record put together from constructed fields is read back, from the bytes it
writes, as a borrowed record that equals it. -/
theorem C70_readback (args : List (Bytes × Option Bytes × List (Char × Bytes))) (hne : args ≠ []) (fs : List OField)
    (h : args.mapM (fun a => OField.new a.1 a.2.1 a.2.2) = some fs) :
    ∃ r, Record.fromBytes (ORecord.write ⟨fs⟩) = some r ∧ recordEq r ⟨fs⟩ = true := by
  have e : (fun a : Bytes × Option Bytes × List (Char × Bytes) => OField.new a.1 a.2.1 a.2.2) =
      fun a => (Field.new a.1 a.2.1 a.2.2).map OField.from := by
    funext a; exact C70_field_new _ _ _
  rw [e, mapM_from (f := fun a : Bytes × Option Bytes × List (Char × Bytes) => Field.new a.1 a.2.1 a.2.2)] at h
  cases hr : args.mapM (fun a => Field.new a.1 a.2.1 a.2.2) with
  | none => rw [hr] at h; simp at h
  | some r =>
    rw [hr] at h
    cases h
    refine ⟨r, ?_, (C70_record_eq r _).2 rfl⟩
    have := C70_write r
    rw [ORecord.from] at this
    rw [this]
    exact C02_encode_decode args r hr hne

/-- **C70** (access) `contains` says whether there is a subfield with the code, and `find` gives the first
subfield with a property. -/
theorem C70_access (f : Field) (c : Char) (p : Subfield → Bool) :
    (f.contains c = true ↔ ∃ s ∈ f.subfields, s.code.toNat = c.toNat) ∧
    (∀ s, f.find p = some s ↔ ∃ u v, f.subfields = u ++ s :: v ∧ p s = true ∧ ∀ t ∈ u, p t = false) ∧
    (f.find p = none ↔ ∀ s ∈ f.subfields, p s = false) := by
  refine ⟨?_, fun s => ?_, ?_⟩
  · rw [Field.contains, List.any_eq_true]
    refine exists_congr fun s => and_congr_right fun _ => ?_
    rw [beq_iff_eq]
    have hv : Nat.isValidChar s.code.toNat := Or.inl (by have := s.code.toNat_lt; omega)
    have hto : (Char.ofNat s.code.toNat).toNat = s.code.toNat := by
      rw [Char.ofNat, dif_pos hv]; rfl
    constructor
    · rintro rfl; exact hto.symm
    · intro h
      apply Char.ext
      apply UInt32.toNat_inj.1
      show (Char.ofNat s.code.toNat).toNat = c.toNat
      rw [hto, h]
  · rw [Field.find, List.find?_eq_some_iff_append]
    constructor
    · rintro ⟨h1, u, v, h2, h3⟩; exact ⟨u, v, h2, h1, by simpa using h3⟩
    · rintro ⟨u, v, h2, h1, h3⟩; exact ⟨h1, u, v, h2, by simpa using h3⟩
  · rw [Field.find, List.find?_eq_none]; simp

/-- **C70** (levels) exactly the three names are levels. -/
theorem C70_level (s : String) (l : Level) : Level.fromStr s = some l ↔
    (s = "main" ∧ l = .main) ∨ (s = "local" ∧ l = .local) ∨ (s = "copy" ∧ l = .copy) := by
  unfold Level.fromStr
  by_cases h1 : s = "main"
  · subst h1; cases l <;> simp
  · by_cases h2 : s = "local"
    · subst h2; cases l <;> simp
    · by_cases h3 : s = "copy"
      · subst h3; cases l <;> simp
      · simp [h1, h2, h3]

/-- a field with an occurrence -/
def ownedSample : Field := ⟨bs "028A", some (bs "01"), [⟨0x61, bs "x"⟩, ⟨0x39, []⟩]⟩

example : fieldEq ownedSample (.from ownedSample) = true ∧
    fieldEq ownedSample { OField.from ownedSample with occ := none } = false ∧
    fieldEq ownedSample { OField.from ownedSample with subfields := [⟨0x61, bs "x"⟩] } = false := by decide +kernel
example : OField.new (bs "028A") (some (bs "01")) [('a', bs "x"), ('9', [])] = some (.from ownedSample) ∧
    OField.new (bs "028A") (some (bs "1")) [('a', bs "x")] = none := by decide +kernel
example : ownedSample.contains '9' = true ∧ ownedSample.contains 'b' = false := by decide +kernel

/-- the fields of a record given by its parts -/
example := C70_readback [(bs "028A", some (bs "01"), [('a', bs "x"), ('9', [])])] (by simp) [.from ownedSample] (by decide +kernel)

end Pica.Props
