import Verif.Props.Convert
import Verif.Props.Concat

/-! # C32 and C38: exactly what is lost -/

namespace Pica.Props
open Pica Spec Convert

/-! ## C38 -/

/-- the values as they are shown -/
def shownRecord (lossy : Bytes → Bytes) (r : Record) : Record :=
  r.map (fun f => ⟨f.tag, f.occ, f.subfields.map (fun s => ⟨s.code, lossy s.value⟩)⟩)

/-- the record without its occurrences -/
def withoutOcc (r : Record) : Record := r.map (fun f => ⟨f.tag, none, f.subfields⟩)

theorem jsonRecord_shown (lossy : Bytes → Bytes) (r : Record) :
    jsonRecord lossy r = jsonRecord id (shownRecord lossy r) := by
  unfold jsonRecord shownRecord
  rw [List.map_map]
  congr 1
  apply List.map_congr_left
  intro f _
  simp only [Function.comp, jsonField, List.flatMap_map, id]

/-- **C38** (exactly what json loses) two inputs give the same json iff their records are the same after the
bytes that are no UTF-8 have been replaced. -/
theorem C38_json_exact (c : ConvertCmd) (hto : c.to = .json) (hutf : ∀ v, utf8Valid (c.lossy v) = true)
    (files files' : List (String × Bytes)) (rs rs' : List ByteRecord) (hi : Input files rs) (hi' : Input files' rs')
    (out out' : Bytes) (h : c.run files = .ok out) (h' : c.run files' = .ok out') :
    out = out' ↔ (recordsOf rs).map (shownRecord c.lossy) = (recordsOf rs').map (shownRecord c.lossy) := by
  have hrun : ∀ {files rs out}, Input files rs → c.run files = .ok out →
      out = jsonArray (((recordsOf rs).map (shownRecord c.lossy)).map (jsonRecord id)) := by
    intro files rs out hi h
    obtain ⟨s, h1, e⟩ := convert_ok hi h
    obtain ⟨s', h1', e'⟩ := json_run hto rs
    rw [h1] at h1'
    cases h1'
    rw [e, e', List.map_map]
    congr 1
    apply List.map_congr_left
    intro r _
    exact jsonRecord_shown _ _
  rw [hrun hi h, hrun hi' h']
  constructor
  · intro he
    have hu : ∀ rs : List ByteRecord, ∀ r ∈ (recordsOf rs).map (shownRecord c.lossy), Utf8Record r := by
      intro rs r hr f hf s hs
      obtain ⟨r0, _, rfl⟩ := List.mem_map.1 hr
      obtain ⟨f0, _, rfl⟩ := List.mem_map.1 hf
      obtain ⟨s0, _, rfl⟩ := List.mem_map.1 hs
      exact hutf _
    refine (jsonArray_selfDelim (jsonRecord_selfDelim (lossy := id) (fun _ _ => rfl)) ?_ _ _ [] [] (hu rs) (hu rs')
      trivial trivial (by simpa using he)).1
    intro a _
    exact ⟨0x5B, _, rfl, by decide⟩
  · intro he; rw [he]

/-- **C38** (exactly what plain loses) two inputs give the same text iff they have the same sequence of fields. -/
theorem C38_plain_exact (c : ConvertCmd) (hto : c.to = .plain)
    (files files' : List (String × Bytes)) (rs rs' : List ByteRecord) (hi : Input files rs) (hi' : Input files' rs')
    (out out' : Bytes) (h : c.run files = .ok out) (h' : c.run files' = .ok out') :
    out = out' ↔ (recordsOf rs).flatten = (recordsOf rs').flatten := by
  constructor
  · intro he
    obtain ⟨recover, hr⟩ := C38_plain_partial c hto
    rw [← hr files rs out hi h, ← hr files' rs' out' hi' h', he]
  · intro he
    have hw : ∀ s r, c.write s r = some ⟨s.out ++ plainRecord r.record, s.count + 1⟩ := by
      intro s r; rw [ConvertCmd.write, hto]
    have hflat : ∀ rs : List ByteRecord, rs.flatMap (fun r => plainRecord r.record) =
        (recordsOf rs).flatten.flatMap plainField := by
      intro rs
      induction rs with
      | nil => rfl
      | cons r rs ih =>
        show plainRecord r.record ++ _ = (r.record :: recordsOf rs).flatten.flatMap plainField
        rw [List.flatten_cons, List.flatMap_append, ← ih]
        rfl
    obtain ⟨s1, h1, e1⟩ := convert_ok hi h
    obtain ⟨s2, h2, e2⟩ := convert_ok hi' h'
    rw [foldlM_append hw] at h1 h2
    simp only [Option.some.injEq] at h1 h2
    subst h1 h2
    rw [e1, e2]
    simp only
    rw [hflat, hflat, he]

/-- **C38** (exactly what xml loses) if all values of two records are UTF-8, they give the same data iff they are
the same without their occurrences; a record that has another value gives none. -/
theorem C38_xml_exact (a b : Record) :
    (xmlRecord a = none ↔ ¬ Utf8Record a) ∧
    (Utf8Record a → Utf8Record b → (xmlRecord a = xmlRecord b ↔ withoutOcc a = withoutOcc b)) := by
  have hall : ∀ r : Record, r.all (fun f => f.subfields.all (fun s => utf8Valid s.value)) = true ↔ Utf8Record r := by
    intro r
    rw [List.all_eq_true]
    constructor
    · intro h f hf s hs; exact List.all_eq_true.1 (h f hf) s hs
    · intro h f hf; exact List.all_eq_true.2 (fun s hs => h f hf s hs)
  have key : ∀ r : Record, Utf8Record r →
      xmlRecord r = some ((withoutOcc r).map (fun f => (f.tag, f.subfields.map (fun s => (s.code, s.value))))) := by
    intro r hr
    unfold xmlRecord
    rw [if_pos ((hall r).2 hr), withoutOcc, List.map_map]
    rfl
  constructor
  · unfold xmlRecord
    split
    · rename_i h
      simp [(hall a).1 h]
    · rename_i h
      simp only [true_iff]
      exact fun hu => h ((hall a).2 hu)
  · intro ha hb
    constructor
    · intro h
      apply C38_xml_partial (withoutOcc a) (withoutOcc b)
      · intro f hf s hs
        obtain ⟨f0, h0, rfl⟩ := List.mem_map.1 hf
        exact ha f0 h0 s hs
      · intro f hf s hs
        obtain ⟨f0, h0, rfl⟩ := List.mem_map.1 hf
        exact hb f0 h0 s hs
      · intro f hf; obtain ⟨f0, _, rfl⟩ := List.mem_map.1 hf; rfl
      · intro f hf; obtain ⟨f0, _, rfl⟩ := List.mem_map.1 hf; rfl
      · have e : ∀ r : Record, Utf8Record r → xmlRecord (withoutOcc r) = xmlRecord r := by
          intro r hr
          rw [key r hr, key (withoutOcc r)]
          · simp [withoutOcc]
          · intro f hf s hs
            obtain ⟨f0, h0, rfl⟩ := List.mem_map.1 hf
            exact hr f0 h0 s hs
        rw [e a ha, e b hb, h]
    · intro h
      rw [key a ha, key b hb, h]

/-! ## C32 -/

/-- **C32** (exactly what `--unique` by IDN does) the command finishes iff every record has an IDN, and then writes
the first record for every IDN as it is shown, unless that is empty. -/
theorem C32_unique_idn_exact (c : ConcatCmd) (hu : c.unique = true) (hs : c.strategy = .idn)
    (files : List (String × Bytes)) (rs : List ByteRecord) (hi : Input files rs)
    (hc : c.skip = true ∨ AllValid files) :
    ((∃ s, c.run files = .ok s) ↔ ∀ r ∈ rs, (idnOf r.record).isSome = true) ∧
    ∀ s, c.run files = .ok s →
      s.out = (firstOf (fun r => c.lossy ((idnOf r.record).getD [])) rs).flatMap ByteRecord.write := by
  have hrun : (∀ r ∈ rs, (idnOf r.record).isSome = true) → ∃ s, c.run files = .ok s ∧
      s.out = (firstOf (fun r => c.lossy ((idnOf r.record).getD [])) rs).flatMap ByteRecord.write := by
    intro hall
    obtain ⟨s', h1, h2, h3⟩ := unique_run c hu (fun r => c.lossy ((idnOf r.record).getD [])) rs []
      ⟨[], if c.tee then some [] else none, []⟩ (by
        intro r hr
        obtain ⟨v, hv⟩ := Option.isSome_iff_exists.1 (hall r hr)
        rw [key_idn c hs, hv]; simp) (by simp)
    refine ⟨s', run_of_steps hi hc h1, ?_⟩
    rw [h2, firstFrom_nil]; rfl
  have hnec : ∀ s, c.run files = .ok s → ∀ r ∈ rs, (idnOf r.record).isSome = true := by
    intro s h r hr
    cases hidn : idnOf r.record with
    | some v => rfl
    | none =>
      have := C32_missing_idn_false c hu hs files rs hi hc r hr hidn
      rw [this] at h
      simp at h
  refine ⟨⟨fun ⟨s, h⟩ => hnec s h, fun hall => (hrun hall).imp (fun _ h => h.1)⟩, ?_⟩
  intro s h
  obtain ⟨s', h1, h2⟩ := hrun (hnec s h)
  rw [h] at h1
  cases h1
  exact h2

/-! ## cases -/

/-- two records that differ in an occurrence and in a byte that is no UTF-8 -/
example : ∃ a b : Record, a ≠ b ∧ Utf8Record a ∧ Utf8Record b ∧ withoutOcc a = withoutOcc b :=
  ⟨[⟨bs "003@", some (bs "01"), [⟨0x30, bs "x"⟩]⟩], [⟨bs "003@", none, [⟨0x30, bs "x"⟩]⟩], by decide +kernel,
    by intro f hf s hs; simp only [List.mem_singleton] at hf; subst hf; simp only [List.mem_singleton] at hs; subst hs
       decide +kernel,
    by intro f hf s hs; simp only [List.mem_singleton] at hf; subst hf; simp only [List.mem_singleton] at hs; subst hs
       decide +kernel, rfl⟩

example : (convertSample .json).run [("a", bs "003@ " ++ [0x1F, 0x30, 0xFF, 0x1E, 0x0A])] =
    (convertSample .json).run [("a", bs "003@ " ++ [0x1F, 0x30, 0xFE, 0x1E, 0x0A])] := by decide +kernel

end Pica.Props
