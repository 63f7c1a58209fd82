import Verif.Lemmas.Convert
import Verif.Props.Concat

/-! # C38: convert -/

namespace Pica.Props
open Pica Spec Convert

/-- the records written: the parsed records of the input -/
def recordsOf (rs : List ByteRecord) : List Record := rs.map (·.record)

/-- the loop of `Convert` writes record after record -/
theorem convert_steps (c : ConvertCmd) (rs : List ByteRecord) : ∀ s : ConvertState,
    runSteps c.step rs s = rs.foldlM c.write s := by
  induction rs with
  | nil => intro s; rfl
  | cons r rs ih =>
    intro s
    rw [runSteps, ConvertCmd.step, List.foldlM_cons]
    cases h : c.write s r with
    | none => rfl
    | some s' => exact ih s'

theorem convert_ok {c : ConvertCmd} {files : List (String × Bytes)} {rs : List ByteRecord}
    (hi : Input files rs) {out : Bytes} (h : c.run files = .ok out) :
    ∃ s, rs.foldlM c.write ⟨c.head, 0⟩ = some s ∧ out = s.out ++ c.tail := by
  unfold ConvertCmd.run at h
  cases hl : filesLoop c.skip id c.step files ⟨c.head, 0⟩ with
  | err e s => rw [hl] at h; simp at h
  | panic => rw [hl] at h; simp at h
  | ok s =>
    rw [hl] at h
    simp only [LoopResult.ok.injEq] at h
    have := filesLoop_ok hi hl
    rw [convert_steps] at this
    exact ⟨s, this, h.symm⟩

/-- a writer that appends a text for each record -/
theorem foldlM_append {c : ConvertCmd} {g : ByteRecord → Bytes}
    (hg : ∀ s r, c.write s r = some ⟨s.out ++ g r, s.count + 1⟩) (rs : List ByteRecord) : ∀ s : ConvertState,
    rs.foldlM c.write s = some ⟨s.out ++ rs.flatMap g, s.count + rs.length⟩ := by
  induction rs with
  | nil => intro s; simp
  | cons r rs ih =>
    intro s
    rw [List.foldlM_cons, hg]
    show rs.foldlM c.write ⟨s.out ++ g r, s.count + 1⟩ = _
    rw [ih]
    simp [Nat.add_assoc, Nat.add_comm 1]

/-- the records read from lines are valid and contain no newline -/
theorem input_record {files : List (String × Bytes)} {rs : List ByteRecord} (hi : Input files rs) :
    ∀ r ∈ recordsOf rs, r ≠ [] ∧ IsRecord r ∧ NoNewline r := by
  intro r hr
  obtain ⟨x, hx, rfl⟩ := List.mem_map.1 hr
  obtain ⟨t, ht, hb, _⟩ := input_lineRecord hi x hx
  obtain ⟨h1, h2, h3⟩ := Record.fromBytes_eq_some.1 (ByteRecord.fromBytes_eq_some.1 hb).1
  refine ⟨h1, h2, fun f hf s hs hl => ht ?_⟩
  have h4 := List.append_cancel_right h3
  rw [h4]
  refine List.mem_flatMap.2 ⟨f, hf, ?_⟩
  rw [Field.write]
  simp only [List.mem_append, List.mem_flatMap]
  exact .inl (.inr ⟨s, hs, by simp [Subfield.write, hl]⟩)

/-- a function is recoverable if it is injective -/
theorem recover_of_inj {α β : Type} {R : α → β → Prop} [Nonempty β]
    (h : ∀ out x y, R out x → R out y → x = y) : ∃ recover : α → β, ∀ out x, R out x → recover out = x := by
  classical
  refine ⟨fun out => if hx : ∃ x, R out x then hx.choose else Classical.choice inferInstance, fun out x hx => ?_⟩
  have he : ∃ x, R out x := ⟨x, hx⟩
  dsimp only
  rw [dif_pos he]
  exact h out _ _ he.choose_spec hx

/-- `out` is a possible output of the command for an input with the records `x` -/
def Converts (c : ConvertCmd) (out : Bytes) (x : List Record) : Prop :=
  ∃ files rs, Input files rs ∧ c.run files = .ok out ∧ x = recordsOf rs

/-! ## binary and import -/

theorem binary_inj {x y : List Record} (hx : ∀ r ∈ x, r ≠ [] ∧ IsRecord r) (hy : ∀ r ∈ y, r ≠ [] ∧ IsRecord r)
    (h : x.flatMap binaryRecord = y.flatMap binaryRecord) : x = y := by
  have hrec : SelfDelim (fun r : Record => r ≠ [] ∧ IsRecord r) (fun _ => True) binaryRecord := by
    intro a a' r r' ha ha' _ _ h
    simp only [binaryRecord, List.append_assoc, List.cons_append, List.nil_append] at h
    have := flatMap_selfDelim (S := fun b => b = 0x30 ∨ b = 0x31 ∨ b = 0x32) fieldWrite_selfDelim
      (fun f hf => field_head hf _) (fun _ _ _ => trivial) a a' (0x1D :: r) (0x1D :: r') ha.2 ha'.2
      ⟨trivial, by rintro h t e; simp only [List.cons.injEq] at e; rw [← e.1]; decide⟩
      ⟨trivial, by rintro h t e; simp only [List.cons.injEq] at e; rw [← e.1]; decide⟩ (by simpa using h)
    simp only [List.cons.injEq, true_and] at this
    exact this
  refine (flatMap_selfDelim (S := fun _ => True) hrec ?_ (fun _ _ _ => trivial) x y [] [] hx hy
    ⟨trivial, by simp⟩ ⟨trivial, by simp⟩ (by simpa using h)).1
  intro a ha
  cases hb : binaryRecord a with
  | nil => simp [binaryRecord] at hb
  | cons b t => exact ⟨b, t, rfl, trivial⟩

/-- **C38** binary: from the output, the records can be recovered. -/
theorem C38_binary (c : ConvertCmd) (hto : c.to = .binary) :
    ∃ recover : Bytes → List Record, ∀ files rs out, Input files rs → c.run files = .ok out →
      recover out = recordsOf rs := by
  have hw : ∀ s r, c.write s r = some ⟨s.out ++ binaryRecord r.record, s.count + 1⟩ := by
    intro s r; rw [ConvertCmd.write, hto]
  obtain ⟨recover, hr⟩ := recover_of_inj (R := Converts c) (by
    rintro out x y ⟨f1, r1, i1, o1, rfl⟩ ⟨f2, r2, i2, o2, rfl⟩
    obtain ⟨s1, h1, e1⟩ := convert_ok i1 o1
    obtain ⟨s2, h2, e2⟩ := convert_ok i2 o2
    rw [foldlM_append hw] at h1 h2
    simp only [Option.some.injEq] at h1 h2
    subst h1 h2
    rw [e1] at e2
    have e3 := List.append_cancel_left (List.append_cancel_right e2)
    apply binary_inj (fun r hr => ⟨(input_record i1 r hr).1, (input_record i1 r hr).2.1⟩)
      (fun r hr => ⟨(input_record i2 r hr).1, (input_record i2 r hr).2.1⟩)
    simpa [recordsOf, List.flatMap_map] using e3)
  exact ⟨recover, fun files rs out hi h => hr out _ ⟨files, rs, hi, h, rfl⟩⟩

theorem import_inj {x y : List Record} (hx : ∀ r ∈ x, IsRecord r ∧ NoNewline r) (hy : ∀ r ∈ y, IsRecord r ∧ NoNewline r)
    (h : x.flatMap importRecord = y.flatMap importRecord) : x = y := by
  have hrec : SelfDelim (fun r : Record => IsRecord r ∧ NoNewline r) (fun r => r = [] ∨ ∃ t, r = 0x27 :: t)
      importRecord := by
    intro a a' r r' ha ha' hr hr' h
    simp only [importRecord, List.append_assoc] at h
    have h' := List.append_cancel_left h
    refine flatMap_selfDelim (S := fun b => b = RS) importField_selfDelim
      (fun f _ => ⟨_, _, rfl, rfl⟩) (fun _ _ _ => trivial) a a' r r'
      (fun f hf => ⟨ha.1 f hf, ha.2 f hf⟩) (fun f hf => ⟨ha'.1 f hf, ha'.2 f hf⟩) ⟨trivial, ?_⟩ ⟨trivial, ?_⟩
      (by simpa using h')
    · rintro b t rfl rfl
      rcases hr with hr | ⟨t', hr⟩
      · simp at hr
      · simp only [List.cons.injEq] at hr; exact absurd hr.1 (by decide)
    · rintro b t rfl rfl
      rcases hr' with hr | ⟨t', hr⟩
      · simp at hr
      · simp only [List.cons.injEq] at hr; exact absurd hr.1 (by decide)
  refine (flatMap_selfDelim (S := fun _ => True) hrec ?_ ?_ x y [] [] hx hy
    ⟨.inl rfl, by simp⟩ ⟨.inl rfl, by simp⟩ (by simpa using h)).1
  · intro a _; exact ⟨_, _, rfl, trivial⟩
  · intro a r _; exact .inr ⟨_, rfl⟩

/-- **C38** import: from the output, the records can be recovered. -/
theorem C38_import (c : ConvertCmd) (hto : c.to = .import) :
    ∃ recover : Bytes → List Record, ∀ files rs out, Input files rs → c.run files = .ok out →
      recover out = recordsOf rs := by
  have hw : ∀ s r, c.write s r = some ⟨s.out ++ importRecord r.record, s.count + 1⟩ := by
    intro s r; rw [ConvertCmd.write, hto]
  obtain ⟨recover, hr⟩ := recover_of_inj (R := Converts c) (by
    rintro out x y ⟨f1, r1, i1, o1, rfl⟩ ⟨f2, r2, i2, o2, rfl⟩
    obtain ⟨s1, h1, e1⟩ := convert_ok i1 o1
    obtain ⟨s2, h2, e2⟩ := convert_ok i2 o2
    rw [foldlM_append hw] at h1 h2
    simp only [Option.some.injEq] at h1 h2
    subst h1 h2
    rw [e1] at e2
    have e3 := List.append_cancel_left (List.append_cancel_right e2)
    apply import_inj (fun r hr => (input_record i1 r hr).2) (fun r hr => (input_record i2 r hr).2)
    simpa [recordsOf, List.flatMap_map] using e3)
  exact ⟨recover, fun files rs out hi h => hr out _ ⟨files, rs, hi, h, rfl⟩⟩

/-! ## plain -/

theorem plain_inj {x y : List Field} (hx : ∀ f ∈ x, IsField f ∧ ∀ s ∈ f.subfields, LF ∉ s.value)
    (hy : ∀ f ∈ y, IsField f ∧ ∀ s ∈ f.subfields, LF ∉ s.value)
    (h : x.flatMap plainField = y.flatMap plainField) : x = y := by
  refine (flatMap_selfDelim (S := fun _ => True) plainField_selfDelim ?_ (fun _ _ _ => trivial) x y [] [] hx hy
    ⟨trivial, by simp⟩ ⟨trivial, by simp⟩ (by simpa using h)).1
  intro a _
  cases hb : plainField a with
  | nil => simp [plainField] at hb
  | cons b t => exact ⟨b, t, rfl, trivial⟩

/-- **C38** plain: from the output, the sequence of all fields can be recovered.
Missing: which fields belong to which record, see below. -/
theorem C38_plain_partial (c : ConvertCmd) (hto : c.to = .plain) :
    ∃ recover : Bytes → List Field, ∀ files rs out, Input files rs → c.run files = .ok out →
      recover out = (recordsOf rs).flatten := by
  have hw : ∀ s r, c.write s r = some ⟨s.out ++ plainRecord r.record, s.count + 1⟩ := by
    intro s r; rw [ConvertCmd.write, hto]
  obtain ⟨recover, hr⟩ := recover_of_inj
    (R := fun (out : Bytes) (x : List Field) => ∃ rs, Converts c out rs ∧ x = rs.flatten) (by
    rintro out x y ⟨_, ⟨f1, r1, i1, o1, rfl⟩, rfl⟩ ⟨_, ⟨f2, r2, i2, o2, rfl⟩, rfl⟩
    obtain ⟨s1, h1, e1⟩ := convert_ok i1 o1
    obtain ⟨s2, h2, e2⟩ := convert_ok i2 o2
    rw [foldlM_append hw] at h1 h2
    simp only [Option.some.injEq] at h1 h2
    subst h1 h2
    rw [e1] at e2
    have e3 := List.append_cancel_left (List.append_cancel_right e2)
    have hflat : ∀ rs : List ByteRecord, rs.flatMap (fun r => plainRecord r.record) =
        (recordsOf rs).flatten.flatMap plainField := by
      intro rs
      induction rs with
      | nil => rfl
      | cons r rs ih =>
        show plainRecord r.record ++ _ = (r.record :: recordsOf rs).flatten.flatMap plainField
        rw [List.flatten_cons, List.flatMap_append, ← ih]
        rfl
    rw [hflat, hflat] at e3
    refine plain_inj ?_ ?_ e3
    · intro f hf
      obtain ⟨r, hr, hf⟩ := List.mem_flatten.1 hf
      exact ⟨(input_record i1 r hr).2.1 f hf, (input_record i1 r hr).2.2 f hf⟩
    · intro f hf
      obtain ⟨r, hr, hf⟩ := List.mem_flatten.1 hf
      exact ⟨(input_record i2 r hr).2.1 f hf, (input_record i2 r hr).2.2 f hf⟩)
  exact ⟨recover, fun files rs out hi h => hr out _ ⟨_, ⟨files, rs, hi, h, rfl⟩, rfl⟩⟩

/-- **C38** plain: two different records have different texts. -/
theorem C38_plain_records (a b : Record) (ha : IsRecord a ∧ NoNewline a) (hb : IsRecord b ∧ NoNewline b)
    (h : plainRecord a = plainRecord b) : a = b :=
  plain_inj (fun f hf => ⟨ha.1 f hf, ha.2 f hf⟩) (fun f hf => ⟨hb.1 f hf, hb.2 f hf⟩) h

/-- **C38** plain is false for streams: there is no separator between records, so
that two records and the record with the fields of both give the same output. -/
theorem C38_plain_false (c : ConvertCmd) (hto : c.to = .plain) (a b : Record) :
    ∀ s x y z, x.record = a → y.record = b → z.record = a ++ b →
    ([x, y].foldlM c.write s).map (·.out) = ([z].foldlM c.write s).map (·.out) := by
  intro s x y z hx hy hz
  have hw : ∀ s r, c.write s r = some ⟨s.out ++ plainRecord r.record, s.count + 1⟩ := by
    intro s r; rw [ConvertCmd.write, hto]
  rw [foldlM_append hw, foldlM_append hw]
  simp [hx, hy, hz, plainRecord, List.flatMap_append]

/-! ## json -/

theorem json_run {c : ConvertCmd} (hto : c.to = .json) (rs : List ByteRecord) :
    ∃ s, rs.foldlM c.write ⟨c.head, 0⟩ = some s ∧
      s.out ++ c.tail = jsonArray ((recordsOf rs).map (jsonRecord c.lossy)) := by
  have hstep : ∀ (rs : List ByteRecord) (s : ConvertState), 0 < s.count →
      ∃ s', rs.foldlM c.write s = some s' ∧
        s'.out = s.out ++ (recordsOf rs).flatMap (fun r => 0x2C :: jsonRecord c.lossy r) := by
    intro rs
    induction rs with
    | nil => intro s _; exact ⟨s, rfl, by simp [recordsOf]⟩
    | cons r rs ih =>
      intro s hs
      rw [List.foldlM_cons, ConvertCmd.write, hto]
      dsimp only
      rw [if_pos hs]
      obtain ⟨s', h1, h2⟩ := ih ⟨s.out ++ [0x2C] ++ jsonRecord c.lossy r.record, s.count + 1⟩ (by simp)
      refine ⟨s', h1, ?_⟩
      rw [h2]
      simp [recordsOf]
  cases rs with
  | nil =>
    refine ⟨_, rfl, ?_⟩
    simp [ConvertCmd.head, ConvertCmd.tail, hto, recordsOf, jsonArray]
  | cons r rs =>
    rw [List.foldlM_cons, ConvertCmd.write, hto]
    dsimp only
    rw [if_neg (by decide)]
    obtain ⟨s', h1, h2⟩ := hstep rs ⟨c.head ++ jsonRecord c.lossy r.record, 0 + 1⟩ (by simp)
    refine ⟨s', h1, ?_⟩
    rw [h2]
    show _ = jsonArray (jsonRecord c.lossy r.record :: (recordsOf rs).map (jsonRecord c.lossy))
    rw [jsonArray_cons, List.flatMap_map, ConvertCmd.head,
      ConvertCmd.tail, hto]
    simp [recordsOf]

/-- **C38** json: if all values are UTF-8, the records can be recovered from the
output.  Missing: other values, see below. -/
theorem C38_json_partial (c : ConvertCmd) (hto : c.to = .json)
    (hlossy : ∀ v, utf8Valid v = true → c.lossy v = v) :
    ∃ recover : Bytes → List Record, ∀ files rs out, Input files rs → (∀ r ∈ recordsOf rs, Utf8Record r) →
      c.run files = .ok out → recover out = recordsOf rs := by
  obtain ⟨recover, hr⟩ := recover_of_inj
    (R := fun (out : Bytes) (x : List Record) => Converts c out x ∧ ∀ r ∈ x, Utf8Record r) (by
    rintro out x y ⟨⟨f1, r1, i1, o1, rfl⟩, u1⟩ ⟨⟨f2, r2, i2, o2, rfl⟩, u2⟩
    obtain ⟨s1, h1, e1⟩ := convert_ok i1 o1
    obtain ⟨s2, h2, e2⟩ := convert_ok i2 o2
    obtain ⟨s1', h1', e1'⟩ := json_run hto r1
    obtain ⟨s2', h2', e2'⟩ := json_run hto r2
    rw [h1] at h1'
    rw [h2] at h2'
    cases h1'
    cases h2'
    rw [e1'] at e1
    rw [e2'] at e2
    rw [e1] at e2
    refine (jsonArray_selfDelim (jsonRecord_selfDelim hlossy) ?_ _ _ [] [] u1 u2 trivial trivial
      (by simpa using e2)).1
    intro a _
    refine ⟨0x5B, _, rfl, by decide⟩)
  exact ⟨recover, fun files rs out hi hu h => hr out _ ⟨⟨files, rs, hi, h, rfl⟩, hu⟩⟩

/-- **C38** json is false for values that are not UTF-8: they are replaced. -/
theorem C38_json_false (lossy : Bytes → Bytes) (v w : Bytes) (h : lossy v = lossy w) (tag : Bytes) (code : Byte) :
    jsonRecord lossy [⟨tag, none, [⟨code, v⟩]⟩] = jsonRecord lossy [⟨tag, none, [⟨code, w⟩]⟩] := by
  simp [jsonRecord, jsonField, h]

/-! ## xml -/

/-- **C38** xml is false: the occurrence is not written. -/
theorem C38_xml_false (tag : Bytes) (o o' : Option Bytes) (ss : List Subfield) :
    xmlRecord [⟨tag, o, ss⟩] = xmlRecord [⟨tag, o', ss⟩] := by
  simp [xmlRecord]

/-- **C38** xml is false for values that are not UTF-8: the command panics. -/
theorem C38_xml_panic_false (c : ConvertCmd) (hto : c.to = .xml) (files : List (String × Bytes))
    (rs : List ByteRecord) (hi : Input files rs) (hc : c.skip = true ∨ AllValid files)
    (r : ByteRecord) (hr : r ∈ rs) (f : Field) (hf : f ∈ r.record) (s : Subfield) (hs : s ∈ f.subfields)
    (hv : utf8Valid s.value = false) : c.run files = .panic := by
  have hx : xmlRecord r.record = none := by
    unfold xmlRecord
    rw [if_neg]
    intro h
    have := List.all_eq_true.1 (List.all_eq_true.1 h f hf) s hs
    rw [hv] at this; simp at this
  have hnone : ∀ (l : List ByteRecord) (st : ConvertState), r ∈ l → l.foldlM c.write st = none := by
    intro l
    induction l with
    | nil => intro st h; simp at h
    | cons y l ih =>
      intro st h
      rw [List.foldlM_cons]
      rcases List.mem_cons.1 h with rfl | h
      · rw [ConvertCmd.write, hto]; dsimp only; rw [hx]; rfl
      · cases c.write st y with
        | none => rfl
        | some s' => exact ih s' h
  unfold ConvertCmd.run
  rw [filesLoop_clean hi hc, convert_steps, hnone rs _ hr]

/-- **C38** xml: the data of a record without occurrences determines it, if all
values are UTF-8. -/
theorem C38_xml_partial (a b : Record) (ha : Utf8Record a) (hb : Utf8Record b)
    (hoa : ∀ f ∈ a, f.occ = none) (hob : ∀ f ∈ b, f.occ = none) (h : xmlRecord a = xmlRecord b) : a = b := by
  have key : ∀ r : Record, Utf8Record r →
      xmlRecord r = some (r.map (fun f => (f.tag, f.subfields.map (fun s => (s.code, s.value))))) := by
    intro r hr
    unfold xmlRecord
    rw [if_pos]
    exact List.all_eq_true.2 (fun f hf => List.all_eq_true.2 (fun s hs => hr f hf s hs))
  rw [key a ha, key b hb, Option.some.injEq] at h
  clear key ha hb
  induction a generalizing b with
  | nil => cases b with
    | nil => rfl
    | cons f b => simp at h
  | cons f a ih =>
    cases b with
    | nil => simp at h
    | cons g b =>
      rw [List.map_cons, List.map_cons, List.cons.injEq, Prod.mk.injEq] at h
      rw [ih b (fun f hf => hoa f (by simp [hf])) (fun f hf => hob f (by simp [hf])) h.2]
      have h1 := hoa f (by simp)
      have h2 := hob g (by simp)
      obtain ⟨t, o, ss⟩ := f
      obtain ⟨t', o', ss'⟩ := g
      dsimp only at h h1 h2
      have hinj : Function.Injective (fun s : Subfield => (s.code, s.value)) := by
        rintro ⟨c, v⟩ ⟨c', v'⟩ he
        simpa using he
      have h3 : ss = ss' := by
        have h4 := h.1.2
        clear h ih hoa hob
        induction ss generalizing ss' with
        | nil => cases ss' with
          | nil => rfl
          | cons => simp at h4
        | cons x xs ih =>
          cases ss' with
          | nil => simp at h4
          | cons y ys =>
            rw [List.map_cons, List.map_cons, List.cons.injEq] at h4
            rw [hinj h4.1, ih ys h4.2]
      rw [h.1.1, h1, h2, h3]

/-! ## plus, and termination -/

/-- **C38** plus: exactly the valid lines are written, unchanged. -/
theorem C38_plus (c : ConvertCmd) (hto : c.to = .plus) (files : List (String × Bytes))
    (ls : List Bytes) (hl : AllLines files ls) (out : Bytes) (h : c.run files = .ok out) :
    out = (ls.filter (fun l => decide (ValidLine l))).flatten := by
  have hi := allLines_input hl
  obtain ⟨s, h1, h2⟩ := convert_ok hi h
  rw [foldlM_append (g := ByteRecord.write) (by intro s r; rw [ConvertCmd.write, hto])] at h1
  simp only [Option.some.injEq] at h1
  subst h1
  rw [h2, ConvertCmd.head, ConvertCmd.tail, hto]
  simp only [List.nil_append, List.append_nil]
  exact filterMap_write ls

/-- **C38** every format but xml is written for every input whose invalid lines are
skipped or absent. -/
theorem C38_finishes (c : ConvertCmd) (hto : c.to ≠ .xml) (files : List (String × Bytes))
    (rs : List ByteRecord) (hi : Input files rs) (hc : c.skip = true ∨ AllValid files) :
    ∃ out, c.run files = .ok out := by
  have hw : ∀ s r, ∃ s', c.write s r = some s' := by
    intro s r
    rw [ConvertCmd.write]
    cases ht : c.to with
    | xml => exact absurd ht hto
    | json => dsimp only; split <;> exact ⟨_, rfl⟩
    | _ => exact ⟨_, rfl⟩
  have hall : ∀ (l : List ByteRecord) (s : ConvertState), ∃ s', l.foldlM c.write s = some s' := by
    intro l
    induction l with
    | nil => intro s; exact ⟨s, rfl⟩
    | cons r l ih =>
      intro s
      obtain ⟨s', h⟩ := hw s r
      rw [List.foldlM_cons, h]
      exact ih s'
  obtain ⟨s, hs⟩ := hall rs ⟨c.head, 0⟩
  unfold ConvertCmd.run
  rw [filesLoop_clean hi hc, convert_steps, hs]
  exact ⟨_, rfl⟩

/-- a convert command; values that are not UTF-8 are replaced -/
def convertSample (f : OutFormat) : ConvertCmd :=
  ⟨true, f, fun v => if utf8Valid v then v else [0xEF, 0xBF, 0xBD], fun t => t.flatMap (·.1), [], []⟩

/-- a record with an occurrence, a dollar sign, a quote and a control character -/
def convertLine : Bytes := bs "003@/01 " ++ [0x1F] ++ bs "0x$a\"" ++ [0x01, 0x1F] ++ bs "b" ++ [0x1E] ++ bs "012A " ++ [0x1E, 0x0A]

example : (convertSample .plain).run [("a", convertLine)] =
    .ok (bs "003@/01 $0x$$a\"" ++ [0x01] ++ bs "$b\n012A \n") := by decide +kernel
example : (convertSample .json).run [("a", convertLine ++ recLine "1")] =
    .ok (bs "[[[\"003@\",\"/01\",\"0\",\"x$a\\\"\\u0001\",\"b\",\"\"],[\"012A\",null]],[[\"003@\",null,\"0\",\"1\"]]]") := by
  decide +kernel
example : (convertSample .json).run [] = .ok (bs "[]") := by decide +kernel
example : (convertSample .binary).run [("a", recLine "1" ++ recLine "2")] =
    .ok ((recLine "1").dropLast ++ [0x1D] ++ (recLine "2").dropLast ++ [0x1D]) := by decide +kernel
example : (convertSample .import).run [("a", recLine "1" ++ recLine "2")] =
    .ok ([0x27, 0x1D, 0x0A, 0x1E] ++ (recLine "1").dropLast.dropLast ++ [0x0A, 0x27, 0x1D, 0x0A, 0x1E] ++
      (recLine "2").dropLast.dropLast ++ [0x0A]) := by decide +kernel
/-- the same plain text from two records and from one -/
example : (convertSample .plain).run [("a", recLine "1" ++ recLine "2")] =
    (convertSample .plain).run [("a", (recLine "1").dropLast ++ recLine "2")] := by decide +kernel
/-- the same json text from two different records -/
example : (convertSample .json).run [("a", bs "003@ " ++ [0x1F, 0x30, 0xFF, 0x1E, 0x0A])] =
    (convertSample .json).run [("a", bs "003@ " ++ [0x1F, 0x30, 0xFE, 0x1E, 0x0A])] := by decide +kernel
example : (convertSample .xml).run [("a", bs "003@ " ++ [0x1F, 0x30, 0xFF, 0x1E, 0x0A])] = .panic := by decide +kernel

end Pica.Props
