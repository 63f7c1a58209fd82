import Verif.Lemmas.XmlText
import Verif.Props.Pipeline

/-!
# C76: the XML output is a document that has the data of the records

The grammar of Spec/Xml is unambiguous (`C76_unique`).  `convert --to xml` writes a
well-formed document iff all values consist of characters that XML allows
(`C76_wellformed_iff`); its data are the tags, codes and values, where a carriage return
has become a line feed if the writer does not escape it (`C76_data`).
-/

namespace Pica.Props

open Pica Spec Convert

/-- **C76** a text is read in at most one way -/
theorem C76_unique {t : Bytes} {ks ks' : List XmlToken} (h : XmlReads t ks) (h' : XmlReads t ks') : ks = ks' :=
  xmlTokens_unique h.2.2.1 h'.2.2.1

/-- tags, codes and values of a record -/
def xmlData (r : Record) : List (Bytes × List (Byte × Bytes)) :=
  r.map (fun f => (f.tag, f.subfields.map (fun s => (s.code, s.value))))

/-- a value as an XML processor sees it: a carriage return that is not escaped becomes a line feed -/
def crRead (esc : Byte → Bytes) (v : Bytes) : Bytes :=
  if esc 0x0D = [0x0D] then v.map (fun c => if c = 0x0D then LF else c) else v

/-- a record as an XML processor sees it -/
def xmlSeen (esc : Byte → Bytes) (r : Record) : List (Bytes × List (Byte × Bytes)) :=
  r.map (fun f => (f.tag, f.subfields.map (fun s => (s.code, crRead esc s.value))))

/-- all values consist of characters that XML allows -/
def XmlRecord (r : Record) : Prop := ∀ f ∈ r, ∀ s ∈ f.subfields, XmlChars s.value

/-- the output is the text of the events of all records -/
theorem xml_run {esc : Byte → Bytes} {skip : Bool} {lossy : Bytes → Bytes} {files : List (String × Bytes)}
    {rs : List ByteRecord} (hi : Input files rs) {out : Bytes} (h : (xmlCmd esc skip lossy).run files = .ok out) :
    out = render esc 0 false (documentEvents ((recordsOf rs).map xmlData)) ∧
      ∀ r ∈ recordsOf rs, Utf8Record r := by
  obtain ⟨s, hs, ho⟩ := convert_ok hi h
  have hd : ∀ r : Record, (xmlRecord r = some (xmlData r) ∧ Utf8Record r) ∨ xmlRecord r = none := by
    intro r
    unfold xmlRecord
    split
    · rename_i h
      refine .inl ⟨rfl, fun f hf s hs => ?_⟩
      exact List.all_eq_true.1 (List.all_eq_true.1 h f hf) s hs
    · exact .inr rfl
  have key : ∀ (rs : List ByteRecord) (s0 s : ConvertState), rs.foldlM (xmlCmd esc skip lossy).write s0 = some s →
      s.out = s0.out ++ ((recordsOf rs).map xmlData).flatMap (xmlRecordText esc) ∧
        ∀ r ∈ recordsOf rs, Utf8Record r := by
    intro rs
    induction rs with
    | nil =>
      intro s0 s hs
      simp only [List.foldlM_nil, Option.pure_def, Option.some.injEq] at hs
      subst hs
      simp [recordsOf]
    | cons r rs ih =>
      intro s0 s hs
      rw [List.foldlM_cons] at hs
      rcases hd r.record with ⟨h1, h2⟩ | h1
      · have hw : (xmlCmd esc skip lossy).write s0 r =
            some ⟨s0.out ++ xmlRecordText esc (xmlData r.record), s0.count + 1⟩ := by
          unfold ConvertCmd.write
          simp only [xmlCmd, h1]
        rw [hw] at hs
        obtain ⟨h3, h4⟩ := ih _ s hs
        refine ⟨?_, ?_⟩
        · rw [h3]
          simp [recordsOf, List.append_assoc]
        · intro x hx
          rcases List.mem_cons.1 hx with rfl | hx
          · exact h2
          · exact h4 x hx
      · have hw : (xmlCmd esc skip lossy).write s0 r = none := by
          unfold ConvertCmd.write
          simp only [xmlCmd, h1]
        rw [hw] at hs
        simp at hs
  obtain ⟨h1, h2⟩ := key rs _ s hs
  refine ⟨?_, h2⟩
  rw [ho, h1, ← render_document esc skip lossy]
  rfl

theorem word_attr {x : Byte} (hx : IsCode x ∨ x = 0x40) : AttrByte x ∧ x ≠ 0x26 ∧ x < 0x80 := by
  have h1 : (0x30 : Byte) ≤ x ∧ x ≤ 0x7A ∧ x ≠ 0x3C ∧ x ≠ 0x3E := by
    rcases hx with (⟨p, q⟩ | ⟨p, q⟩ | ⟨p, q⟩) | rfl
    · exact ⟨p, UInt8.le_trans q (by decide), by rintro rfl; revert q; decide, by rintro rfl; revert q; decide⟩
    · exact ⟨UInt8.le_trans (by decide) p, UInt8.le_trans q (by decide), by rintro rfl; revert p; decide,
        by rintro rfl; revert p; decide⟩
    · exact ⟨UInt8.le_trans (by decide) p, q, by rintro rfl; revert p; decide, by rintro rfl; revert p; decide⟩
    · decide
  refine ⟨⟨UInt8.le_trans (by decide) h1.1, h1.2.2.1, h1.2.2.2, ?_⟩, ?_, UInt8.lt_of_le_of_lt h1.2.1 (by decide)⟩
  · rintro rfl; have := h1.1; revert this; decide
  · rintro rfl; have := h1.1; revert this; decide

theorem tag_attr {t : Bytes} (h : IsTag t) : AttrValue t := by
  obtain ⟨a, b, c, d, rfl, ha, hb, hc, hd⟩ := h
  intro x hx
  apply word_attr
  simp only [List.mem_cons, List.not_mem_nil, or_false] at hx
  rcases hx with rfl | rfl | rfl | rfl
  · rcases ha with rfl | rfl | rfl
    · exact .inl (.inl (by decide))
    · exact .inl (.inl (by decide))
    · exact .inl (.inl (by decide))
  · exact .inl (.inl hb)
  · exact .inl (.inl hc)
  · rcases hd with hd | hd
    · exact .inl (.inr (.inl hd))
    · exact .inr hd

theorem xmlName_of {n : Bytes} {c : Byte} {t : Bytes} (h : n = c :: t) (hb : ∀ x ∈ n, NameByte x)
    (hc : ¬ (0x30 ≤ c ∧ c ≤ 0x39) ∧ c ≠ 0x2D ∧ c ≠ 0x2E) : XmlName n := ⟨hb, c, t, h, hc⟩

theorem name_subfield : XmlName (bs "subfield") :=
  xmlName_of (c := 0x73) (t := bs "ubfield") (by decide +kernel) (by decide +kernel) (by decide)
theorem name_datafield : XmlName (bs "datafield") :=
  xmlName_of (c := 0x64) (t := bs "atafield") (by decide +kernel) (by decide +kernel) (by decide)
theorem name_record : XmlName (bs "record") :=
  xmlName_of (c := 0x72) (t := bs "ecord") (by decide +kernel) (by decide +kernel) (by decide)
theorem name_collection : XmlName (bs "collection") :=
  xmlName_of (c := 0x63) (t := bs "ollection") (by decide +kernel) (by decide +kernel) (by decide)
theorem name_code : XmlName (bs "code") :=
  xmlName_of (c := 0x63) (t := bs "ode") (by decide +kernel) (by decide +kernel) (by decide)
theorem name_tag : XmlName (bs "tag") :=
  xmlName_of (c := 0x74) (t := bs "ag") (by decide +kernel) (by decide +kernel) (by decide)
theorem name_target : XmlName (bs "targetNamespace") :=
  xmlName_of (c := 0x74) (t := bs "argetNamespace") (by decide +kernel) (by decide +kernel) (by decide)
theorem name_xmlns : XmlName (bs "xmlns") :=
  xmlName_of (c := 0x78) (t := bs "mlns") (by decide +kernel) (by decide +kernel) (by decide)
theorem name_xmlnsxs : XmlName (bs "xmlns:xs") :=
  xmlName_of (c := 0x78) (t := bs "mlns:xs") (by decide +kernel) (by decide +kernel) (by decide)

instance (v : Bytes) : Decidable (AttrValue v) := by unfold AttrValue; infer_instance

/-- the events of valid records are good -/
theorem good_subfields {ss : List Subfield} (h : ∀ s ∈ ss, IsSubfield s ∧ LF ∉ s.value) {rest : List XEvent}
    (hr : GoodEvents rest) :
    GoodEvents ((ss.map (fun s => (s.code, s.value))).flatMap subfieldEvents ++ rest) := by
  induction ss with
  | nil => exact hr
  | cons s ss ih =>
    have ih := ih (fun x hx => h x (List.mem_cons_of_mem _ hx))
    obtain ⟨h1, h2⟩ := h s List.mem_cons_self
    rw [List.map_cons, List.flatMap_cons, List.append_assoc]
    refine ⟨name_subfield, ?_, by simp, h2, by simp, name_subfield, ih⟩
    intro a ha
    rw [List.mem_singleton] at ha
    subst ha
    refine ⟨name_code, fun c hc => ?_⟩
    rw [List.mem_singleton] at hc
    subst hc
    exact word_attr (.inl h1.1)

theorem good_fields {fs : List Field} (h : ∀ f ∈ fs, IsField f ∧ ∀ s ∈ f.subfields, LF ∉ s.value) {rest : List XEvent}
    (hr : GoodEvents rest) : GoodEvents ((xmlData fs).flatMap fieldEvents ++ rest) := by
  induction fs with
  | nil => exact hr
  | cons f fs ih =>
    have ih := ih (fun x hx => h x (List.mem_cons_of_mem _ hx))
    obtain ⟨h1, h2⟩ := h f List.mem_cons_self
    rw [xmlData, List.map_cons, List.flatMap_cons, List.append_assoc, fieldEvents, List.cons_append,
      List.cons_append, List.append_assoc]
    refine ⟨name_datafield, ?_, by simp, good_subfields (fun s hs => ⟨h1.2.2 s hs, h2 s hs⟩) ⟨name_datafield, ih⟩⟩
    intro a ha
    rw [List.mem_singleton] at ha
    subst ha
    exact ⟨name_tag, tag_attr h1.1⟩

theorem good_document {rs : List Record} (h : ∀ r ∈ rs, IsRecord r ∧ NoNewline r) :
    GoodEvents (documentEvents (rs.map xmlData)) := by
  have hrs : ∀ rest, GoodEvents rest → GoodEvents ((rs.map xmlData).flatMap recordEvents ++ rest) := by
    intro rest hrest
    induction rs with
    | nil => exact hrest
    | cons r rs ih =>
      have ih := ih (fun x hx => h x (List.mem_cons_of_mem _ hx))
      obtain ⟨h1, h2⟩ := h r List.mem_cons_self
      rw [List.map_cons, List.flatMap_cons, List.append_assoc, recordEvents, List.cons_append,
        List.cons_append, List.append_assoc]
      exact ⟨name_record, by simp, by simp, good_fields (fun f hf => ⟨h1 f hf, h2 f hf⟩) ⟨name_record, ih⟩⟩
  refine ⟨name_collection, ?_, by decide +kernel, hrs _ ⟨name_collection, trivial⟩⟩
  intro a ha
  simp only [List.mem_cons, List.not_mem_nil, or_false] at ha
  rcases ha with rfl | rfl | rfl
  · exact ⟨name_target, by decide +kernel⟩
  · exact ⟨name_xmlnsxs, by decide +kernel⟩
  · exact ⟨name_xmlns, by decide +kernel⟩

theorem fineEvents_iff {es : List XEvent} : FineEvents es ↔ ∀ v, .text v ∈ es → Fine v := by
  induction es with
  | nil => simp [FineEvents]
  | cons e es ih =>
    cases e <;> simp [FineEvents, ih]

/-- the texts of the events are the values -/
theorem text_mem {rs : List Record} {v : Bytes} : .text v ∈ documentEvents (rs.map xmlData) ↔
    ∃ r ∈ rs, ∃ f ∈ r, ∃ s ∈ f.subfields, s.value = v := by
  simp only [documentEvents, headEvents, tailEvents, List.mem_append, List.mem_cons, List.not_mem_nil, or_false,
    reduceCtorEq, false_or, List.mem_flatMap, List.mem_map, recordEvents, fieldEvents, subfieldEvents, xmlData]
  constructor
  · rintro ⟨_, ⟨r, hr, rfl⟩, ⟨_, hf, hv⟩⟩
    obtain ⟨f, hf', rfl⟩ := List.mem_map.1 hf
    obtain ⟨_, hs, hv⟩ := hv
    obtain ⟨s, hs', rfl⟩ := List.mem_map.1 hs
    simp only [XEvent.text.injEq] at hv
    exact ⟨r, hr, f, hf', s, hs', hv.symm⟩
  · rintro ⟨r, hr, f, hf, s, hs, rfl⟩
    exact ⟨_, ⟨r, hr, rfl⟩, _, List.mem_map.2 ⟨f, hf, rfl⟩, _, List.mem_map.2 ⟨s, hs, rfl⟩, rfl⟩

theorem seenField_eq (esc : Byte → Bytes) (r : Record) : (xmlData r).map (seenField esc) = xmlSeen esc r := by
  have : ∀ v : Bytes, v.map (seenByte esc) = crRead esc v := by
    intro v
    unfold crRead
    split
    · rename_i h
      exact List.map_congr_left (fun c _ => by simp [seenByte, h])
    · rename_i h
      have : seenByte esc = id := by funext c; simp [seenByte, h]
      rw [this, List.map_id]
  simp [xmlData, xmlSeen, seenField, this, List.map_map, Function.comp_def]

/-- **C76** if all values consist of characters that XML allows, the output is a well-formed document, which has one
reading, and this gives the tags, codes and values of the records; carriage returns that are not escaped are read as
line feeds -/
theorem C76_data (esc : Byte → Bytes) (he : Escaping esc) (skip : Bool) (lossy : Bytes → Bytes)
    (files : List (String × Bytes)) (rs : List ByteRecord) (hi : Input files rs)
    (hx : ∀ r ∈ recordsOf rs, XmlRecord r) (out : Bytes) (h : (xmlCmd esc skip lossy).run files = .ok out) :
    ∃ ks, (∀ ks', XmlReads out ks' ↔ ks' = ks) ∧
      picaTokens false ks = picaXml ((recordsOf rs).map (xmlSeen esc)) := by
  obtain ⟨rfl, hu⟩ := xml_run hi h
  have hg := good_document (rs := recordsOf rs) (fun r hr => (input_record hi r hr).2)
  have hf : Fine (render esc 0 false (documentEvents ((recordsOf rs).map xmlData))) := by
    refine render_fine he hg (fineEvents_iff.2 fun v hv => ?_) 0 false
    obtain ⟨r, hr, f, hf, s, hs, rfl⟩ := text_mem.1 hv
    exact ⟨hu r hr f hf s hs, hx r hr f hf s hs⟩
  obtain ⟨h1, h2⟩ := layout_document esc ((recordsOf rs).map xmlData)
  have hr : XmlReads _ _ := ⟨hf.1, hf.2, render_tokens he hg 0 false, h1⟩
  refine ⟨_, fun ks' => ⟨fun h => C76_unique h hr, fun e => e ▸ hr⟩, ?_⟩
  rw [h2, List.map_map]
  congr 1
  exact List.map_congr_left (fun r _ => seenField_eq esc r)

/-- **C76** exactly: the output is well-formed iff all values consist of characters that XML allows -/
theorem C76_wellformed_iff (esc : Byte → Bytes) (he : Escaping esc) (skip : Bool) (lossy : Bytes → Bytes)
    (files : List (String × Bytes)) (rs : List ByteRecord) (hi : Input files rs)
    (out : Bytes) (h : (xmlCmd esc skip lossy).run files = .ok out) :
    (∃ ks, XmlReads out ks) ↔ ∀ r ∈ recordsOf rs, XmlRecord r := by
  constructor
  · rintro ⟨ks, hk⟩ r hr f hf s hs
    obtain ⟨rfl, hu⟩ := xml_run hi h
    have hm := render_infix esc (text_mem.2 ⟨r, hr, f, hf, s, hs, rfl⟩) 0 false
    obtain ⟨h1, h2⟩ := hk.2.1
    constructor
    · intro c hc
      apply Classical.byContradiction
      intro hn
      refine hn (h1 c (hm.subset (List.mem_flatMap.2 ⟨c, hc, ?_⟩)))
      rw [he.same c (.inl hn)]
      exact List.mem_singleton_self c
    · intro hn
      obtain ⟨w, hw, hi⟩ := nonChar_iff.1 hn
      refine h2 (nonChar_iff.2 ⟨w, hw, .trans ?_ hm⟩)
      obtain ⟨p, q, e⟩ := hi
      refine ⟨p.flatMap esc, q.flatMap esc, ?_⟩
      rw [← e, List.flatMap_append, List.flatMap_append]
      have : ∀ l : Bytes, (∀ x ∈ l, 0x80 ≤ x) → l.flatMap esc = l := by
        intro l
        induction l with
        | nil => intro _; rfl
        | cons x l ih =>
          intro h
          rw [List.flatMap_cons, he.same x (.inr (h x List.mem_cons_self)),
            ih (fun y hy => h y (List.mem_cons_of_mem _ hy))]
          rfl
      rw [this w (nonChar_bytes hw).1]
  · intro hx
    obtain ⟨ks, hk, _⟩ := C76_data esc he skip lossy files rs hi hx out h
    exact ⟨ks, (hk ks).2 rfl⟩

/-- **C76** what is read is what was in the records, if there are no carriage returns or the writer escapes them -/
theorem C76_partial (esc : Byte → Bytes) (he : Escaping esc) (skip : Bool) (lossy : Bytes → Bytes)
    (files : List (String × Bytes)) (rs : List ByteRecord) (hi : Input files rs)
    (hx : ∀ r ∈ recordsOf rs, XmlRecord r)
    (hcr : esc 0x0D ≠ [0x0D] ∨ ∀ r ∈ recordsOf rs, ∀ f ∈ r, ∀ s ∈ f.subfields, 0x0D ∉ s.value)
    (out : Bytes) (h : (xmlCmd esc skip lossy).run files = .ok out) :
    ∃ ks, (∀ ks', XmlReads out ks' ↔ ks' = ks) ∧
      picaTokens false ks = picaXml ((recordsOf rs).map xmlData) := by
  obtain ⟨ks, h1, h2⟩ := C76_data esc he skip lossy files rs hi hx out h
  refine ⟨ks, h1, h2.trans ?_⟩
  congr 1
  refine List.map_congr_left fun r hr => ?_
  unfold xmlSeen xmlData
  refine List.map_congr_left fun f hf => ?_
  congr 1
  refine List.map_congr_left fun s hs => ?_
  congr 1
  unfold crRead
  split
  · rename_i hc
    rcases hcr with hcr | hcr
    · exact absurd hc hcr
    · rw [List.map_congr_left (g := id), List.map_id]
      intro c hm
      rw [if_neg]
      · rfl
      · rintro rfl; exact hcr r hr f hf s hs hm
  · rfl

/-! ## Examples and counterexamples -/

/-- a line with one value -/
def xmlLine (v : Bytes) : Bytes := bs "003@ " ++ [0x1F] ++ bs "0" ++ v ++ [0x1E, 0x0A]

/-- the text of a document -/
example : (xmlCmd xmlEscape true id).run [("a", xmlLine (bs "a<b") ++ xmlLine [])] =
    .ok (bs "<?xml version=\"1.0\" encoding=\"UTF-8\"?>\n<collection targetNamespace=\"info:srw/schema/5/picaXML-v1.0\" xmlns:xs=\"http://www.w3.org/2001/XMLSchema\" xmlns=\"info:srw/schema/5/picaXML-v1.0\">\n    <record>\n        <datafield tag=\"003@\">\n            <subfield code=\"0\">a&lt;b</subfield>\n        </datafield>\n    </record>\n    <record>\n        <datafield tag=\"003@\">\n            <subfield code=\"0\"></subfield>\n        </datafield>\n    </record>\n</collection>") := by
  decide +kernel

/-- a record with one value -/
def xmlOne (v : Bytes) : Record := [⟨bs "003@", none, [⟨0x30, v⟩]⟩]

theorem xmlOne_input {v : Bytes} (h : LineRecord (asRead (xmlOne v))) : Input [("a", (xmlOne v).write)] [asRead (xmlOne v)] := by
  have := (written_input "a" [xmlOne v] (fun r hr _ => by rw [List.mem_singleton.1 hr]; exact h)).1
  simpa [xmlOne] using this

/-- **C76** is false for control characters: `convert --to xml` ends well, but its output is not well-formed. -/
theorem C76_control_false : ∃ files rs out, Input files rs ∧ AllValid files ∧
    (xmlCmd xmlEscape false id).run files = .ok out ∧ ¬ ∃ ks, XmlReads out ks := by
  have hl : LineRecord (asRead (xmlOne [0x01])) :=
    ⟨(xmlLine [0x01]).dropLast, by decide +kernel, by decide +kernel, by decide +kernel⟩
  have hi := xmlOne_input hl
  have hv := (written_input "a" [xmlOne [0x01]] (fun r hr _ => by rw [List.mem_singleton.1 hr]; exact hl)).2
  rw [List.flatMap_singleton] at hv
  have hok : (match (xmlCmd xmlEscape false id).run [("a", (xmlOne [0x01]).write)] with
    | .ok _ => true | _ => false) = true := by decide +kernel
  cases hr : (xmlCmd xmlEscape false id).run [("a", (xmlOne [0x01]).write)] with
  | err e o => rw [hr] at hok; simp at hok
  | panic => rw [hr] at hok; simp at hok
  | ok out =>
    refine ⟨_, _, out, hi, hv, hr, ?_⟩
    rw [C76_wellformed_iff xmlEscape xmlEscape_escaping false id _ _ hi out hr]
    intro h
    have := (h (xmlOne [0x01]) (by simp [recordsOf, asRead]) _ (by simp [xmlOne]; rfl) _ (List.mem_singleton_self _)).1 0x01
      (by simp)
    exact absurd this (by decide)

/-- **C76** is false for carriage returns, which `quick_xml` does not escape: they are read as line feeds. -/
theorem C76_cr_false : ∃ files rs out ks, Input files rs ∧ AllValid files ∧
    (xmlCmd xmlEscape false id).run files = .ok out ∧ XmlReads out ks ∧
    picaTokens false ks ≠ picaXml ((recordsOf rs).map xmlData) := by
  have hl : LineRecord (asRead (xmlOne [0x0D])) :=
    ⟨(xmlLine [0x0D]).dropLast, by decide +kernel, by decide +kernel, by decide +kernel⟩
  have hi := xmlOne_input hl
  have hv := (written_input "a" [xmlOne [0x0D]] (fun r hr _ => by rw [List.mem_singleton.1 hr]; exact hl)).2
  rw [List.flatMap_singleton] at hv
  have hok : (match (xmlCmd xmlEscape false id).run [("a", (xmlOne [0x0D]).write)] with
    | .ok _ => true | _ => false) = true := by decide +kernel
  cases hr : (xmlCmd xmlEscape false id).run [("a", (xmlOne [0x0D]).write)] with
  | err e o => rw [hr] at hok; simp at hok
  | panic => rw [hr] at hok; simp at hok
  | ok out =>
    obtain ⟨ks, h1, h2⟩ := C76_data xmlEscape xmlEscape_escaping false id _ _ hi (by
      intro r hr f hf s hs
      simp only [recordsOf, List.map_cons, List.map_nil, List.mem_singleton, asRead] at hr
      subst hr
      simp only [xmlOne, List.mem_singleton] at hf
      subst hf
      simp only [List.mem_singleton] at hs
      subst hs
      exact ⟨by decide, by unfold NonChar; decide⟩) out hr
    refine ⟨_, _, out, ks, hi, hv, hr, (h1 ks).2 rfl, ?_⟩
    rw [h2]
    decide +kernel

/-! ## the theorems on a concrete file -/

/-- a record whose value contains markup -/
def xmlFiles : List (String × Bytes) := [("a", xmlLine (bs "a<b"))]

/-- its document -/
def xmlText : Bytes :=
  bs "<?xml version=\"1.0\" encoding=\"UTF-8\"?>\n<collection targetNamespace=\"info:srw/schema/5/picaXML-v1.0\" xmlns:xs=\"http://www.w3.org/2001/XMLSchema\" xmlns=\"info:srw/schema/5/picaXML-v1.0\">\n    <record>\n        <datafield tag=\"003@\">\n            <subfield code=\"0\">a&lt;b</subfield>\n        </datafield>\n    </record>\n</collection>"

theorem xmlFiles_ok : ∀ r ∈ recordsOf (inputOf xmlFiles), XmlRecord r := by
  unfold XmlRecord XmlChars NonChar; decide +kernel

example := C76_data xmlEscape xmlEscape_escaping true id xmlFiles _ (input_of _) xmlFiles_ok xmlText (by decide +kernel)
example := C76_wellformed_iff xmlEscape xmlEscape_escaping true id xmlFiles _ (input_of _) xmlText (by decide +kernel)
example := C76_partial xmlEscape xmlEscape_escaping true id xmlFiles _ (input_of _) xmlFiles_ok (.inr (by decide +kernel))
  xmlText (by decide +kernel)
/-- the document can be read, so the assumptions of uniqueness hold for it -/
example : ∃ ks, XmlReads xmlText ks :=
  (C76_wellformed_iff xmlEscape xmlEscape_escaping true id xmlFiles _ (input_of _) xmlText (by decide +kernel)).2 xmlFiles_ok

end Pica.Props
