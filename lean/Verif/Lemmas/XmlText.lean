import Verif.Lemmas.Xml
import Verif.Lemmas.SubText
import Verif.Props.Convert

/-! The text that is written for a sequence of events, and its tokens. -/

namespace Pica

open Spec Convert

/-- what has to be known about `escape`: `<`, `>` and `&` become references, and other bytes become references
or stay as they are; bytes that are not characters of XML and parts of longer characters stay as they
are -/
structure Escaping (esc : Byte → Bytes) : Prop where
  markup : ∀ c, c = 0x3C ∨ c = 0x3E ∨ c = 0x26 → XmlRef (esc c) c
  other : ∀ c, esc c = [c] ∨ XmlRef (esc c) c
  same : ∀ c, ¬ XmlByte c ∨ 0x80 ≤ c → esc c = [c]

theorem xmlEscape_escaping : Escaping xmlEscape := by
  have key : ∀ c : Byte, c = 0x3C ∨ c = 0x3E ∨ c = 0x26 ∨ c = 0x27 ∨ c = 0x22 ∨ xmlEscape c = [c] := by
    intro c
    unfold xmlEscape
    by_cases h1 : c = 0x3C
    · exact .inl h1
    by_cases h2 : c = 0x3E
    · exact .inr (.inl h2)
    by_cases h3 : c = 0x26
    · exact .inr (.inr (.inl h3))
    by_cases h4 : c = 0x27
    · exact .inr (.inr (.inr (.inl h4)))
    by_cases h5 : c = 0x22
    · exact .inr (.inr (.inr (.inr (.inl h5))))
    rw [if_neg h1, if_neg h2, if_neg h3, if_neg h4, if_neg h5]
    exact .inr (.inr (.inr (.inr (.inr rfl))))
  refine ⟨?_, fun c => ?_, fun c hc => ?_⟩
  · rintro c (rfl | rfl | rfl)
    · exact .lt
    · exact .gt
    · exact .amp
  · rcases key c with rfl | rfl | rfl | rfl | rfl | h
    · exact .inr .lt
    · exact .inr .gt
    · exact .inr .amp
    · exact .inr .apos
    · exact .inr .quot
    · exact .inl h
  · rcases key c with rfl | rfl | rfl | rfl | rfl | h
    · exact absurd hc (by decide)
    · exact absurd hc (by decide)
    · exact absurd hc (by decide)
    · exact absurd hc (by decide)
    · exact absurd hc (by decide)
    · exact h

/-! ## The text of events -/

/-- line break and indentation -/
def newlineText (d : Nat) (b : Bool) : Bytes := if b then LF :: List.replicate (4 * d) SP else []

/-- the text that is written for the events, with `d` open elements -/
def render (esc : Byte → Bytes) : Nat → Bool → List XEvent → Bytes
  | _, _, [] => []
  | d, b, .decl :: es => newlineText d b ++ (bs "<?xml version=\"1.0\" encoding=\"UTF-8\"?>" ++ render esc d true es)
  | d, b, .start n as :: es =>
    newlineText d b ++ (0x3C :: (n ++ as.flatMap (xmlAttr esc) ++ [0x3E]) ++ render esc (d + 1) true es)
  | d, b, .stop n :: es =>
    newlineText (d - 1) b ++ (0x3C :: 0x2F :: (n ++ [0x3E]) ++ render esc (d - 1) true es)
  | d, _, .text v :: es => v.flatMap esc ++ render esc d false es

theorem render_out (esc : Byte → Bytes) (es : List XEvent) : ∀ w : XWriter,
    (es.foldl (XWriter.event esc) w).out = w.out ++ render esc w.depth w.brk es := by
  induction es with
  | nil => intro w; simp [render]
  | cons e es ih =>
    intro w
    rw [List.foldl_cons, ih]
    cases e <;> simp [XWriter.event, XWriter.newline, render, newlineText, List.append_assoc]

/-- the state after the events -/
def after : Nat × Bool → List XEvent → Nat × Bool
  | s, [] => s
  | (d, _), .decl :: es => after (d, true) es
  | (d, _), .start _ _ :: es => after (d + 1, true) es
  | (d, _), .stop _ :: es => after (d - 1, true) es
  | (d, _), .text _ :: es => after (d, false) es

theorem render_append (esc : Byte → Bytes) (es fs : List XEvent) : ∀ d b,
    render esc d b (es ++ fs) = render esc d b es ++ render esc (after (d, b) es).1 (after (d, b) es).2 fs := by
  induction es with
  | nil => intro d b; simp [render, after]
  | cons e es ih =>
    intro d b
    cases e <;> simp [render, after, ih, List.append_assoc]

theorem after_append (es fs : List XEvent) : ∀ s, after s (es ++ fs) = after (after s es) fs := by
  induction es with
  | nil => intro s; rfl
  | cons e es ih =>
    rintro ⟨d, b⟩
    cases e <;> simp [after, ih]

theorem after_subfields (ss : List (Byte × Bytes)) (d : Nat) :
    after (d, true) (ss.flatMap subfieldEvents) = (d, true) := by
  induction ss with
  | nil => rfl
  | cons s ss ih =>
    rw [List.flatMap_cons, after_append]
    exact ih

theorem after_field (f : Bytes × List (Byte × Bytes)) (d : Nat) :
    after (d, true) (fieldEvents f) = (d, true) := by
  unfold fieldEvents
  rw [after_append, after, after_subfields]
  rfl

theorem after_fields (fs : List (Bytes × List (Byte × Bytes))) (d : Nat) :
    after (d, true) (fs.flatMap fieldEvents) = (d, true) := by
  induction fs with
  | nil => rfl
  | cons f fs ih =>
    rw [List.flatMap_cons, after_append, after_field]
    exact ih

theorem after_record (r : List (Bytes × List (Byte × Bytes))) (d : Nat) :
    after (d, true) (recordEvents r) = (d, true) := by
  unfold recordEvents
  rw [after_append, after, after_fields]
  rfl

theorem after_records (rs : List (List (Bytes × List (Byte × Bytes)))) (d : Nat) :
    after (d, true) (rs.flatMap recordEvents) = (d, true) := by
  induction rs with
  | nil => rfl
  | cons f fs ih =>
    rw [List.flatMap_cons, after_append, after_record]
    exact ih

/-- the events of the whole command -/
def documentEvents (rs : List (List (Bytes × List (Byte × Bytes)))) : List XEvent :=
  headEvents ++ (rs.flatMap recordEvents ++ tailEvents)

/-- the text of the command is the text of all events written by one writer -/
theorem render_document (esc : Byte → Bytes) (skip : Bool) (lossy : Bytes → Bytes)
    (rs : List (List (Bytes × List (Byte × Bytes)))) :
    (xmlCmd esc skip lossy).xmlHead ++ rs.flatMap (xmlCmd esc skip lossy).xmlText ++ (xmlCmd esc skip lossy).xmlTail =
      render esc 0 false (documentEvents rs) := by
  unfold documentEvents
  rw [render_append, render_append]
  show _ = render esc 0 false headEvents ++ (render esc 1 true (rs.flatMap recordEvents) ++
    render esc (after (1, true) (rs.flatMap recordEvents)).1 (after (1, true) (rs.flatMap recordEvents)).2 tailEvents)
  rw [after_records]
  have hrs : ∀ rs : List (List (Bytes × List (Byte × Bytes))),
      render esc 1 true (rs.flatMap recordEvents) = rs.flatMap (xmlRecordText esc) := by
    intro rs
    induction rs with
    | nil => rfl
    | cons r rs ih =>
      rw [List.flatMap_cons, render_append, after_record, List.flatMap_cons, ih]
      unfold xmlRecordText
      rw [render_out]
      rfl
  rw [hrs]
  unfold xmlCmd
  simp only
  rw [render_out, render_out]
  simp

/-! ## Tokens -/

/-- a byte as it is read: carriage returns that are written as they are become line feeds -/
def seenByte (esc : Byte → Bytes) (c : Byte) : Byte := if c = 0x0D ∧ esc 0x0D = [0x0D] then LF else c

/-- the token of a line break -/
def newlineToken (d : Nat) (b : Bool) : List XmlToken :=
  if b then [.text (LF :: List.replicate (4 * d) SP)] else []

/-- the tokens of the events -/
def layout (esc : Byte → Bytes) : Nat → Bool → List XEvent → List XmlToken
  | _, _, [] => []
  | d, b, .decl :: es => newlineToken d b ++ .decl :: layout esc d true es
  | d, b, .start n as :: es => newlineToken d b ++ .start n as :: layout esc (d + 1) true es
  | d, b, .stop n :: es => newlineToken (d - 1) b ++ .stop n :: layout esc (d - 1) true es
  | d, _, .text v :: es => (if v = [] then [] else [.text (v.map (seenByte esc))]) ++ layout esc d false es

/-- a value of an attribute that needs no care -/
def AttrValue (v : Bytes) : Prop := ∀ c ∈ v, AttrByte c ∧ c ≠ 0x26 ∧ c < 0x80

/-- events that make sense: names, attributes, and no text after a text -/
def GoodEvents : List XEvent → Prop
  | [] => True
  | .decl :: es => GoodEvents es
  | .start n as :: es => XmlName n ∧ (∀ a ∈ as, XmlName a.1 ∧ AttrValue a.2) ∧ (as.map (·.1)).Nodup ∧ GoodEvents es
  | .stop n :: es => XmlName n ∧ GoodEvents es
  | .text v :: es => LF ∉ v ∧ (∀ w fs, es ≠ .text w :: fs) ∧ GoodEvents es

theorem attr_text {esc : Byte → Bytes} (he : Escaping esc) {v : Bytes} (h : AttrValue v) :
    RefText AttrByte (v.flatMap esc) v := by
  induction v with
  | nil => exact .nil
  | cons c v ih =>
    rw [List.flatMap_cons]
    have ih := ih (fun c hc => h c (List.mem_cons_of_mem _ hc))
    obtain ⟨h1, h2, _⟩ := h c List.mem_cons_self
    rcases he.other c with hc | hc
    · rw [hc]; exact .char h1 h2 ih
    · exact .ref hc ih

theorem attrs_text {esc : Byte → Bytes} (he : Escaping esc) {as : List (Bytes × Bytes)}
    (h : ∀ a ∈ as, XmlName a.1 ∧ AttrValue a.2) (hn : (as.map (·.1)).Nodup) :
    XmlAttrs (as.flatMap (xmlAttr esc)) as := by
  induction as with
  | nil => exact .nil
  | cons a as ih =>
    rw [List.map_cons, List.nodup_cons] at hn
    have ih := ih (fun x hx => h x (List.mem_cons_of_mem _ hx)) hn.2
    obtain ⟨h1, h2⟩ := h a List.mem_cons_self
    have := XmlAttrs.cons h1 (attr_text he h2) ih (fun x hx e => hn.1 (List.mem_map.2 ⟨x, hx, e⟩))
    rw [List.flatMap_cons, xmlAttr]
    simpa [List.append_assoc] using this

theorem lineEnds_append {a : Bytes} (h : 0x0D ∉ a) (t : Bytes) : lineEnds (a ++ t) = a ++ lineEnds t := by
  induction a with
  | nil => rfl
  | cons c a ih =>
    rw [List.mem_cons, not_or] at h
    rw [List.cons_append, lineEnds, if_neg (fun e => h.1 e.symm), ih h.2]
    rfl

theorem lineEnds_value {a : Bytes} (h : LF ∉ a) {t : Bytes} (ht : t.head? ≠ some LF) :
    lineEnds (a ++ t) = a.map (fun c => if c = 0x0D then LF else c) ++ lineEnds t := by
  induction a with
  | nil => rfl
  | cons c a ih =>
    rw [List.mem_cons, not_or] at h
    rw [List.cons_append, lineEnds, ih h.2, List.map_cons, List.cons_append]
    split
    · rw [if_neg]
      cases a with
      | nil => exact ht
      | cons x a =>
        simp only [List.mem_cons, not_or] at h
        simp only [List.cons_append, List.head?_cons, ne_eq, Option.some.injEq]
        exact fun e => h.2.1 e.symm
    · rfl

theorem value_text {esc : Byte → Bytes} (he : Escaping esc) (v : Bytes) :
    RefText TextByte ((v.flatMap esc).map (fun c => if c = 0x0D then LF else c)) (v.map (seenByte esc)) := by
  induction v with
  | nil => exact .nil
  | cons c v ih =>
    rw [List.flatMap_cons, List.map_append, List.map_cons]
    by_cases hm : c = 0x3C ∨ c = 0x3E ∨ c = 0x26
    · have hr := he.markup c hm
      have h1 : seenByte esc c = c := by
        rw [seenByte, if_neg]
        rintro ⟨rfl, _⟩
        revert hm; decide
      have h2 : (esc c).map (fun c => if c = 0x0D then LF else c) = esc c := by
        rw [List.map_congr_left (g := id), List.map_id]
        intro x hx
        rw [if_neg]
        · rfl
        · rintro rfl
          have := (xmlRef_ascii hr _ hx).1
          revert this; decide
      rw [h1, h2]
      exact .ref hr ih
    · have h1 : TextByte c ∧ c ≠ 0x26 := by
        rw [not_or, not_or] at hm
        exact ⟨⟨hm.1, hm.2.1⟩, hm.2.2⟩
      rcases he.other c with hc | hr
      · rw [hc, List.map_singleton]
        by_cases hcr : c = 0x0D
        · subst hcr
          rw [if_pos rfl, seenByte, if_pos ⟨rfl, hc⟩]
          exact .char (by decide) (by decide) ih
        · rw [if_neg hcr, seenByte, if_neg (fun h => hcr h.1)]
          exact .char h1.1 h1.2 ih
      · have h2 : (esc c).map (fun c => if c = 0x0D then LF else c) = esc c := by
          rw [List.map_congr_left (g := id), List.map_id]
          intro x hx
          rw [if_neg]
          · rfl
          · rintro rfl
            have := (xmlRef_ascii hr _ hx).1
            revert this; decide
        have h3 : seenByte esc c = c := by
          rw [seenByte, if_neg]
          rintro ⟨rfl, h⟩
          rw [h] at hr
          have := xmlRef_ascii hr 0x0D (by simp)
          revert this; decide
        rw [h2, h3]
        exact .ref hr ih

theorem value_nolf {esc : Byte → Bytes} (he : Escaping esc) {v : Bytes} (h : LF ∉ v) : LF ∉ v.flatMap esc := by
  intro hm
  obtain ⟨c, hc, hm⟩ := List.mem_flatMap.1 hm
  rcases he.other c with e | e
  · rw [e, List.mem_singleton] at hm
    exact h (hm ▸ hc)
  · have := (xmlRef_ascii e _ hm).1
    revert this; decide

theorem esc_ne {esc : Byte → Bytes} (he : Escaping esc) (c : Byte) : esc c ≠ [] := by
  rcases he.other c with e | e
  · rw [e]; simp
  · obtain ⟨b, hb, _⟩ := xmlRef_shape e
    rw [hb]; simp

theorem value_ne {esc : Byte → Bytes} (he : Escaping esc) {v : Bytes} (h : v ≠ []) : v.flatMap esc ≠ [] := by
  cases v with
  | nil => exact absurd rfl h
  | cons c v =>
    rw [List.flatMap_cons]
    intro e
    exact esc_ne he c (List.append_eq_nil_iff.1 e).1

theorem xmlAttrs_cr {t : Bytes} {as : List (Bytes × Bytes)} (h : XmlAttrs t as) : 0x0D ∉ t := by
  induction h with
  | nil => simp
  | cons hn h hs hu ih =>
    have h1 := name_avoid hn (x := 0x0D) (by decide)
    have h2 := refText_avoid (x := 0x0D) (by simp [AttrByte]) (by decide) (by decide) (by decide) h
    simp only [List.mem_cons, List.mem_append, not_or]
    exact ⟨by decide, h1, by decide, by decide, h2, by decide, ih⟩

theorem markup_cr {m : Bytes} {k : XmlToken} (h : XmlMarkup m k) : 0x0D ∉ m := by
  cases h with
  | decl => decide +kernel
  | start hn h =>
    simp only [List.mem_cons, List.mem_append, not_or, List.not_mem_nil]
    exact ⟨by decide, ⟨name_avoid hn (by decide), xmlAttrs_cr h⟩, by decide, fun h => h⟩
  | stop hn =>
    simp only [List.mem_cons, List.mem_append, not_or, List.not_mem_nil]
    exact ⟨by decide, by decide, name_avoid hn (by decide), by decide, fun h => h⟩

/-- markup after a line break -/
theorem newline_markup {d : Nat} {b : Bool} {m t : Bytes} {k : XmlToken} {ks : List XmlToken}
    (hm : XmlMarkup m k) (h : XmlTokens (lineEnds t) ks) :
    XmlTokens (lineEnds (newlineText d b ++ (m ++ t))) (newlineToken d b ++ k :: ks) := by
  have hmt : XmlTokens (lineEnds (m ++ t)) (k :: ks) := by
    rw [lineEnds_append (markup_cr hm)]
    exact .markup hm h
  unfold newlineText newlineToken
  cases b with
  | false => exact hmt
  | true =>
    simp only [if_true]
    rw [lineEnds_append]
    · refine .text ?_ (by simp) ?_ hmt
      · refine .char (by decide) (by decide) ?_
        generalize 4 * d = n
        induction n with
        | zero => exact .nil
        | succ n ih => rw [List.replicate_succ]; exact .char (by decide) (by decide) ih
      · obtain ⟨b, rfl, _⟩ := markup_shape hm
        exact .inr ⟨_, by rw [List.cons_append, lineEnds, if_neg (by decide)]⟩
    · rw [List.mem_cons, not_or]
      exact ⟨by decide, fun h => absurd (List.eq_of_mem_replicate h) (by decide)⟩

/-- after a text comes markup or nothing -/
theorem render_head (esc : Byte → Bytes) {es : List XEvent} (h : ∀ w fs, es ≠ .text w :: fs) (d : Nat) :
    render esc d false es = [] ∨ ∃ r, render esc d false es = 0x3C :: r := by
  cases es with
  | nil => exact .inl rfl
  | cons e es =>
    refine .inr ?_
    cases e with
    | decl =>
      have : bs "<?xml version=\"1.0\" encoding=\"UTF-8\"?>" = 0x3C :: bs "?xml version=\"1.0\" encoding=\"UTF-8\"?>" := by
        decide +kernel
      rw [render, this]
      exact ⟨_, rfl⟩
    | start n as => exact ⟨_, rfl⟩
    | stop n => exact ⟨_, rfl⟩
    | text v => exact absurd rfl (h v es)

theorem lineEnds_head {t : Bytes} (h : t = [] ∨ ∃ r, t = 0x3C :: r) : lineEnds t = [] ∨ ∃ r, lineEnds t = 0x3C :: r := by
  rcases h with rfl | ⟨r, rfl⟩
  · exact .inl rfl
  · exact .inr ⟨lineEnds r, by rw [lineEnds, if_neg (by decide)]⟩

/-- the text of good events is read as their tokens -/
theorem render_tokens {esc : Byte → Bytes} (he : Escaping esc) {es : List XEvent} (h : GoodEvents es) : ∀ d b,
    XmlTokens (lineEnds (render esc d b es)) (layout esc d b es) := by
  induction es with
  | nil => intro d b; exact .nil
  | cons e es ih =>
    intro d b
    cases e with
    | decl => exact newline_markup .decl (ih h d true)
    | start n as => exact newline_markup (.start h.1 (attrs_text he h.2.1 h.2.2.1)) (ih h.2.2.2 (d + 1) true)
    | stop n => exact newline_markup (.stop h.1) (ih h.2 (d - 1) true)
    | text v =>
      have hh := render_head esc h.2.1 d
      have ih := ih h.2.2 d false
      rw [render, layout, lineEnds_value (value_nolf he h.1)]
      · by_cases hv : v = []
        · subst hv
          exact ih
        · rw [if_neg hv]
          exact .text (value_text he v) (fun e => value_ne he hv (List.map_eq_nil_iff.1 e)) (lineEnds_head hh) ih
      · rcases hh with hh | ⟨r, hh⟩
        · rw [hh]; simp
        · rw [hh, List.head?_cons]; decide

/-! ## The document -/

theorem layout_subfields (esc : Byte → Bytes) (st : List Bytes) (n : Bytes) (ss : List (Byte × Bytes)) (d : Nat)
    (rest : List XEvent) :
    inElements (n :: st) (layout esc d true (ss.flatMap subfieldEvents ++ rest)) =
      inElements (n :: st) (layout esc d true rest) ∧
    picaTokens false (layout esc d true (ss.flatMap subfieldEvents ++ rest)) =
      ss.flatMap (fun s => subfieldXml s.1 (s.2.map (seenByte esc))) ++ picaTokens false (layout esc d true rest) := by
  have hsp : ∀ d, xmlSpace (LF :: List.replicate (4 * d) SP) = true := by
    intro d
    simp only [xmlSpace, List.all_cons, Bool.and_eq_true]
    refine ⟨by decide, List.all_eq_true.2 fun x hx => ?_⟩
    rw [List.eq_of_mem_replicate hx]; decide
  induction ss with
  | nil => exact ⟨rfl, rfl⟩
  | cons s ss ih =>
    obtain ⟨c, v⟩ := s
    rw [List.flatMap_cons, List.append_assoc]
    have hk : (bs "subfield" == bs "subfield") = true := beq_self_eq_true _
    by_cases hv : v = []
    · subst hv
      constructor
      · rw [← ih.1]
        simp [subfieldEvents, layout, newlineToken, inElements]
      · rw [List.flatMap_cons, List.append_assoc, ← ih.2]
        simp [subfieldEvents, layout, newlineToken, picaTokens, hsp, subfieldXml]
    · constructor
      · rw [← ih.1]
        simp [subfieldEvents, layout, newlineToken, inElements, hv]
      · rw [List.flatMap_cons, List.append_assoc, ← ih.2]
        simp [subfieldEvents, layout, newlineToken, picaTokens, hsp, subfieldXml, hv]

theorem newline_space (d : Nat) : xmlSpace (LF :: List.replicate (4 * d) SP) = true := by
  simp only [xmlSpace, List.all_cons, Bool.and_eq_true]
  refine ⟨by decide, List.all_eq_true.2 fun x hx => ?_⟩
  rw [List.eq_of_mem_replicate hx]; decide

/-- a field with the values as they are read -/
def seenField (esc : Byte → Bytes) (f : Bytes × List (Byte × Bytes)) : Bytes × List (Byte × Bytes) :=
  (f.1, f.2.map (fun s => (s.1, s.2.map (seenByte esc))))

theorem bs_field_sub : (bs "datafield" == bs "subfield") = false := by decide +kernel
theorem bs_record_sub : (bs "record" == bs "subfield") = false := by decide +kernel
theorem bs_collection_sub : (bs "collection" == bs "subfield") = false := by decide +kernel

theorem layout_fields (esc : Byte → Bytes) (st : List Bytes) (n : Bytes) (fs : List (Bytes × List (Byte × Bytes)))
    (d : Nat) (rest : List XEvent) :
    inElements (n :: st) (layout esc d true (fs.flatMap fieldEvents ++ rest)) =
      inElements (n :: st) (layout esc d true rest) ∧
    picaTokens false (layout esc d true (fs.flatMap fieldEvents ++ rest)) =
      fs.flatMap (fun f => fieldXml (seenField esc f)) ++ picaTokens false (layout esc d true rest) := by
  induction fs with
  | nil => exact ⟨rfl, rfl⟩
  | cons f fs ih =>
    rw [List.flatMap_cons, List.append_assoc, fieldEvents, List.cons_append, List.cons_append, List.append_assoc]
    have hs := fun st n => layout_subfields esc st n f.2 (d + 1)
      ([.stop (bs "datafield")] ++ (fs.flatMap fieldEvents ++ rest))
    constructor
    · rw [← ih.1, layout, newlineToken, if_pos rfl, List.singleton_append, inElements, inElements, (hs _ _).1]
      simp [layout, newlineToken, inElements]
    · rw [List.flatMap_cons, List.append_assoc, ← ih.2, layout, newlineToken, if_pos rfl, List.singleton_append,
        picaTokens, newline_space, picaTokens, bs_field_sub, (hs [] []).2]
      simp [layout, newlineToken, picaTokens, newline_space, fieldXml, seenField, List.flatMap_map]

theorem layout_records (esc : Byte → Bytes) (st : List Bytes) (n : Bytes)
    (rs : List (List (Bytes × List (Byte × Bytes)))) (d : Nat) (rest : List XEvent) :
    inElements (n :: st) (layout esc d true (rs.flatMap recordEvents ++ rest)) =
      inElements (n :: st) (layout esc d true rest) ∧
    picaTokens false (layout esc d true (rs.flatMap recordEvents ++ rest)) =
      rs.flatMap (fun r => [.start (bs "record") []] ++ (r.map (seenField esc)).flatMap fieldXml ++ [.stop (bs "record")])
        ++ picaTokens false (layout esc d true rest) := by
  induction rs with
  | nil => exact ⟨rfl, rfl⟩
  | cons r rs ih =>
    rw [List.flatMap_cons, List.append_assoc, recordEvents, List.cons_append, List.cons_append, List.append_assoc]
    have hs := fun st n => layout_fields esc st n r (d + 1)
      ([.stop (bs "record")] ++ (rs.flatMap recordEvents ++ rest))
    constructor
    · rw [← ih.1, layout, newlineToken, if_pos rfl, List.singleton_append, inElements, inElements, (hs _ _).1]
      simp [layout, newlineToken, inElements]
    · rw [List.flatMap_cons, List.append_assoc, ← ih.2, layout, newlineToken, if_pos rfl, List.singleton_append,
        picaTokens, newline_space, picaTokens, bs_record_sub, (hs [] []).2]
      simp [layout, newlineToken, picaTokens, newline_space, List.flatMap_map]

theorem layout_document (esc : Byte → Bytes) (rs : List (List (Bytes × List (Byte × Bytes)))) :
    XmlDocument (layout esc 0 false (documentEvents rs)) ∧
    picaTokens false (layout esc 0 false (documentEvents rs)) = picaXml (rs.map (·.map (seenField esc))) := by
  have hs := fun st n => layout_records esc st n rs 1 tailEvents
  unfold documentEvents headEvents
  constructor
  · refine ⟨bs "collection", [(bs "targetNamespace", bs "info:srw/schema/5/picaXML-v1.0"),
      (bs "xmlns:xs", bs "http://www.w3.org/2001/XMLSchema"), (bs "xmlns", bs "info:srw/schema/5/picaXML-v1.0")],
      layout esc 1 true (rs.flatMap recordEvents ++ tailEvents), ?_, .inr ⟨[LF], by decide, rfl⟩⟩
    rw [(hs _ _).1]
    simp [tailEvents, layout, newlineToken, inElements]
  · show picaTokens false (.decl :: .text [LF] :: .start _ _ ::
      layout esc 1 true (rs.flatMap recordEvents ++ tailEvents)) = _
    rw [picaTokens, picaTokens, if_neg (by decide), picaTokens, bs_collection_sub, (hs [] []).2]
    simp [tailEvents, layout, newlineToken, picaTokens, picaXml, List.flatMap_map]
    decide

/-! ## The characters -/

theorem infix_ascii {w a t : Bytes} (hw : ∀ x ∈ w, 0x80 ≤ x) (hne : w ≠ []) (ha : ∀ x ∈ a, x < 0x80)
    (h : w <:+: a ++ t) : w <:+: t := by
  induction a with
  | nil => exact h
  | cons x a ih =>
    rw [List.cons_append, List.infix_cons_iff] at h
    rcases h with h | h
    · obtain ⟨y, w, rfl⟩ := List.exists_cons_of_ne_nil hne
      rw [List.cons_prefix_cons] at h
      have h1 := hw y List.mem_cons_self
      rw [h.1] at h1
      exact absurd (UInt8.lt_of_lt_of_le (ha x List.mem_cons_self) h1) (UInt8.lt_irrefl _)
    · exact ih (fun x hx => ha x (List.mem_cons_of_mem _ hx)) h

theorem infix_cut {w a t : Bytes} (hw : ∀ x ∈ w, 0x80 ≤ x) (hne : w ≠ []) (ht : t = [] ∨ ∃ c r, t = c :: r ∧ c < 0x80)
    (h : w <:+: a ++ t) : w <:+: a ∨ w <:+: t := by
  induction a with
  | nil => exact .inr h
  | cons x a ih =>
    rw [List.cons_append, List.infix_cons_iff] at h
    rcases h with h | h
    · rw [← List.cons_append] at h
      rcases List.prefix_or_prefix_of_prefix h (List.prefix_append (x :: a) t) with h1 | h1
      · exact .inl h1.isInfix
      · obtain ⟨z, rfl⟩ := h1
        rw [List.prefix_append_right_inj] at h
        cases z with
        | nil => rw [List.append_nil]; exact .inl (List.infix_refl _)
        | cons y z =>
          rcases ht with rfl | ⟨c, r, rfl, hc⟩
          · simp at h
          · rw [List.cons_prefix_cons] at h
            have h1 := hw y (by simp)
            rw [h.1] at h1
            exact absurd (UInt8.lt_of_lt_of_le hc h1) (UInt8.lt_irrefl _)
    · rcases ih h with h | h
      · exact .inl (List.infix_cons h)
      · exact .inr h

theorem esc_ascii {esc : Byte → Bytes} (he : Escaping esc) {c : Byte} (hc : c < 0x80) : ∀ x ∈ esc c, x < 0x80 := by
  intro x hx
  rcases he.other c with e | e
  · rw [e, List.mem_singleton] at hx; rw [hx]; exact hc
  · exact (xmlRef_ascii e x hx).2

theorem prefix_value {esc : Byte → Bytes} (he : Escaping esc) {w v : Bytes} (hw : ∀ x ∈ w, 0x80 ≤ x)
    (h : w <+: v.flatMap esc) : w <+: v := by
  induction w generalizing v with
  | nil => exact List.nil_prefix
  | cons x w ih =>
    cases v with
    | nil => simp at h
    | cons c v =>
      rw [List.flatMap_cons] at h
      have hx := hw x List.mem_cons_self
      by_cases hc : c < 0x80
      · obtain ⟨y, z, hz⟩ := List.exists_cons_of_ne_nil (esc_ne he c)
        rw [hz, List.cons_append, List.cons_prefix_cons] at h
        have := esc_ascii he hc y (by rw [hz]; simp)
        rw [← h.1] at this
        exact absurd (UInt8.lt_of_lt_of_le this hx) (UInt8.lt_irrefl _)
      · rw [he.same c (.inr (UInt8.not_lt.1 hc)), List.singleton_append, List.cons_prefix_cons] at h
        rw [List.cons_prefix_cons]
        exact ⟨h.1, ih (fun x hx => hw x (List.mem_cons_of_mem _ hx)) h.2⟩

theorem infix_value {esc : Byte → Bytes} (he : Escaping esc) {w v : Bytes} (hw : ∀ x ∈ w, 0x80 ≤ x) (hne : w ≠ [])
    (h : w <:+: v.flatMap esc) : w <:+: v := by
  induction v with
  | nil => exact h
  | cons c v ih =>
    rw [List.flatMap_cons] at h
    by_cases hc : c < 0x80
    · exact List.infix_cons (ih (infix_ascii hw hne (esc_ascii he hc) h))
    · have hc := he.same c (.inr (UInt8.not_lt.1 hc))
      rw [hc, List.singleton_append, List.infix_cons_iff] at h
      rcases h with h | h
      · refine (prefix_value he hw (v := c :: v) ?_).isInfix
        rw [List.flatMap_cons, hc]
        exact h
      · exact List.infix_cons (ih h)

/-- the two characters that are not allowed, in UTF-8 -/
theorem nonChar_iff {t : Bytes} : NonChar t ↔ ∃ w : Bytes, (w = [0xEF, 0xBF, 0xBE] ∨ w = [0xEF, 0xBF, 0xBF]) ∧ w <:+: t := by
  unfold NonChar
  constructor
  · rintro (h | h)
    · exact ⟨_, .inl rfl, h⟩
    · exact ⟨_, .inr rfl, h⟩
  · rintro ⟨w, rfl | rfl, h⟩
    · exact .inl h
    · exact .inr h

theorem nonChar_bytes {w : Bytes} (h : w = [0xEF, 0xBF, 0xBE] ∨ w = [0xEF, 0xBF, 0xBF]) :
    (∀ x ∈ w, 0x80 ≤ x) ∧ w ≠ [] := by
  rcases h with rfl | rfl
  · exact ⟨by decide, by decide⟩
  · exact ⟨by decide, by decide⟩

theorem encodeChar_ascii (c : Char) : (∃ b, String.utf8EncodeChar c = [b] ∧ b < 0x80) ∨
    ∀ x ∈ String.utf8EncodeChar c, 0x80 ≤ x := by
  have hv := c.valid
  have hv' : c.val.toNat < 0xD800 ∨ (0xDFFF < c.val.toNat ∧ c.val.toNat < 0x110000) := hv
  unfold String.utf8EncodeChar
  generalize c.val.toNat = v at hv'
  have hn : ∀ n, n < 256 → 128 ≤ n → (0x80 : Byte) ≤ UInt8.ofNat n := fun n h1 h2 => by
    rw [UInt8.le_iff_toNat_le, ofNat_toNat h1]; exact h2
  simp only
  split
  · refine .inl ⟨_, rfl, ?_⟩
    rw [UInt8.lt_iff_toNat_lt, ofNat_toNat (by omega)]
    show _ < 128
    omega
  · refine .inr ?_
    split
    · intro x hx
      simp only [List.mem_cons, List.not_mem_nil, or_false] at hx
      rcases hx with rfl | rfl <;> exact hn _ (by omega) (by omega)
    · split
      · intro x hx
        simp only [List.mem_cons, List.not_mem_nil, or_false] at hx
        rcases hx with rfl | rfl | rfl <;> exact hn _ (by omega) (by omega)
      · intro x hx
        simp only [List.mem_cons, List.not_mem_nil, or_false] at hx
        rcases hx with rfl | rfl | rfl | rfl <;> exact hn _ (by omega) (by omega)

theorem value_utf8 {esc : Byte → Bytes} (he : Escaping esc) {v : Bytes} (h : utf8Valid v = true) :
    utf8Valid (v.flatMap esc) = true := by
  obtain ⟨cs, rfl⟩ := isUtf8_of_valid v h
  clear h
  induction cs with
  | nil => rfl
  | cons c cs ih =>
    rw [List.flatMap_cons, List.flatMap_append, utf8Valid_append]
    · exact ih
    · rcases encodeChar_ascii c with ⟨b, hb, hlt⟩ | hb
      · rw [hb, List.flatMap_singleton]
        exact utf8Valid_ascii (esc_ascii he hlt)
      · have : (String.utf8EncodeChar c).flatMap esc = String.utf8EncodeChar c := by
          have : ∀ l : Bytes, (∀ x ∈ l, 0x80 ≤ x) → l.flatMap esc = l := by
            intro l
            induction l with
            | nil => intro _; rfl
            | cons x l ih =>
              intro h
              rw [List.flatMap_cons, he.same x (.inr (h x List.mem_cons_self)),
                ih (fun y hy => h y (List.mem_cons_of_mem _ hy))]
              rfl
          exact this _ hb
        rw [this]
        have := utf8Valid_encodeChar c []
        rw [List.append_nil] at this
        rw [this]; rfl

/-- text that may be written -/
def Fine (t : Bytes) : Prop := utf8Valid t = true ∧ XmlChars t

theorem fine_ascii {a t : Bytes} (ha : ∀ x ∈ a, x < 0x80 ∧ XmlByte x) (h : Fine t) : Fine (a ++ t) := by
  refine ⟨?_, ?_, ?_⟩
  · rw [utf8Valid_append (utf8Valid_ascii (fun x hx => (ha x hx).1))]; exact h.1
  · intro c hc
    rcases List.mem_append.1 hc with hc | hc
    · exact (ha c hc).2
    · exact h.2.1 c hc
  · intro hn
    obtain ⟨w, hw, hi⟩ := nonChar_iff.1 hn
    obtain ⟨h1, h2⟩ := nonChar_bytes hw
    exact h.2.2 (nonChar_iff.2 ⟨w, hw, infix_ascii h1 h2 (fun x hx => (ha x hx).1) hi⟩)

theorem fine_value {esc : Byte → Bytes} (he : Escaping esc) {v t : Bytes} (hv : Fine v) (h : Fine t)
    (ht : t = [] ∨ ∃ r, t = 0x3C :: r) : Fine (v.flatMap esc ++ t) := by
  refine ⟨?_, ?_, ?_⟩
  · rw [utf8Valid_append (value_utf8 he hv.1)]; exact h.1
  · intro c hc
    rcases List.mem_append.1 hc with hc | hc
    · obtain ⟨x, hx, hc⟩ := List.mem_flatMap.1 hc
      rcases he.other x with e | e
      · rw [e, List.mem_singleton] at hc; rw [hc]; exact hv.2.1 x hx
      · exact .inl (xmlRef_ascii e c hc).1
    · exact h.2.1 c hc
  · intro hn
    obtain ⟨w, hw, hi⟩ := nonChar_iff.1 hn
    obtain ⟨h1, h2⟩ := nonChar_bytes hw
    have ht' : t = [] ∨ ∃ c r, t = c :: r ∧ c < 0x80 := by
      rcases ht with ht | ⟨r, ht⟩
      · exact .inl ht
      · exact .inr ⟨_, r, ht, by decide⟩
    rcases infix_cut h1 h2 ht' hi with hi | hi
    · exact hv.2.2 (nonChar_iff.2 ⟨w, hw, infix_value he h1 h2 hi⟩)
    · exact h.2.2 (nonChar_iff.2 ⟨w, hw, hi⟩)

theorem name_ascii {n : Bytes} (h : XmlName n) : ∀ x ∈ n, x < 0x80 ∧ XmlByte x := by
  intro x hx
  have := h.1 x hx
  revert this
  revert x
  have : ∀ x : Byte, NameByte x → x < 0x80 ∧ XmlByte x := by
    intro x hx
    rcases hx with ⟨a, b⟩ | ⟨a, b⟩ | ⟨a, b⟩ | rfl | rfl | rfl | rfl
    · exact ⟨UInt8.lt_of_le_of_lt b (by decide), .inl (UInt8.le_trans (by decide) a)⟩
    · exact ⟨UInt8.lt_of_le_of_lt b (by decide), .inl (UInt8.le_trans (by decide) a)⟩
    · exact ⟨UInt8.lt_of_le_of_lt b (by decide), .inl (UInt8.le_trans (by decide) a)⟩
    · decide
    · decide
    · decide
    · decide
  exact fun x _ => this x

theorem attrs_ascii {esc : Byte → Bytes} (he : Escaping esc) {as : List (Bytes × Bytes)}
    (h : ∀ a ∈ as, XmlName a.1 ∧ AttrValue a.2) : ∀ x ∈ as.flatMap (xmlAttr esc), x < 0x80 ∧ XmlByte x := by
  intro x hx
  obtain ⟨a, ha, hx⟩ := List.mem_flatMap.1 hx
  obtain ⟨h1, h2⟩ := h a ha
  simp only [xmlAttr, List.cons_append, List.append_assoc, List.mem_cons, List.mem_append, List.nil_append,
    List.not_mem_nil, or_false] at hx
  rcases hx with rfl | hx | rfl | rfl | hx | rfl
  · decide
  · exact name_ascii h1 x hx
  · decide
  · decide
  · obtain ⟨c, hc, hx⟩ := List.mem_flatMap.1 hx
    obtain ⟨h3, _, h4⟩ := h2 c hc
    rcases he.other c with e | e
    · rw [e, List.mem_singleton] at hx
      rw [hx]; exact ⟨h4, .inl h3.1⟩
    · exact ⟨(xmlRef_ascii e x hx).2, .inl (xmlRef_ascii e x hx).1⟩
  · decide

theorem newline_ascii (d : Nat) (b : Bool) : ∀ x ∈ newlineText d b, x < 0x80 ∧ XmlByte x := by
  intro x hx
  unfold newlineText at hx
  split at hx
  · rcases List.mem_cons.1 hx with rfl | hx
    · decide
    · rw [List.eq_of_mem_replicate hx]; decide
  · simp at hx

/-- all texts may be written -/
def FineEvents : List XEvent → Prop
  | [] => True
  | .text v :: es => Fine v ∧ FineEvents es
  | _ :: es => FineEvents es

theorem render_fine {esc : Byte → Bytes} (he : Escaping esc) {es : List XEvent} (h : GoodEvents es) (hf : FineEvents es) :
    ∀ d b, Fine (render esc d b es) := by
  induction es with
  | nil => intro d b; exact ⟨rfl, by simp [render], by simp [NonChar, render]⟩
  | cons e es ih =>
    intro d b
    cases e with
    | decl =>
      exact fine_ascii (newline_ascii d b) (fine_ascii (by decide +kernel) (ih h hf d true))
    | start n as =>
      refine fine_ascii (newline_ascii d b) (fine_ascii ?_ (ih h.2.2.2 hf (d + 1) true))
      intro x hx
      simp only [List.mem_cons, List.mem_append, List.not_mem_nil, or_false] at hx
      rcases hx with rfl | (hx | hx) | rfl
      · decide
      · exact name_ascii h.1 x hx
      · exact attrs_ascii he h.2.1 x hx
      · decide
    | stop n =>
      refine fine_ascii (newline_ascii (d - 1) b) (fine_ascii ?_ (ih h.2 hf (d - 1) true))
      intro x hx
      simp only [List.mem_cons, List.mem_append, List.not_mem_nil, or_false] at hx
      rcases hx with rfl | rfl | hx | rfl
      · decide
      · decide
      · exact name_ascii h.1 x hx
      · decide
    | text v => exact fine_value he hf.1 (ih h.2.2 hf.2 d false) (render_head esc h.2.1 d)

/-- the text of a value is a part of the text -/
theorem render_infix (esc : Byte → Bytes) {es : List XEvent} {v : Bytes} (h : .text v ∈ es) : ∀ d b,
    v.flatMap esc <:+: render esc d b es := by
  induction es with
  | nil => simp at h
  | cons e es ih =>
    intro d b
    have key : .text v ∈ es → ∀ (a : Bytes) d b, v.flatMap esc <:+: a ++ render esc d b es :=
      fun h a d b => (ih h d b).trans (List.suffix_append _ _).isInfix
    cases e with
    | decl =>
      rw [render, ← List.append_assoc]
      exact key (by simpa using h) _ _ _
    | start n as =>
      rw [render, ← List.append_assoc]
      exact key (by simpa using h) _ _ _
    | stop n =>
      rw [render, ← List.append_assoc]
      exact key (by simpa using h) _ _ _
    | text w =>
      rw [render]
      rcases List.mem_cons.1 h with h | h
      · simp only [XEvent.text.injEq] at h
        rw [h]
        exact (List.prefix_append _ _).isInfix
      · exact key h _ _ _

end Pica
