import Verif.Spec.Xml
import Verif.Model.XmlText
import Verif.Lemmas.Convert
import Verif.Lemmas.Utf8

/-! The grammar of Spec/Xml is unambiguous. -/

namespace Pica

open Spec

/-- the character of a reference -/
def refChar (r : Bytes) : Nat :=
  match r with
  | 0x26 :: 0x6C :: _ => 0x3C
  | 0x26 :: 0x67 :: _ => 0x3E
  | 0x26 :: 0x61 :: 0x6D :: _ => 0x26
  | 0x26 :: 0x61 :: 0x70 :: _ => 0x27
  | 0x26 :: 0x71 :: _ => 0x22
  | _ :: _ :: ds => ds.dropLast.foldl (fun n d => 10 * n + (d.toNat - 0x30)) 0
  | _ => 0

theorem xmlRef_char {r : Bytes} {c : Byte} (h : XmlRef r c) : refChar r = c.toNat := by
  cases h with
  | lt => decide +kernel
  | gt => decide +kernel
  | amp => decide +kernel
  | apos => decide +kernel
  | quot => decide +kernel
  | num hd hv h h' =>
    rw [← hv]
    simp [refChar]

theorem xmlRef_unique {r : Bytes} {c c' : Byte} (h : XmlRef r c) (h' : XmlRef r c') : c = c' :=
  UInt8.toNat_inj.1 ((xmlRef_char h).symm.trans (xmlRef_char h'))

/-- bytes that do not occur in a reference -/
def NotInRef (x : Byte) : Prop := ¬ (0x61 ≤ x ∧ x ≤ 0x7A) ∧ ¬ (0x30 ≤ x ∧ x ≤ 0x39) ∧ x ≠ 0x23

instance (x : Byte) : Decidable (NotInRef x) := by unfold NotInRef; infer_instance

theorem xmlRef_shape {r : Bytes} {c : Byte} (h : XmlRef r c) :
    ∃ b, r = 0x26 :: (b ++ [0x3B]) ∧ ∀ x ∈ b, ¬ NotInRef x := by
  cases h with
  | lt => exact ⟨bs "lt", by decide +kernel, by decide +kernel⟩
  | gt => exact ⟨bs "gt", by decide +kernel, by decide +kernel⟩
  | amp => exact ⟨bs "amp", by decide +kernel, by decide +kernel⟩
  | apos => exact ⟨bs "apos", by decide +kernel, by decide +kernel⟩
  | quot => exact ⟨bs "quot", by decide +kernel, by decide +kernel⟩
  | @num ds _ hd hv h h' =>
    refine ⟨0x23 :: ds, rfl, fun x hx hn => ?_⟩
    rcases List.mem_cons.1 hx with rfl | hx
    · exact hn.2.2 rfl
    · exact hn.2.1 (hd x hx)

theorem xmlRef_mem {r : Bytes} {c : Byte} (h : XmlRef r c) {x : Byte} (hx : x ∈ r) :
    x = 0x26 ∨ x = 0x3B ∨ ¬ NotInRef x := by
  obtain ⟨b, rfl, hb⟩ := xmlRef_shape h
  simp only [List.mem_cons, List.mem_append, List.not_mem_nil, or_false] at hx
  rcases hx with hx | hx | hx
  · exact .inl hx
  · exact .inr (.inr (hb x hx))
  · exact .inr (.inl hx)

theorem xmlRef_ascii {r : Bytes} {c : Byte} (h : XmlRef r c) : ∀ x ∈ r, 0x20 ≤ x ∧ x < 0x80 := by
  intro x hx
  rcases xmlRef_mem h hx with rfl | rfl | h
  · decide
  · decide
  · unfold NotInRef at h
    have key : (0x61 ≤ x ∧ x ≤ 0x7A) ∨ (0x30 ≤ x ∧ x ≤ 0x39) ∨ x = 0x23 := by
      apply Classical.byContradiction
      intro hn
      rw [not_or, not_or] at hn
      exact h hn
    rcases key with ⟨a, b⟩ | ⟨a, b⟩ | rfl
    · exact ⟨UInt8.le_trans (by decide) a, UInt8.lt_of_le_of_lt b (by decide)⟩
    · exact ⟨UInt8.le_trans (by decide) a, UInt8.lt_of_le_of_lt b (by decide)⟩
    · decide

theorem xmlRef_split {r r' : Bytes} {c c' : Byte} (h : XmlRef r c) (h' : XmlRef r' c') {t t' : Bytes}
    (he : r ++ t = r' ++ t') : c = c' ∧ t = t' := by
  obtain ⟨b, hr, hb⟩ := xmlRef_shape h
  obtain ⟨b', hr', hb'⟩ := xmlRef_shape h'
  subst hr hr'
  simp only [List.cons_append, List.append_assoc, List.cons.injEq, true_and, List.nil_append] at he
  obtain ⟨h1, h2⟩ := append_cons_inj (t := 0x3B) (fun hm => hb _ hm (by decide)) (fun hm => hb' _ hm (by decide)) he
  subst h1
  exact ⟨xmlRef_unique h h', h2⟩

theorem refText_unique {P : Byte → Prop} {t v v' : Bytes} (h : RefText P t v) (h' : RefText P t v') : v = v' := by
  induction h generalizing v' with
  | nil =>
    generalize hz : ([] : Bytes) = z at h'
    cases h' with
    | nil => rfl
    | char => simp at hz
    | ref hr => obtain ⟨b, rfl, _⟩ := xmlRef_shape hr; simp at hz
  | @char c t v hc ha h ih =>
    generalize hz : c :: t = z at h'
    cases h' with
    | nil => simp at hz
    | char hc' ha' h' =>
      simp only [List.cons.injEq] at hz
      obtain ⟨rfl, rfl⟩ := hz
      rw [ih h']
    | ref hr h' =>
      obtain ⟨b, rfl, _⟩ := xmlRef_shape hr
      simp only [List.cons_append, List.cons.injEq] at hz
      exact absurd hz.1 ha
  | @ref r c t v hr h ih =>
    generalize hz : r ++ t = z at h'
    cases h' with
    | nil => obtain ⟨b, rfl, _⟩ := xmlRef_shape hr; simp at hz
    | char hc' ha' h' =>
      obtain ⟨b, rfl, _⟩ := xmlRef_shape hr
      simp only [List.cons_append, List.cons.injEq] at hz
      exact absurd hz.1.symm ha'
    | ref hr' h' =>
      obtain ⟨h1, h2⟩ := xmlRef_split hr hr' hz
      subst h1 h2
      rw [ih h']

theorem refText_avoid {P : Byte → Prop} {x : Byte} (hP : ¬ P x) (hx : NotInRef x) (h26 : x ≠ 0x26) (h3B : x ≠ 0x3B)
    {t v : Bytes} (h : RefText P t v) : x ∉ t := by
  induction h with
  | nil => simp
  | char hc ha h ih =>
    rw [List.mem_cons, not_or]
    exact ⟨fun e => hP (e ▸ hc), ih⟩
  | ref hr h ih =>
    rw [List.mem_append, not_or]
    refine ⟨fun hm => ?_, ih⟩
    rcases xmlRef_mem hr hm with h | h | h
    · exact h26 h
    · exact h3B h
    · exact h hx

theorem name_avoid {n : Bytes} (h : XmlName n) {x : Byte} (hx : ¬ NameByte x) : x ∉ n :=
  fun hm => hx (h.1 x hm)

theorem name_ne {n : Bytes} (h : XmlName n) : n ≠ [] := by
  obtain ⟨_, c, t, rfl, _⟩ := h
  simp

theorem xmlAttrs_gt {t : Bytes} {as : List (Bytes × Bytes)} (h : XmlAttrs t as) : 0x3E ∉ t := by
  induction h with
  | nil => simp
  | cons hn h hs hu ih =>
    have h1 := name_avoid hn (x := 0x3E) (by decide)
    have h2 := refText_avoid (x := 0x3E) (by simp [AttrByte]) (by decide) (by decide) (by decide) h
    simp only [List.mem_cons, List.mem_append, not_or]
    exact ⟨by decide, h1, by decide, by decide, h2, by decide, ih⟩

theorem xmlAttrs_unique {t : Bytes} {as as' : List (Bytes × Bytes)} (h : XmlAttrs t as) (h' : XmlAttrs t as') :
    as = as' := by
  induction h generalizing as' with
  | nil =>
    generalize hz : ([] : Bytes) = z at h'
    cases h' with
    | nil => rfl
    | cons => simp at hz
  | @cons n t v ts as hn h hs hu ih =>
    generalize hz : SP :: (n ++ 0x3D :: 0x22 :: (t ++ 0x22 :: ts)) = z at h'
    cases h' with
    | nil => simp at hz
    | cons hn' h' hs' hu' =>
      simp only [List.cons.injEq, true_and] at hz
      obtain ⟨h1, h2⟩ := append_cons_inj (name_avoid hn (by decide)) (name_avoid hn' (by decide)) hz
      simp only [List.cons.injEq, true_and] at h2
      obtain ⟨h3, h4⟩ := append_cons_inj (t := 0x22)
        (refText_avoid (by simp [AttrByte]) (by decide) (by decide) (by decide) h)
        (refText_avoid (by simp [AttrByte]) (by decide) (by decide) (by decide) h') h2
      subst h1 h3 h4
      rw [refText_unique h h', ih hs']

theorem xmlAttrs_head {t : Bytes} {as : List (Bytes × Bytes)} (h : XmlAttrs t as) : t = [] ∨ ∃ r, t = SP :: r := by
  cases h with
  | nil => exact .inl rfl
  | cons => exact .inr ⟨_, rfl⟩

theorem markup_shape {m : Bytes} {k : XmlToken} (h : XmlMarkup m k) :
    ∃ b, m = 0x3C :: (b ++ [0x3E]) ∧ 0x3E ∉ b := by
  cases h with
  | decl => exact ⟨bs "?xml version=\"1.0\" encoding=\"UTF-8\"?", by decide +kernel, by decide +kernel⟩
  | @start n t as hn h =>
    refine ⟨n ++ t, rfl, ?_⟩
    rw [List.mem_append, not_or]
    exact ⟨name_avoid hn (by decide), xmlAttrs_gt h⟩
  | @stop n hn =>
    refine ⟨0x2F :: n, rfl, ?_⟩
    rw [List.mem_cons, not_or]
    exact ⟨by decide, name_avoid hn (by decide)⟩

/-- the second byte tells the kinds of markup apart -/
theorem markup_second {m : Bytes} {k : XmlToken} (h : XmlMarkup m k) :
    (k = .decl ∧ (m.drop 1).head? = some 0x3F) ∨
    (∃ n as t, k = .start n as ∧ XmlName n ∧ XmlAttrs t as ∧ m = 0x3C :: (n ++ t ++ [0x3E])) ∨
    (∃ n, k = .stop n ∧ XmlName n ∧ m = 0x3C :: 0x2F :: (n ++ [0x3E])) := by
  cases h with
  | decl => exact .inl ⟨rfl, by decide +kernel⟩
  | start hn h => exact .inr (.inl ⟨_, _, _, rfl, hn, h, rfl⟩)
  | stop hn => exact .inr (.inr ⟨_, rfl, hn, rfl⟩)

theorem name_split {n n' t t' : Bytes} (hn : XmlName n) (hn' : XmlName n')
    (ht : t = [] ∨ ∃ r, t = SP :: r) (ht' : t' = [] ∨ ∃ r, t' = SP :: r) (h : n ++ t = n' ++ t') : n = n' ∧ t = t' := by
  have h1 := name_avoid hn (x := SP) (by decide)
  have h2 := name_avoid hn' (x := SP) (by decide)
  rcases ht with rfl | ⟨r, rfl⟩ <;> rcases ht' with rfl | ⟨r', rfl⟩
  · simpa using h
  · rw [List.append_nil] at h; exact absurd (h ▸ by simp) h1
  · rw [List.append_nil] at h; exact absurd (h ▸ by simp) h2
  · obtain ⟨h3, h4⟩ := append_cons_inj h1 h2 h
    exact ⟨h3, by rw [h4]⟩

theorem markup_unique {m : Bytes} {k k' : XmlToken} (h : XmlMarkup m k) (h' : XmlMarkup m k') : k = k' := by
  have first : ∀ {n : Bytes}, XmlName n → ∀ t, ((n ++ t).head? = some 0x3F → False) ∧ ((n ++ t).head? = some 0x2F → False) := by
    rintro n ⟨hb, c, t, rfl, -⟩ t'
    have := hb c (by simp)
    constructor
    · intro he
      simp only [List.cons_append, List.head?_cons, Option.some.injEq] at he
      subst he; exact absurd this (by decide)
    · intro he
      simp only [List.cons_append, List.head?_cons, Option.some.injEq] at he
      subst he; exact absurd this (by decide)
  rcases markup_second h with ⟨rfl, h1⟩ | ⟨n, as, t, rfl, hn, ha, rfl⟩ | ⟨n, rfl, hn, rfl⟩
  · rcases markup_second h' with ⟨rfl, h2⟩ | ⟨n, as, t, rfl, hn, ha, rfl⟩ | ⟨n, rfl, hn, rfl⟩
    · rfl
    · rw [List.drop_one, List.tail_cons, List.append_assoc] at h1
      exact absurd h1 (fun e => (first hn _).1 e)
    · simp at h1
  · rcases markup_second h' with ⟨rfl, h2⟩ | ⟨n', as', t', rfl, hn', ha', he⟩ | ⟨n', rfl, hn', he⟩
    · rw [List.drop_one, List.tail_cons, List.append_assoc] at h2
      exact absurd h2 (fun e => (first hn _).1 e)
    · simp only [List.cons.injEq, true_and] at he
      obtain ⟨h3, h4⟩ := name_split hn hn' (xmlAttrs_head ha) (xmlAttrs_head ha') (List.append_cancel_right he)
      subst h3 h4
      rw [xmlAttrs_unique ha ha']
    · simp only [List.cons.injEq, true_and] at he
      rw [List.append_assoc] at he
      exact absurd (by rw [he]; rfl) (fun e => (first hn _).2 e)
  · rcases markup_second h' with ⟨rfl, h2⟩ | ⟨n', as', t', rfl, hn', ha', he⟩ | ⟨n', rfl, hn', he⟩
    · simp at h2
    · simp only [List.cons.injEq, true_and] at he
      rw [List.append_assoc] at he
      exact absurd (by rw [← he]; rfl) (fun e => (first hn' _).2 e)
    · simp only [List.cons.injEq, true_and] at he
      rw [List.append_cancel_right he]

theorem refText_nolt {t v : Bytes} (h : RefText TextByte t v) : 0x3C ∉ t :=
  refText_avoid (by simp [TextByte]) (by decide) (by decide) (by decide) h

/-- **a text is read in at most one way** -/
theorem xmlTokens_unique {t : Bytes} {ks ks' : List XmlToken} (h : XmlTokens t ks) (h' : XmlTokens t ks') : ks = ks' := by
  induction h generalizing ks' with
  | nil =>
    generalize hz : ([] : Bytes) = z at h'
    cases h' with
    | nil => rfl
    | markup hm _ => obtain ⟨b, rfl, _⟩ := markup_shape hm; simp at hz
    | text hs hne _ _ =>
      exact absurd (List.append_eq_nil_iff.1 hz.symm).1 hne
  | @markup m k t ks hm h ih =>
    generalize hz : m ++ t = z at h'
    cases h' with
    | nil => obtain ⟨b, rfl, _⟩ := markup_shape hm; simp at hz
    | markup hm' h' =>
      obtain ⟨b, rfl, hb⟩ := markup_shape hm
      obtain ⟨b', rfl, hb'⟩ := markup_shape hm'
      simp only [List.cons_append, List.append_assoc, List.nil_append, List.cons.injEq, true_and] at hz
      obtain ⟨h1, h2⟩ := append_cons_inj hb hb' hz
      subst h1 h2
      rw [markup_unique hm hm', ih h']
    | @text s v t' ks' hs hne ht h' =>
      obtain ⟨b, rfl, hb⟩ := markup_shape hm
      obtain ⟨x, s, rfl⟩ := List.exists_cons_of_ne_nil hne
      simp only [List.cons_append, List.cons.injEq] at hz
      exact absurd (by rw [hz.1]; simp) (refText_nolt hs)
  | @text s v t ks hs hne ht h ih =>
    generalize hz : s ++ t = z at h'
    cases h' with
    | nil => exact absurd (List.append_eq_nil_iff.1 hz).1 hne
    | markup hm' h' =>
      obtain ⟨b, rfl, hb⟩ := markup_shape hm'
      obtain ⟨x, s, rfl⟩ := List.exists_cons_of_ne_nil hne
      simp only [List.cons_append, List.cons.injEq] at hz
      exact absurd (by rw [hz.1]; simp) (refText_nolt hs)
    | @text s' v' t' ks' hs' hne' ht' h' =>
      have hst : s = s' ∧ t = t' := by
        have h1 := refText_nolt hs
        have h2 := refText_nolt hs'
        rcases ht with rfl | ⟨r, rfl⟩ <;> rcases ht' with rfl | ⟨r', rfl⟩
        · simpa using hz
        · rw [List.append_nil] at hz; exact absurd (hz ▸ by simp) h1
        · rw [List.append_nil] at hz; exact absurd (hz ▸ by simp) h2
        · obtain ⟨h3, h4⟩ := append_cons_inj h1 h2 hz
          exact ⟨h3, by rw [h4]⟩
      obtain ⟨rfl, rfl⟩ := hst
      rw [refText_unique hs hs', ih h']

end Pica
