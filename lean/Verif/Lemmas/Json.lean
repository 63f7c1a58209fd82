import Verif.Spec.Json
import Verif.Lemmas.Utf8

/-! A JSON text has one value. -/

namespace Pica
open Spec

/-- white space -/
def isJsonWs (c : Byte) : Bool := c == 0x20 || c == 0x09 || c == 0x0A || c == 0x0D

theorem jsonWs_iff {t : Bytes} : JsonWs t ↔ ∀ c ∈ t, isJsonWs c = true := by
  simp [JsonWs, isJsonWs, or_assoc]

/-- two texts of bytes with a property, each followed by a byte without it or by nothing -/
theorem span_inj {P : Byte → Bool} {a a' r r' : Bytes} (ha : ∀ c ∈ a, P c = true) (ha' : ∀ c ∈ a', P c = true)
    (hr : ∀ c, r.head? = some c → P c = false) (hr' : ∀ c, r'.head? = some c → P c = false)
    (h : a ++ r = a' ++ r') : a = a' ∧ r = r' := by
  induction a generalizing a' with
  | nil =>
    cases a' with
    | nil => exact ⟨rfl, h⟩
    | cons c a' =>
      have := hr c (by rw [List.nil_append] at h; rw [h]; rfl)
      rw [ha' c List.mem_cons_self] at this
      cases this
  | cons c a ih =>
    cases a' with
    | nil =>
      have := hr' c (by rw [List.nil_append] at h; rw [← h]; rfl)
      rw [ha c List.mem_cons_self] at this
      cases this
    | cons c' a' =>
      rw [List.cons_append, List.cons_append, List.cons.injEq] at h
      obtain ⟨rfl, h⟩ := h
      obtain ⟨rfl, rfl⟩ := ih (fun x hx => ha x (List.mem_cons_of_mem _ hx))
        (fun x hx => ha' x (List.mem_cons_of_mem _ hx)) h
      exact ⟨rfl, rfl⟩

/-- white space in front of a byte that is none -/
theorem ws_inj {a a' r r' : Bytes} {c c' : Byte} (ha : JsonWs a) (ha' : JsonWs a') (hc : isJsonWs c = false)
    (hc' : isJsonWs c' = false) (h : a ++ c :: r = a' ++ c' :: r') : a = a' ∧ c = c' ∧ r = r' := by
  have := span_inj (P := isJsonWs) (jsonWs_iff.1 ha) (jsonWs_iff.1 ha')
    (fun x hx => by simp at hx; exact hx ▸ hc) (fun x hx => by simp at hx; exact hx ▸ hc') h
  rw [List.cons.injEq] at this
  exact ⟨this.1, this.2.1, this.2.2⟩

/-! ## strings -/

theorem hexDigit_inj {c : Byte} {m n : Nat} (h : HexDigit c m) (h' : HexDigit c n) : m = n := by
  simp only [HexDigit, UInt8.le_iff_toNat_le, UInt8.reduceToNat] at h h'
  omega

theorem hexUnit_length {ds : Bytes} {n : Nat} (h : HexUnit ds n) : ds.length = 4 := by
  cases h; rfl

theorem hexUnit_inj {ds : Bytes} {m n : Nat} (h : HexUnit ds m) (h' : HexUnit ds n) : m = n := by
  cases h with
  | mk ha hb hc hd =>
    cases h' with
    | mk ha' hb' hc' hd' =>
      rw [hexDigit_inj ha ha', hexDigit_inj hb hb', hexDigit_inj hc hc', hexDigit_inj hd hd']

theorem jsonShort_u : ∀ e c : Byte, (e, c) ∈ jsonShort → e ≠ 0x75 := by
  intro e c h
  simp only [jsonShort, List.mem_cons, Prod.mk.injEq, List.not_mem_nil, or_false] at h
  rcases h with h | h | h | h | h | h | h | h <;> rw [h.1] <;> decide

theorem jsonShort_inj {e c c' : Byte} (h : (e, c) ∈ jsonShort) (h' : (e, c') ∈ jsonShort) : c = c' := by
  simp only [jsonShort, List.mem_cons, Prod.mk.injEq, List.not_mem_nil, or_false] at h h'
  rcases h with h | h | h | h | h | h | h | h <;> obtain ⟨rfl, rfl⟩ := h <;> simp at h' <;> exact h'.symm

theorem char_toNat_inj {c d : Char} (h : c.toNat = d.toNat) : c = d := by
  apply Char.ext
  exact UInt32.toNat_inj.1 h

/-- a character is not one half of a pair -/
theorem char_no_surrogate (c : Char) : ¬ (0xD800 ≤ c.toNat ∧ c.toNat < 0xE000) := by
  have := c.valid
  simp only [UInt32.isValidChar, Nat.isValidChar] at this
  have e : c.toNat = c.val.toNat := rfl
  omega

theorem char_not_half {c : Char} {m : Nat} (h : c.toNat = 0xD800 + m) (hm : m < 0x400) : False :=
  char_no_surrogate c (by omega)

/-- the characters up to the first quotation mark that is not escaped -/
theorem jsonChars_inj {t v : Bytes} (h : JsonChars t v) : ∀ {t' v' r r' : Bytes}, JsonChars t' v' →
    t ++ 0x22 :: r = t' ++ 0x22 :: r' → t = t' ∧ v = v' ∧ r = r' := by
  induction h with
  | nil =>
    intro t' v' r r' h' he
    cases h' with
    | nil => exact ⟨rfl, rfl, by simpa using he⟩
    | plain hc hq hb h => simp at he; exact absurd he.1.symm hq
    | short hc h => simp at he
    | unit hd h => simp at he
    | pair hd he' hm hn hc h => simp at he
  | plain hc hq hb h ih =>
    intro t' v' r r' h' he
    cases h' with
    | nil => simp at he; exact absurd he.1 hq
    | plain hc' hq' hb' h' =>
      simp only [List.cons_append, List.cons.injEq] at he
      obtain ⟨rfl, he⟩ := he
      obtain ⟨rfl, rfl, rfl⟩ := ih h' he
      exact ⟨rfl, rfl, rfl⟩
    | short hc h => simp at he; exact absurd he.1 hb
    | unit hd h => simp at he; exact absurd he.1 hb
    | pair hd he' hm hn hc h => simp at he; exact absurd he.1 hb
  | short hs h ih =>
    intro t' v' r r' h' he
    cases h' with
    | nil => simp at he
    | plain hc hq hb h => simp at he; exact absurd he.1.symm hb
    | short hs' h' =>
      simp only [List.cons_append, List.cons.injEq, true_and] at he
      obtain ⟨rfl, he⟩ := he
      obtain ⟨rfl, rfl, rfl⟩ := ih h' he
      exact ⟨rfl, by rw [jsonShort_inj hs hs'], rfl⟩
    | unit hd h => simp at he; exact absurd he.1 (jsonShort_u _ _ hs)
    | pair hd he' hm hn hc h => simp at he; exact absurd he.1 (jsonShort_u _ _ hs)
  | unit hd h ih =>
    intro t' v' r r' h' he
    cases h' with
    | nil => simp at he
    | plain hc hq hb h => simp at he; exact absurd he.1.symm hb
    | short hs h => simp at he; exact absurd he.1.symm (jsonShort_u _ _ hs)
    | unit hd' h' =>
      simp only [List.cons_append, List.cons.injEq, true_and, List.append_assoc] at he
      obtain ⟨rfl, he2⟩ := List.append_inj he (by rw [hexUnit_length hd, hexUnit_length hd'])
      obtain ⟨rfl, rfl, rfl⟩ := ih h' he2
      rw [char_toNat_inj (hexUnit_inj hd hd')]
      exact ⟨rfl, rfl, rfl⟩
    | pair hd' he' hm hn hc h' =>
      simp only [List.cons_append, List.cons.injEq, true_and, List.append_assoc] at he
      obtain ⟨rfl, he2⟩ := List.append_inj he (by rw [hexUnit_length hd, hexUnit_length hd'])
      exact (char_not_half (hexUnit_inj hd hd') hm).elim
  | pair hd he₁ hm hn hc h ih =>
    intro t' v' r r' h' he
    cases h' with
    | nil => simp at he
    | plain hc hq hb h => simp at he; exact absurd he.1.symm hb
    | short hs h => simp at he; exact absurd he.1.symm (jsonShort_u _ _ hs)
    | unit hd' h' =>
      simp only [List.cons_append, List.cons.injEq, true_and, List.append_assoc] at he
      obtain ⟨rfl, he2⟩ := List.append_inj he (by rw [hexUnit_length hd, hexUnit_length hd'])
      exact (char_not_half (hexUnit_inj hd' hd) hm).elim
    | pair hd' he₁' hm' hn' hc' h' =>
      simp only [List.cons_append, List.cons.injEq, true_and, List.append_assoc] at he
      obtain ⟨rfl, he2⟩ := List.append_inj he (by rw [hexUnit_length hd, hexUnit_length hd'])
      simp only [List.cons.injEq, true_and] at he2
      obtain ⟨rfl, he3⟩ := List.append_inj he2 (by rw [hexUnit_length he₁, hexUnit_length he₁'])
      obtain ⟨rfl, rfl, rfl⟩ := ih h' he3
      have h1 := hexUnit_inj hd hd'
      have h2 := hexUnit_inj he₁ he₁'
      rw [char_toNat_inj (hc.trans (Eq.trans (by omega) hc'.symm))]
      exact ⟨rfl, rfl, rfl⟩

theorem jsonString_inj {t v t' v' r r' : Bytes} (h : JsonString t v) (h' : JsonString t' v')
    (he : t ++ r = t' ++ r') : t = t' ∧ v = v' ∧ r = r' := by
  cases h with
  | mk h =>
    cases h' with
    | mk h' =>
      simp only [List.cons_append, List.cons.injEq, true_and, List.append_assoc, List.nil_append] at he
      obtain ⟨rfl, rfl, rfl⟩ := jsonChars_inj h h' he
      exact ⟨rfl, rfl, rfl⟩

/-! ## numbers -/

/-- the bytes of numbers -/
def isNumByte (c : Byte) : Bool :=
  (0x30 ≤ c && c ≤ 0x39) || c == 0x2D || c == 0x2B || c == 0x2E || c == 0x65 || c == 0x45

theorem digits_num {t : Bytes} (h : JsonDigits t) : ∀ c ∈ t, isNumByte c = true := by
  intro c hc
  simp [isNumByte, h.2 c hc]

theorem jsonNumber_bytes {t : Bytes} (h : JsonNumber t) : ∀ c ∈ t, isNumByte c = true := by
  cases h with
  | mk hs hi hf he =>
    intro c hc
    simp only [List.mem_append] at hc
    rcases hc with ((hc | hc) | hc) | hc
    · rcases hs with rfl | rfl <;> simp at hc; subst hc; decide
    · rcases hi with rfl | ⟨hi, _⟩
      · simp at hc; subst hc; decide
      · exact digits_num hi c hc
    · rcases hf with rfl | ⟨ds, rfl, hd⟩
      · simp at hc
      · rcases List.mem_cons.1 hc with rfl | hc
        · decide
        · exact digits_num hd c hc
    · rcases he with rfl | ⟨x, g, ds, rfl, hx, hg, hd⟩
      · simp at hc
      · rcases List.mem_cons.1 hc with rfl | hc
        · rcases hx with rfl | rfl <;> decide
        · rcases List.mem_append.1 hc with hc | hc
          · rcases hg with rfl | rfl | rfl <;> simp at hc <;> subst hc <;> decide
          · exact digits_num hd c hc

/-- a number begins with its sign or a digit -/
theorem jsonNumber_head {t : Bytes} (h : JsonNumber t) :
    ∃ c s, t = c :: s ∧ (c = 0x2D ∨ 0x30 ≤ c ∧ c ≤ 0x39) := by
  cases h with
  | @mk s i f e hs hi hf he =>
    rcases hs with rfl | rfl
    · rcases hi with rfl | ⟨⟨h1, h2⟩, _⟩
      · exact ⟨0x30, f ++ e, by simp, Or.inr (by decide)⟩
      · obtain ⟨c, i, rfl⟩ := List.exists_cons_of_ne_nil h1
        exact ⟨c, i ++ f ++ e, by simp, Or.inr (h2 c List.mem_cons_self)⟩
    · exact ⟨0x2D, i ++ f ++ e, by simp, Or.inl rfl⟩

/-! ## values -/

/-- the kind of value a byte begins -/
def jsonKind (c : Byte) : Nat :=
  if c = 0x6E then 1 else if c = 0x74 then 2 else if c = 0x66 then 3
  else if c = 0x2D ∨ 0x30 ≤ c ∧ c ≤ 0x39 then 4
  else if c = 0x22 then 5 else if c = 0x5B then 6 else if c = 0x7B then 7 else 0

/-- the kind of a value -/
def Spec.Json.kind : Json → Nat
  | .null => 1
  | .bool true => 2
  | .bool false => 3
  | .num _ => 4
  | .str _ => 5
  | .arr _ => 6
  | .obj _ => 7

theorem kind_pos (v : Json) : v.kind ≠ 0 := by
  cases v with
  | bool b => cases b <;> simp [Json.kind]
  | _ => simp [Json.kind]

theorem jsonKind_num {c : Byte} (h : c = 0x2D ∨ 0x30 ≤ c ∧ c ≤ 0x39) : jsonKind c = 4 := by
  have h1 : c ≠ 0x6E := by rintro rfl; revert h; decide
  have h2 : c ≠ 0x74 := by rintro rfl; revert h; decide
  have h3 : c ≠ 0x66 := by rintro rfl; revert h; decide
  simp only [jsonKind, h1, h2, h3, if_false, h, if_true]

theorem jsonValue_head {t : Bytes} {v : Json} (h : JsonValue t v) :
    ∃ c s, t = c :: s ∧ jsonKind c = v.kind := by
  cases h with
  | null => exact ⟨0x6E, bs "ull", by decide +kernel, rfl⟩
  | true => exact ⟨0x74, bs "rue", by decide +kernel, rfl⟩
  | false => exact ⟨0x66, bs "alse", by decide +kernel, rfl⟩
  | num h =>
    obtain ⟨c, s, rfl, hc⟩ := jsonNumber_head h
    exact ⟨c, s, rfl, jsonKind_num hc⟩
  | str h => cases h with | mk h => exact ⟨_, _, rfl, rfl⟩
  | noItems h => exact ⟨_, _, rfl, rfl⟩
  | arr h => exact ⟨_, _, rfl, rfl⟩
  | noMembers h => exact ⟨_, _, rfl, rfl⟩
  | obj h => exact ⟨_, _, rfl, rfl⟩

theorem kind_not_ws {c : Byte} (h : jsonKind c ≠ 0) : isJsonWs c = false := by
  cases hw : isJsonWs c with
  | false => rfl
  | true =>
    simp only [isJsonWs, Bool.or_eq_true, beq_iff_eq] at hw
    rcases hw with ((rfl | rfl) | rfl) | rfl <;> exact absurd rfl h

/-- what may follow a value -/
def ValueEnd (r : Bytes) : Prop := ∀ c, r.head? = some c → isNumByte c = false

theorem ends_nil : ValueEnd [] := fun c h => by simp at h

theorem ends_cons {c : Byte} (r : Bytes) (h : isNumByte c = false) : ValueEnd (c :: r) := fun x hx => by
  simp at hx; exact hx ▸ h

theorem ends_ws {a r : Bytes} (ha : JsonWs a) (hr : ValueEnd r) : ValueEnd (a ++ r) := by
  cases a with
  | nil => exact hr
  | cons c a =>
    refine ends_cons _ ?_
    rcases ha c List.mem_cons_self with rfl | rfl | rfl | rfl <;> decide

/-- white space, a value, and what follows -/
theorem ws_value_inj {a t a' t' r r' : Bytes} {v v' : Json} (ha : JsonWs a) (ha' : JsonWs a') (h : JsonValue t v)
    (h' : JsonValue t' v') (he : a ++ (t ++ r) = a' ++ (t' ++ r')) : a = a' ∧ t ++ r = t' ++ r' := by
  obtain ⟨c, s, rfl, hc⟩ := jsonValue_head h
  obtain ⟨c', s', rfl, hc'⟩ := jsonValue_head h'
  obtain ⟨rfl, rfl, h⟩ := ws_inj ha ha' (kind_not_ws (by rw [hc]; exact kind_pos v))
    (kind_not_ws (by rw [hc']; exact kind_pos v')) he
  exact ⟨rfl, congrArg (c :: ·) h⟩

/-- white space, a string, and what follows -/
theorem ws_string_inj {a t a' t' r r' v v' : Bytes} (ha : JsonWs a) (ha' : JsonWs a') (h : JsonString t v)
    (h' : JsonString t' v') (he : a ++ (t ++ r) = a' ++ (t' ++ r')) : a = a' ∧ t = t' ∧ v = v' ∧ r = r' := by
  obtain ⟨h1, h2⟩ := ws_value_inj ha ha' (.str h) (.str h') he
  exact ⟨h1, jsonString_inj h h' h2⟩

/-- there is no value in an empty array or object -/
theorem ws_close {a b t r r' : Bytes} {v : Json} {c : Byte} (ha : JsonWs a) (hb : JsonWs b) (h : JsonValue t v)
    (hc : isJsonWs c = false) (hk : jsonKind c = 0) : a ++ c :: r ≠ b ++ (t ++ r') := by
  intro he
  obtain ⟨x, s, rfl, hx⟩ := jsonValue_head h
  obtain ⟨_, rfl, _⟩ := ws_inj ha hb hc (kind_not_ws (by rw [hx]; exact kind_pos v)) he
  rw [hk] at hx
  exact kind_pos v hx.symm

theorem items_head {t : Bytes} {l : List Json} (h : JsonItems t l) :
    ∃ a s v r, t = a ++ (s ++ r) ∧ JsonWs a ∧ JsonValue s v := by
  cases h with
  | one ha h hb => exact ⟨_, _, _, _, rfl, ha, h⟩
  | more ha h hb hl => exact ⟨_, _, _, _, rfl, ha, h⟩

theorem members_head {t : Bytes} {l : List (Bytes × Json)} (h : JsonMembers t l) :
    ∃ a s v r, t = a ++ (s ++ r) ∧ JsonWs a ∧ JsonValue s v := by
  cases h with
  | one ha h => exact ⟨_, _, _, _, rfl, ha, .str h⟩
  | more ha h => exact ⟨_, _, _, _, rfl, ha, .str h⟩

/-- values, items and members are read in one way -/
theorem json_inj (n : Nat) :
    (∀ {t t' r r' : Bytes} {v v' : Json}, t.length ≤ n → JsonValue t v → JsonValue t' v' →
      t ++ r = t' ++ r' → ValueEnd r → ValueEnd r' → t = t' ∧ v = v') ∧
    (∀ {t t' r r' : Bytes} {l l' : List Json}, t.length ≤ n → JsonItems t l → JsonItems t' l' →
      t ++ 0x5D :: r = t' ++ 0x5D :: r' → t = t' ∧ l = l') ∧
    (∀ {t t' r r' : Bytes} {l l' : List (Bytes × Json)}, t.length ≤ n → JsonMembers t l → JsonMembers t' l' →
      t ++ 0x7D :: r = t' ++ 0x7D :: r' → t = t' ∧ l = l') := by
  induction n with
  | zero =>
    refine ⟨fun hn h _ _ _ _ => ?_, fun hn h _ _ => ?_, fun hn h _ _ => ?_⟩
    · obtain ⟨c, s, rfl, _⟩ := jsonValue_head h
      simp at hn
    · obtain ⟨a, s, v, r, rfl, _, h⟩ := items_head h
      obtain ⟨c, s, rfl, _⟩ := jsonValue_head h
      simp at hn
    · obtain ⟨a, s, v, r, rfl, _, h⟩ := members_head h
      obtain ⟨c, s, rfl, _⟩ := jsonValue_head h
      simp at hn
  | succ n ih =>
    obtain ⟨ih1, ih2, ih3⟩ := ih
    have P1 : ∀ {t t' r r' : Bytes} {v v' : Json}, t.length ≤ n + 1 → JsonValue t v → JsonValue t' v' →
        t ++ r = t' ++ r' → ValueEnd r → ValueEnd r' → t = t' ∧ v = v' := by
      intro t t' r r' v v' hn h h' he hr hr'
      have hk : v.kind = v'.kind := by
        obtain ⟨c, s, rfl, hc⟩ := jsonValue_head h
        obtain ⟨c', s', rfl, hc'⟩ := jsonValue_head h'
        simp only [List.cons_append, List.cons.injEq] at he
        rw [← hc, ← hc', he.1]
      cases h with
      | null => cases h' <;> first | exact ⟨rfl, rfl⟩ | (simp [Json.kind] at hk)
      | true => cases h' <;> first | exact ⟨rfl, rfl⟩ | (simp [Json.kind] at hk)
      | false => cases h' <;> first | exact ⟨rfl, rfl⟩ | (simp [Json.kind] at hk)
      | num h =>
        cases h' with
        | num h' =>
          obtain ⟨rfl, _⟩ := span_inj (jsonNumber_bytes h) (jsonNumber_bytes h') hr hr' he
          exact ⟨rfl, rfl⟩
        | _ => simp [Json.kind] at hk
      | str h =>
        cases h' with
        | str h' =>
          obtain ⟨rfl, rfl, _⟩ := jsonString_inj h h' he
          exact ⟨rfl, rfl⟩
        | _ => simp [Json.kind] at hk
      | noItems ha =>
        cases h' with
        | noItems ha' =>
          simp only [List.cons_append, List.cons.injEq, true_and, List.append_assoc, List.nil_append] at he
          obtain ⟨rfl, _⟩ := ws_inj ha ha' (by decide) (by decide) he
          exact ⟨rfl, rfl⟩
        | arr h' =>
          obtain ⟨a, s, v, r, rfl, hb, h'⟩ := items_head h'
          simp only [List.cons_append, List.cons.injEq, true_and, List.append_assoc, List.nil_append] at he
          exact absurd he (ws_close ha hb h' (by decide) (by decide))
        | _ => simp [Json.kind] at hk
      | arr h =>
        cases h' with
        | noItems ha' =>
          obtain ⟨a, s, v, r, rfl, hb, h⟩ := items_head h
          simp only [List.cons_append, List.cons.injEq, true_and, List.append_assoc, List.nil_append] at he
          exact absurd he.symm (ws_close ha' hb h (by decide) (by decide))
        | arr h' =>
          simp only [List.cons_append, List.cons.injEq, true_and, List.append_assoc, List.nil_append] at he
          obtain ⟨rfl, rfl⟩ := ih2 (by simp at hn; omega) h h' he
          exact ⟨rfl, rfl⟩
        | _ => simp [Json.kind] at hk
      | noMembers ha =>
        cases h' with
        | noMembers ha' =>
          simp only [List.cons_append, List.cons.injEq, true_and, List.append_assoc, List.nil_append] at he
          obtain ⟨rfl, _⟩ := ws_inj ha ha' (by decide) (by decide) he
          exact ⟨rfl, rfl⟩
        | obj h' =>
          obtain ⟨a, s, v, r, rfl, hb, h'⟩ := members_head h'
          simp only [List.cons_append, List.cons.injEq, true_and, List.append_assoc, List.nil_append] at he
          exact absurd he (ws_close ha hb h' (by decide) (by decide))
        | _ => simp [Json.kind] at hk
      | obj h =>
        cases h' with
        | noMembers ha' =>
          obtain ⟨a, s, v, r, rfl, hb, h⟩ := members_head h
          simp only [List.cons_append, List.cons.injEq, true_and, List.append_assoc, List.nil_append] at he
          exact absurd he.symm (ws_close ha' hb h (by decide) (by decide))
        | obj h' =>
          simp only [List.cons_append, List.cons.injEq, true_and, List.append_assoc, List.nil_append] at he
          obtain ⟨rfl, rfl⟩ := ih3 (by simp at hn; omega) h h' he
          exact ⟨rfl, rfl⟩
        | _ => simp [Json.kind] at hk
    refine ⟨P1, ?_, ?_⟩
    · intro t t' r r' l l' hn h h' he
      cases h with
      | one ha h hb =>
        cases h' with
        | one ha' h' hb' =>
          simp only [List.append_assoc] at he
          obtain ⟨rfl, he1⟩ := ws_value_inj ha ha' h h' he
          obtain ⟨rfl, rfl⟩ := P1 (by simp at hn; omega) h h' he1
            (ends_ws hb (ends_cons _ (by decide))) (ends_ws hb' (ends_cons _ (by decide)))
          obtain ⟨rfl, _⟩ := ws_inj hb hb' (by decide) (by decide) (List.append_cancel_left he1)
          exact ⟨rfl, rfl⟩
        | more ha' h' hb' hl' =>
          simp only [List.append_assoc, List.cons_append] at he
          obtain ⟨rfl, he1⟩ := ws_value_inj ha ha' h h' he
          obtain ⟨rfl, rfl⟩ := P1 (by simp at hn; omega) h h' he1
            (ends_ws hb (ends_cons _ (by decide))) (ends_ws hb' (ends_cons _ (by decide)))
          obtain ⟨_, h0, _⟩ := ws_inj hb hb' (by decide) (by decide) (List.append_cancel_left he1)
          exact absurd h0 (by decide)
      | more ha h hb hl =>
        cases h' with
        | one ha' h' hb' =>
          simp only [List.append_assoc, List.cons_append] at he
          obtain ⟨rfl, he1⟩ := ws_value_inj ha ha' h h' he
          obtain ⟨rfl, rfl⟩ := P1 (by simp at hn; omega) h h' he1
            (ends_ws hb (ends_cons _ (by decide))) (ends_ws hb' (ends_cons _ (by decide)))
          obtain ⟨_, h0, _⟩ := ws_inj hb hb' (by decide) (by decide) (List.append_cancel_left he1)
          exact absurd h0 (by decide)
        | more ha' h' hb' hl' =>
          simp only [List.append_assoc, List.cons_append] at he
          obtain ⟨rfl, he1⟩ := ws_value_inj ha ha' h h' he
          obtain ⟨rfl, rfl⟩ := P1 (by simp at hn; omega) h h' he1
            (ends_ws hb (ends_cons _ (by decide))) (ends_ws hb' (ends_cons _ (by decide)))
          obtain ⟨rfl, _, he2⟩ := ws_inj hb hb' (by decide) (by decide) (List.append_cancel_left he1)
          obtain ⟨rfl, rfl⟩ := ih2 (by simp at hn; omega) hl hl' he2
          exact ⟨rfl, rfl⟩
    · intro t t' r r' l l' hn h h' he
      cases h with
      | one ha hk hb hc h hd =>
        cases h' with
        | one ha' hk' hb' hc' h' hd' =>
          simp only [List.append_assoc, List.cons_append] at he
          obtain ⟨rfl, rfl, rfl, he1⟩ := ws_string_inj ha ha' hk hk' he
          obtain ⟨rfl, _, he2⟩ := ws_inj hb hb' (by decide) (by decide) he1
          obtain ⟨rfl, he3⟩ := ws_value_inj hc hc' h h' he2
          obtain ⟨rfl, rfl⟩ := P1 (by simp at hn; omega) h h' he3
            (ends_ws hd (ends_cons _ (by decide))) (ends_ws hd' (ends_cons _ (by decide)))
          obtain ⟨rfl, _⟩ := ws_inj hd hd' (by decide) (by decide) (List.append_cancel_left he3)
          exact ⟨rfl, rfl⟩
        | more ha' hk' hb' hc' h' hd' hl' =>
          simp only [List.append_assoc, List.cons_append] at he
          obtain ⟨rfl, rfl, rfl, he1⟩ := ws_string_inj ha ha' hk hk' he
          obtain ⟨rfl, _, he2⟩ := ws_inj hb hb' (by decide) (by decide) he1
          obtain ⟨rfl, he3⟩ := ws_value_inj hc hc' h h' he2
          obtain ⟨rfl, rfl⟩ := P1 (by simp at hn; omega) h h' he3
            (ends_ws hd (ends_cons _ (by decide))) (ends_ws hd' (ends_cons _ (by decide)))
          obtain ⟨_, h0, _⟩ := ws_inj hd hd' (by decide) (by decide) (List.append_cancel_left he3)
          exact absurd h0 (by decide)
      | more ha hk hb hc h hd hl =>
        cases h' with
        | one ha' hk' hb' hc' h' hd' =>
          simp only [List.append_assoc, List.cons_append] at he
          obtain ⟨rfl, rfl, rfl, he1⟩ := ws_string_inj ha ha' hk hk' he
          obtain ⟨rfl, _, he2⟩ := ws_inj hb hb' (by decide) (by decide) he1
          obtain ⟨rfl, he3⟩ := ws_value_inj hc hc' h h' he2
          obtain ⟨rfl, rfl⟩ := P1 (by simp at hn; omega) h h' he3
            (ends_ws hd (ends_cons _ (by decide))) (ends_ws hd' (ends_cons _ (by decide)))
          obtain ⟨_, h0, _⟩ := ws_inj hd hd' (by decide) (by decide) (List.append_cancel_left he3)
          exact absurd h0 (by decide)
        | more ha' hk' hb' hc' h' hd' hl' =>
          simp only [List.append_assoc, List.cons_append] at he
          obtain ⟨rfl, rfl, rfl, he1⟩ := ws_string_inj ha ha' hk hk' he
          obtain ⟨rfl, _, he2⟩ := ws_inj hb hb' (by decide) (by decide) he1
          obtain ⟨rfl, he3⟩ := ws_value_inj hc hc' h h' he2
          obtain ⟨rfl, rfl⟩ := P1 (by simp at hn; omega) h h' he3
            (ends_ws hd (ends_cons _ (by decide))) (ends_ws hd' (ends_cons _ (by decide)))
          obtain ⟨rfl, _, he4⟩ := ws_inj hd hd' (by decide) (by decide) (List.append_cancel_left he3)
          obtain ⟨rfl, rfl⟩ := ih3 (by simp at hn; omega) hl hl' he4
          exact ⟨rfl, rfl⟩

end Pica
