import Verif.Lemmas.Json
import Verif.Lemmas.XmlText
import Verif.Lemmas.Convert

/-! The text written by `convert --to json`. -/

namespace Pica
open Spec Convert

/-! ## it is read as the values -/

theorem utf8EncodeChar_byte {b : Byte} (hb : b < 0x20) :
    ∃ c : Char, c.toNat = b.toNat ∧ String.utf8EncodeChar c = [b] := by
  have : ∀ n : Fin 32, ∃ c : Char, c.toNat = (UInt8.ofNat n).toNat ∧
      String.utf8EncodeChar c = [UInt8.ofNat n] := by
    intro n
    refine ⟨Char.ofNat n, ?_⟩
    revert n
    decide +kernel
  have h := this ⟨b.toNat, by simpa [UInt8.lt_iff_toNat_lt] using hb⟩
  simpa using h

theorem hexByte_digits {b : Byte} (hb : b < 0x20) : ∃ x y i j, hexByte b = [x, y] ∧ HexDigit x i ∧ HexDigit y j ∧
    16 * i + j = b.toNat := by
  have : ∀ n : Fin 32, ∃ x y i j, hexByte (UInt8.ofNat n) = [x, y] ∧ HexDigit x i ∧ HexDigit y j ∧
      16 * i + j = n := by
    intro n
    have hd : ∀ m : Fin 16, HexDigit (if UInt8.ofNat m < 10 then 0x30 + UInt8.ofNat m else 0x57 + UInt8.ofNat m) m := by
      simp only [HexDigit]
      decide +kernel
    refine ⟨_, _, n / 16, n % 16, rfl, ?_, ?_, by omega⟩
    · have := hd ⟨n / 16, by omega⟩
      revert this
      simp only
      have e : UInt8.ofNat (n / 16) = UInt8.ofNat n / 16 := by revert n; decide +kernel
      rw [e]; exact id
    · have := hd ⟨n % 16, by omega⟩
      revert this
      simp only
      have e : UInt8.ofNat (n % 16) = UInt8.ofNat n % 16 := by revert n; decide +kernel
      rw [e]; exact id
  have h := this ⟨b.toNat, by simpa [UInt8.lt_iff_toNat_lt] using hb⟩
  simpa using h

/-- an escaped byte stands for the byte -/
theorem jsonEscape_chars (b : Byte) {t v : Bytes} (h : JsonChars t v) : JsonChars (jsonEscape b ++ t) (b :: v) := by
  unfold jsonEscape
  split
  · rename_i hb; rw [beq_iff_eq] at hb; subst hb; exact .short (by decide) h
  split
  · rename_i hb; rw [beq_iff_eq] at hb; subst hb; exact .short (by decide) h
  split
  · rename_i hb; rw [beq_iff_eq] at hb; subst hb; exact .short (by decide) h
  split
  · rename_i hb; rw [beq_iff_eq] at hb; subst hb; exact .short (by decide) h
  split
  · rename_i hb; rw [beq_iff_eq] at hb; subst hb; exact .short (by decide) h
  split
  · rename_i hb; rw [beq_iff_eq] at hb; subst hb; exact .short (by decide) h
  split
  · rename_i hb; rw [beq_iff_eq] at hb; subst hb; exact .short (by decide) h
  split
  · rename_i hb
    obtain ⟨c, hc, he⟩ := utf8EncodeChar_byte hb
    obtain ⟨x, y, i, j, hx, hi, hj, hn⟩ := hexByte_digits hb
    have h0 : HexDigit 0x30 0 := .inl (by decide)
    have hu : HexUnit [0x30, 0x30, x, y] c.toNat := by
      have := HexUnit.mk h0 h0 hi hj
      rw [hc, ← hn]
      rw [Nat.mul_comm 16 i]
      simpa using this
    have := JsonChars.unit hu h
    rw [he] at this
    rw [hx]
    exact this
  · rename_i h1 h2 _ _ _ _ _ h3
    refine .plain ?_ (by simpa using h1) (by simpa using h2) h
    simpa [UInt8.lt_iff_toNat_lt, UInt8.le_iff_toNat_le] using h3

theorem jsonString_string (v : Bytes) : JsonString (jsonString v) v := by
  have : JsonChars (v.flatMap jsonEscape) v := by
    induction v with
    | nil => exact .nil
    | cons b v ih => exact jsonEscape_chars b ih
  exact .mk this

theorem jsonWs_nil : JsonWs [] := fun c hc => absurd hc List.not_mem_nil

theorem jsonArray_items {ts : List Bytes} {vs : List Json} (h : All2 JsonValue ts vs) (hne : ts ≠ []) :
    JsonItems (ts.intersperse [0x2C]).flatten vs := by
  induction h with
  | nil => exact absurd rfl hne
  | @cons t v ts vs h hl ih =>
    cases hl with
    | nil =>
      have := JsonItems.one jsonWs_nil h jsonWs_nil
      simpa using this
    | cons h' hl' =>
      have := JsonItems.more jsonWs_nil h jsonWs_nil (ih (by simp))
      simpa using this

theorem jsonArray_value {ts : List Bytes} {vs : List Json} (h : All2 JsonValue ts vs) :
    JsonValue (jsonArray ts) (.arr vs) := by
  cases h with
  | nil => exact .noItems jsonWs_nil
  | cons h hl => exact .arr (jsonArray_items (.cons h hl) (by simp))

theorem All2.map_map {α β γ : Type} {R : β → γ → Prop} {f : α → β} {g : α → γ} {l : List α}
    (h : ∀ x ∈ l, R (f x) (g x)) : All2 R (l.map f) (l.map g) := by
  induction l with
  | nil => exact .nil
  | cons x l ih => exact .cons (h x List.mem_cons_self) (ih fun y hy => h y (List.mem_cons_of_mem _ hy))

theorem All2.append {α β : Type} {R : α → β → Prop} {l m : List α} {l' m' : List β} (h : All2 R l l')
    (h' : All2 R m m') : All2 R (l ++ m) (l' ++ m') := by
  induction h with
  | nil => exact h'
  | cons h _ ih => exact .cons h ih

/-- the field as it is shown: values are decoded -/
def shownField (lossy : Bytes → Bytes) (f : Field) : Field :=
  ⟨f.tag, f.occ, f.subfields.map (fun s => ⟨s.code, lossy s.value⟩)⟩

theorem jsonField_value (lossy : Bytes → Bytes) (f : Field) :
    JsonValue (jsonField lossy f) (picaJsonField (shownField lossy f)) := by
  refine jsonArray_value (.cons (.str (jsonString_string _)) (.cons ?_ ?_))
  · simp only [shownField]
    cases f.occ with
    | none => exact .null
    | some o => exact .str (jsonString_string _)
  · simp only [shownField]
    induction f.subfields with
    | nil => exact .nil
    | cons s ss ih =>
      exact .cons (.str (jsonString_string _)) (.cons (.str (jsonString_string _)) ih)

theorem jsonRecord_value (lossy : Bytes → Bytes) (r : Record) :
    JsonValue (jsonRecord lossy r) (.arr (r.map (fun f => picaJsonField (shownField lossy f)))) :=
  jsonArray_value (All2.map_map fun f _ => jsonField_value lossy f)

theorem jsonRecords_value (lossy : Bytes → Bytes) (rs : List Record) :
    JsonValue (jsonArray (rs.map (jsonRecord lossy))) (picaJson (rs.map (fun r => r.map (shownField lossy)))) := by
  have := jsonArray_value (All2.map_map (l := rs) fun r _ => jsonRecord_value lossy r)
  simpa [picaJson, Function.comp_def] using this

/-! ## it is UTF-8 -/

theorem utf8_flatMap {esc : Byte → Bytes} (ha : ∀ b, b < 0x80 → ∀ x ∈ esc b, x < 0x80)
    (hs : ∀ b, 0x80 ≤ b → esc b = [b]) {v : Bytes} (h : utf8Valid v = true) :
    utf8Valid (v.flatMap esc) = true := by
  obtain ⟨cs, rfl⟩ := isUtf8_of_valid v h
  clear h
  induction cs with
  | nil => rfl
  | cons c cs ih =>
    rw [List.flatMap_cons, List.flatMap_append, utf8Valid_append]
    · exact ih
    · rcases encodeChar_ascii c with ⟨b, hb, hlt⟩ | hb
      · rw [hb, List.flatMap_singleton]
        exact utf8Valid_ascii (ha b hlt)
      · have : ∀ l : Bytes, (∀ x ∈ l, 0x80 ≤ x) → l.flatMap esc = l := by
          intro l
          induction l with
          | nil => intro _; rfl
          | cons x l ih =>
            intro h
            rw [List.flatMap_cons, hs x (h x List.mem_cons_self),
              ih (fun y hy => h y (List.mem_cons_of_mem _ hy))]
            rfl
        rw [this _ hb]
        have := utf8Valid_encodeChar c []
        simpa [utf8Valid] using this

theorem jsonEscape_ascii : ∀ b : Byte, b < 0x80 → ∀ x ∈ jsonEscape b, x < 0x80 := by
  have : ∀ n : Fin 128, ∀ x ∈ jsonEscape (UInt8.ofNat n), x < 0x80 := by decide +kernel
  intro b hb
  have h := this ⟨b.toNat, by simpa [UInt8.lt_iff_toNat_lt] using hb⟩
  simpa using h

theorem jsonEscape_high (b : Byte) (hb : 0x80 ≤ b) : jsonEscape b = [b] := by
  have hn : ∀ c : Byte, c < 0x80 → b ≠ c := fun c hc he => by
    subst he
    rw [UInt8.lt_iff_toNat_lt] at hc
    rw [UInt8.le_iff_toNat_le] at hb
    omega
  have hl : ¬ b < 0x20 := by
    rw [UInt8.lt_iff_toNat_lt]
    rw [UInt8.le_iff_toNat_le] at hb
    simp only [UInt8.reduceToNat] at hb ⊢
    omega
  simp only [jsonEscape, beq_iff_eq, hn 0x22 (by decide), hn 0x5C (by decide), hn 0x08 (by decide),
    hn 0x09 (by decide), hn 0x0A (by decide), hn 0x0C (by decide), hn 0x0D (by decide), hl, if_false]

theorem jsonString_utf8 {v : Bytes} (h : utf8Valid v = true) : utf8Valid (jsonString v) = true := by
  have := utf8_flatMap jsonEscape_ascii jsonEscape_high h
  unfold jsonString
  rw [List.append_assoc, utf8Valid_append (by decide), utf8Valid_append this]
  decide

theorem jsonArray_utf8 {ts : List Bytes} (h : ∀ t ∈ ts, utf8Valid t = true) : utf8Valid (jsonArray ts) = true := by
  have : utf8Valid (ts.intersperse [0x2C]).flatten = true := by
    induction ts with
    | nil => rfl
    | cons t ts ih =>
      cases ts with
      | nil => simpa using h
      | cons s ss =>
        have ih := ih (fun x hx => h x (List.mem_cons_of_mem _ hx))
        simp only [List.intersperse, List.flatten_cons] at ih ⊢
        rw [utf8Valid_append (h t List.mem_cons_self), utf8Valid_append (by decide)]
        exact ih
  unfold jsonArray
  rw [List.append_assoc, utf8Valid_append (by decide), utf8Valid_append this]
  decide

theorem jsonField_utf8 {lossy : Bytes → Bytes} (hl : ∀ v, utf8Valid (lossy v) = true) {f : Field} (hf : IsField f) :
    utf8Valid (jsonField lossy f) = true := by
  obtain ⟨ht, ho, hs⟩ := hf
  refine jsonArray_utf8 fun t h => ?_
  simp only [List.mem_append, List.mem_cons, List.not_mem_nil, or_false, List.mem_flatMap] at h
  rcases h with (rfl | rfl) | ⟨s, hm, rfl | rfl⟩
  · exact jsonString_utf8 (utf8Valid_ascii (isTag_ascii ht))
  · cases hocc : f.occ with
    | none => exact (by decide +kernel : utf8Valid (bs "null") = true)
    | some o =>
      refine jsonString_utf8 (utf8Valid_ascii ?_)
      have := isOcc_ascii ho
      rw [hocc] at this
      simpa [writeOcc] using this
  · exact jsonString_utf8 (utf8Valid_ascii fun x hx => by
      rw [List.mem_singleton] at hx; subst hx; exact isCode_ascii (hs s hm).1)
  · exact jsonString_utf8 (hl _)

theorem jsonRecord_utf8 {lossy : Bytes → Bytes} (hl : ∀ v, utf8Valid (lossy v) = true) {r : Record}
    (hr : IsRecord r) : utf8Valid (jsonRecord lossy r) = true :=
  jsonArray_utf8 fun t ht => by
    obtain ⟨f, hf, rfl⟩ := List.mem_map.1 ht
    exact jsonField_utf8 hl (hr f hf)

end Pica
