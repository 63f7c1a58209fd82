import Verif.Lemmas.Record
import Verif.Model.Utf8
import Verif.Spec.Utf8

/-! `utf8Valid` is UTF-8 validity; ASCII separators cut valid strings. -/

namespace Pica
open Spec

theorem isCont_iff {b : Byte} : isCont b = true ↔ 128 ≤ b.toNat ∧ b.toNat ≤ 191 := by
  simp only [isCont, Bool.and_eq_true, decide_eq_true_eq, UInt8.le_iff_toNat_le]
  rfl

theorem second3_iff {b0 b1 : Byte} : second3 b0 b1 = true ↔
    128 ≤ b1.toNat ∧ b1.toNat ≤ 191 ∧ (b0.toNat = 224 → 160 ≤ b1.toNat) ∧
      (b0.toNat = 237 → b1.toNat ≤ 159) := by
  unfold second3
  have h1 : b0 = 0xE0 ↔ b0.toNat = 224 := by rw [← UInt8.toNat_inj]; rfl
  have h2 : b0 = 0xED ↔ b0.toNat = 237 := by rw [← UInt8.toNat_inj]; rfl
  simp only [beq_iff_eq, h1, h2]
  split
  · simp only [Bool.and_eq_true, decide_eq_true_eq, UInt8.le_iff_toNat_le]
    simp; omega
  · split
    · simp only [Bool.and_eq_true, decide_eq_true_eq, UInt8.le_iff_toNat_le]
      simp; omega
    · rw [isCont_iff]; omega

theorem second4_iff {b0 b1 : Byte} : second4 b0 b1 = true ↔
    128 ≤ b1.toNat ∧ b1.toNat ≤ 191 ∧ (b0.toNat = 240 → 144 ≤ b1.toNat) ∧
      (b0.toNat = 244 → b1.toNat ≤ 143) := by
  unfold second4
  have h1 : b0 = 0xF0 ↔ b0.toNat = 240 := by rw [← UInt8.toNat_inj]; rfl
  have h2 : b0 = 0xF4 ↔ b0.toNat = 244 := by rw [← UInt8.toNat_inj]; rfl
  simp only [beq_iff_eq, h1, h2]
  split
  · simp only [Bool.and_eq_true, decide_eq_true_eq, UInt8.le_iff_toNat_le]
    simp; omega
  · split
    · simp only [Bool.and_eq_true, decide_eq_true_eq, UInt8.le_iff_toNat_le]
      simp; omega
    · rw [isCont_iff]; omega

theorem ofNat_toNat {n : Nat} (h : n < 256) : (UInt8.ofNat n).toNat = n :=
  UInt8.toNat_ofNat_of_lt' h

theorem lt80_iff {b : Byte} : b < 0x80 ↔ b.toNat < 128 := by
  rw [UInt8.lt_iff_toNat_lt]; rfl

theorem range2_iff {b : Byte} : (decide (0xC2 ≤ b) && decide (b ≤ 0xDF)) = true ↔
    194 ≤ b.toNat ∧ b.toNat ≤ 223 := by
  simp only [Bool.and_eq_true, decide_eq_true_eq, UInt8.le_iff_toNat_le]; rfl

theorem range3_iff {b : Byte} : (decide (0xE0 ≤ b) && decide (b ≤ 0xEF)) = true ↔
    224 ≤ b.toNat ∧ b.toNat ≤ 239 := by
  simp only [Bool.and_eq_true, decide_eq_true_eq, UInt8.le_iff_toNat_le]; rfl

theorem range4_iff {b : Byte} : (decide (0xF0 ≤ b) && decide (b ≤ 0xF4)) = true ↔
    240 ≤ b.toNat ∧ b.toNat ≤ 244 := by
  simp only [Bool.and_eq_true, decide_eq_true_eq, UInt8.le_iff_toNat_le]; rfl

theorem utf8Valid_cons_ascii {x : Byte} (h : x < 0x80) (b : Bytes) :
    utf8Valid (x :: b) = utf8Valid b := by
  rw [utf8Valid.eq_def]; simp only [if_pos h]

theorem utf8Valid_cons_bad {b0 : Byte} (h1 : ¬ b0 < 0x80)
    (h2 : ¬ (decide (0xC2 ≤ b0) && decide (b0 ≤ 0xDF)) = true)
    (h3 : ¬ (decide (0xE0 ≤ b0) && decide (b0 ≤ 0xEF)) = true)
    (h4 : ¬ (decide (0xF0 ≤ b0) && decide (b0 ≤ 0xF4)) = true) (b : Bytes) :
    utf8Valid (b0 :: b) = false := by
  rw [utf8Valid.eq_def]; simp only [if_neg h1, if_neg h2, if_neg h3, if_neg h4]

theorem utf8Valid_encodeChar (c : Char) (r : Bytes) :
    utf8Valid (String.utf8EncodeChar c ++ r) = utf8Valid r := by
  have hv := c.valid
  have hv' : c.val.toNat < 0xD800 ∨ (0xDFFF < c.val.toNat ∧ c.val.toNat < 0x110000) := hv
  unfold String.utf8EncodeChar
  generalize c.val.toNat = v at hv'
  simp only
  split
  · simp only [List.cons_append, List.nil_append]
    have h0 : (UInt8.ofNat v).toNat = v := ofNat_toNat (by omega)
    rw [utf8Valid_cons_ascii (by rw [lt80_iff, h0]; omega)]
  · split
    · simp only [List.cons_append, List.nil_append]
      have h0 : (UInt8.ofNat (v / 64 % 32 + 192)).toNat = v / 64 % 32 + 192 := ofNat_toNat (by omega)
      have h1 : (UInt8.ofNat (v % 64 + 128)).toNat = v % 64 + 128 := ofNat_toNat (by omega)
      rw [utf8Valid, if_neg (by rw [lt80_iff, h0]; omega), if_pos (by rw [range2_iff, h0]; omega)]
      have : isCont (UInt8.ofNat (v % 64 + 128)) = true := by rw [isCont_iff, h1]; omega
      simp only [this, Bool.true_and]
    · split
      · simp only [List.cons_append, List.nil_append]
        have h0 : (UInt8.ofNat (v / 4096 % 16 + 224)).toNat = v / 4096 % 16 + 224 := ofNat_toNat (by omega)
        have h1 : (UInt8.ofNat (v / 64 % 64 + 128)).toNat = v / 64 % 64 + 128 := ofNat_toNat (by omega)
        have h2 : (UInt8.ofNat (v % 64 + 128)).toNat = v % 64 + 128 := ofNat_toNat (by omega)
        rw [utf8Valid, if_neg (by rw [lt80_iff, h0]; omega), if_neg (by rw [range2_iff, h0]; omega),
          if_pos (by rw [range3_iff, h0]; omega)]
        have a : second3 (UInt8.ofNat (v / 4096 % 16 + 224)) (UInt8.ofNat (v / 64 % 64 + 128)) = true := by
          rw [second3_iff, h0, h1]; omega
        have b : isCont (UInt8.ofNat (v % 64 + 128)) = true := by rw [isCont_iff, h2]; omega
        simp only [a, b, Bool.true_and]
      · simp only [List.cons_append, List.nil_append]
        have h0 : (UInt8.ofNat (v / 262144 % 8 + 240)).toNat = v / 262144 % 8 + 240 := ofNat_toNat (by omega)
        have h1 : (UInt8.ofNat (v / 4096 % 64 + 128)).toNat = v / 4096 % 64 + 128 := ofNat_toNat (by omega)
        have h2 : (UInt8.ofNat (v / 64 % 64 + 128)).toNat = v / 64 % 64 + 128 := ofNat_toNat (by omega)
        have h3 : (UInt8.ofNat (v % 64 + 128)).toNat = v % 64 + 128 := ofNat_toNat (by omega)
        rw [utf8Valid, if_neg (by rw [lt80_iff, h0]; omega), if_neg (by rw [range2_iff, h0]; omega),
          if_neg (by rw [range3_iff, h0]; omega), if_pos (by rw [range4_iff, h0]; omega)]
        have a : second4 (UInt8.ofNat (v / 262144 % 8 + 240)) (UInt8.ofNat (v / 4096 % 64 + 128)) = true := by
          rw [second4_iff, h0, h1]; omega
        have b : isCont (UInt8.ofNat (v / 64 % 64 + 128)) = true := by rw [isCont_iff, h2]; omega
        have c : isCont (UInt8.ofNat (v % 64 + 128)) = true := by rw [isCont_iff, h3]; omega
        simp only [a, b, c, Bool.true_and]

/-- the character with a given scalar value -/
theorem exists_char {v : Nat} (h : v < 0xD800 ∨ (0xDFFF < v ∧ v < 0x110000)) :
    ∃ c : Char, c.val.toNat = v :=
  ⟨Char.ofNatAux v h, by
    show (UInt32.ofNatLT v _).toNat = v
    exact UInt32.toNat_ofNatLT ..⟩

theorem byte_eq_ofNat {b : Byte} {n : Nat} (h : b.toNat = n) : b = UInt8.ofNat n := by
  subst h; simp

theorem isUtf8_cons {c : Char} {r : Bytes} (h : IsUtf8 r) : IsUtf8 (String.utf8EncodeChar c ++ r) := by
  obtain ⟨cs, rfl⟩ := h
  exact ⟨c :: cs, by simp⟩

/-- reading one character off a valid byte string -/
theorem isUtf8_of_valid (b : Bytes) (h : utf8Valid b = true) : IsUtf8 b := by
  fun_induction utf8Valid b with
  | case1 => exact ⟨[], rfl⟩
  | case2 b0 r hlt ih =>
    rw [lt80_iff] at hlt
    obtain ⟨c, hc⟩ := exists_char (v := b0.toNat) (by omega)
    have := isUtf8_cons (c := c) (ih h)
    simp only [String.utf8EncodeChar, hc] at this
    rw [if_pos (by omega)] at this
    simpa using this
  | case3 b0 hlt hr b1 r ih =>
    rw [lt80_iff] at hlt
    rw [range2_iff] at hr
    rw [Bool.and_eq_true, isCont_iff] at h
    obtain ⟨c, hc⟩ := exists_char (v := (b0.toNat - 192) * 64 + (b1.toNat - 128)) (by omega)
    have := isUtf8_cons (c := c) (ih h.2)
    simp only [String.utf8EncodeChar, hc] at this
    rw [if_neg (by omega), if_pos (by omega)] at this
    rw [← byte_eq_ofNat (b := b0) (by omega), ← byte_eq_ofNat (b := b1) (by omega)] at this
    simpa using this
  | case4 => simp at h
  | case5 b0 hlt h2 hr b1 b2 r ih =>
    rw [lt80_iff] at hlt
    rw [range3_iff] at hr
    rw [Bool.and_eq_true, Bool.and_eq_true, isCont_iff, second3_iff] at h
    obtain ⟨c, hc⟩ := exists_char (v := (b0.toNat - 224) * 4096 + (b1.toNat - 128) * 64 + (b2.toNat - 128))
      (by omega)
    have := isUtf8_cons (c := c) (ih h.2)
    simp only [String.utf8EncodeChar, hc] at this
    rw [if_neg (by omega), if_neg (by omega), if_pos (by omega)] at this
    rw [← byte_eq_ofNat (b := b0) (by omega), ← byte_eq_ofNat (b := b1) (by omega),
      ← byte_eq_ofNat (b := b2) (by omega)] at this
    simpa using this
  | case6 => simp at h
  | case7 b0 hlt h2 h3 hr b1 b2 b3 r ih =>
    rw [lt80_iff] at hlt
    rw [range4_iff] at hr
    rw [Bool.and_eq_true, Bool.and_eq_true, Bool.and_eq_true, isCont_iff, isCont_iff, second4_iff] at h
    obtain ⟨c, hc⟩ := exists_char
      (v := (b0.toNat - 240) * 262144 + (b1.toNat - 128) * 4096 + (b2.toNat - 128) * 64 + (b3.toNat - 128))
      (by omega)
    have := isUtf8_cons (c := c) (ih h.2)
    simp only [String.utf8EncodeChar, hc] at this
    rw [if_neg (by omega), if_neg (by omega), if_neg (by omega)] at this
    rw [← byte_eq_ofNat (b := b0) (by omega), ← byte_eq_ofNat (b := b1) (by omega),
      ← byte_eq_ofNat (b := b2) (by omega), ← byte_eq_ofNat (b := b3) (by omega)] at this
    simpa using this
  | case8 => simp at h
  | case9 => simp at h

theorem utf8Valid_iff (b : Bytes) : utf8Valid b = true ↔ IsUtf8 b := by
  constructor
  · exact isUtf8_of_valid b
  · rintro ⟨cs, rfl⟩
    induction cs with
    | nil => rfl
    | cons c cs ih => rw [List.flatMap_cons, utf8Valid_encodeChar]; exact ih

/-- validity is additive when the first part is valid -/
theorem utf8Valid_append {a b : Bytes} (h : utf8Valid a = true) :
    utf8Valid (a ++ b) = utf8Valid b := by
  obtain ⟨cs, rfl⟩ := isUtf8_of_valid a h
  clear h
  induction cs with
  | nil => rfl
  | cons c cs ih => rw [List.flatMap_cons, List.append_assoc, utf8Valid_encodeChar]; exact ih

theorem ascii_not_cont {x : Byte} (h : x < 0x80) : isCont x = false := by
  rw [lt80_iff] at h
  cases hx : isCont x with
  | false => rfl
  | true => rw [isCont_iff] at hx; omega

theorem ascii_not_second3 {b0 x : Byte} (h : x < 0x80) : second3 b0 x = false := by
  rw [lt80_iff] at h
  cases hx : second3 b0 x with
  | false => rfl
  | true => rw [second3_iff] at hx; omega

theorem ascii_not_second4 {b0 x : Byte} (h : x < 0x80) : second4 b0 x = false := by
  rw [lt80_iff] at h
  cases hx : second4 b0 x with
  | false => rfl
  | true => rw [second4_iff] at hx; omega

/-- an ASCII byte cuts a string into independent parts -/
theorem utf8Valid_cut (a b : Bytes) {x : Byte} (hx : x < 0x80) :
    utf8Valid (a ++ x :: b) = (utf8Valid a && utf8Valid b) := by
  have hc := ascii_not_cont hx
  fun_induction utf8Valid a with
  | case1 => simp [utf8Valid_cons_ascii hx]
  | case2 b0 r hlt ih => rw [List.cons_append, utf8Valid_cons_ascii hlt]; exact ih
  | case3 b0 hlt hr b1 r ih =>
    simp only [List.cons_append]; rw [utf8Valid, if_neg hlt, if_pos hr]
    simp only [ih, Bool.and_assoc]
  | case4 b0 r hlt hr hn =>
    cases r with
    | nil => simp only [List.cons_append, List.nil_append]; rw [utf8Valid, if_neg hlt, if_pos hr]; simp [hc]
    | cons b1 r => exact absurd rfl (hn b1 r)
  | case5 b0 hlt h2 hr b1 b2 r ih =>
    simp only [List.cons_append]; rw [utf8Valid, if_neg hlt, if_neg h2, if_pos hr]
    simp only [ih, Bool.and_assoc]
  | case6 b0 r hlt h2 hr hn =>
    cases r with
    | nil =>
      simp only [List.cons_append, List.nil_append]; rw [utf8Valid, if_neg hlt, if_neg h2, if_pos hr]
      cases b <;> simp [ascii_not_second3 hx]
    | cons b1 r =>
      cases r with
      | nil =>
        simp only [List.cons_append, List.nil_append]; rw [utf8Valid, if_neg hlt, if_neg h2, if_pos hr]
        simp [hc]
      | cons b2 r => exact absurd rfl (hn b1 b2 r)
  | case7 b0 hlt h2 h3 hr b1 b2 b3 r ih =>
    simp only [List.cons_append]; rw [utf8Valid, if_neg hlt, if_neg h2, if_neg h3, if_pos hr]
    simp only [ih, Bool.and_assoc]
  | case8 b0 r hlt h2 h3 hr hn =>
    cases r with
    | nil =>
      simp only [List.cons_append, List.nil_append]
      rw [utf8Valid.eq_def]; simp only [if_neg hlt, if_neg h2, if_neg h3, if_pos hr]
      have := ascii_not_second4 (b0 := b0) hx
      split
      · rename_i heq; simp at heq; rw [← heq.1, this]; simp
      · simp
    | cons b1 r =>
      cases r with
      | nil =>
        simp only [List.cons_append, List.nil_append]
        rw [utf8Valid.eq_def]; simp only [if_neg hlt, if_neg h2, if_neg h3, if_pos hr]
        split
        · rename_i heq; simp at heq; rw [← heq.2.1, hc]; simp
        · simp
      | cons b2 r =>
        cases r with
        | nil =>
          simp only [List.cons_append, List.nil_append]
          rw [utf8Valid, if_neg hlt, if_neg h2, if_neg h3, if_pos hr]
          simp [hc]
        | cons b3 r => exact absurd rfl (hn b1 b2 b3 r)
  | case9 b0 r hlt h2 h3 h4 =>
    rw [List.cons_append, utf8Valid_cons_bad hlt h2 h3 h4]; simp

theorem utf8Valid_ascii {a : Bytes} (h : ∀ x ∈ a, x < 0x80) : utf8Valid a = true := by
  induction a with
  | nil => rfl
  | cons x xs ih => rw [utf8Valid_cons_ascii (h x (by simp))]; exact ih fun y hy => h y (by simp [hy])

theorem Subfield.validate_eq (s : Subfield) : s.validate = utf8Valid s.value := by
  unfold Subfield.validate
  split
  · rename_i h
    rw [utf8Valid_ascii]
    simpa using h
  · rfl

theorem isCode_ascii {c : Byte} (h : IsCode c) : c < 0x80 := by
  rw [lt80_iff]
  unfold IsCode at h
  simp only [UInt8.le_iff_toNat_le] at h
  have : ∀ n : Nat, n < 256 → True := fun _ _ => trivial
  simp at h
  omega

theorem isDigit_ascii {c : Byte} (h : (0x30 : Byte) ≤ c ∧ c ≤ 0x39) : c < 0x80 := by
  rw [lt80_iff]
  simp only [UInt8.le_iff_toNat_le] at h
  simp at h
  omega

theorem isTag_ascii {t : Bytes} (h : IsTag t) : ∀ x ∈ t, x < 0x80 := by
  obtain ⟨a, b, c, d, rfl, ha, hb, hc, hd⟩ := h
  intro x hx
  simp at hx
  rcases hx with rfl | rfl | rfl | rfl
  · rcases ha with rfl | rfl | rfl <;> decide
  · exact isDigit_ascii hb
  · exact isDigit_ascii hc
  · rcases hd with hd | rfl
    · exact isCode_ascii (.inr (.inl hd))
    · decide

theorem isOcc_ascii {o : Option Bytes} (h : ∀ o', o = some o' → IsOcc o') :
    ∀ x ∈ writeOcc o, x < 0x80 := by
  cases o with
  | none => simp [writeOcc]
  | some o =>
    intro x hx
    simp [writeOcc] at hx
    rcases hx with rfl | hx
    · decide
    · exact isDigit_ascii ((h o rfl).2 x hx)

theorem utf8Valid_subfields (ss : List Subfield) (h : ∀ s ∈ ss, IsSubfield s) (b : Bytes)
    {x : Byte} (hx : x < 0x80) :
    utf8Valid (ss.flatMap Subfield.write ++ x :: b) = (ss.all Subfield.validate && utf8Valid b) := by
  induction ss with
  | nil => simp [utf8Valid_cons_ascii hx]
  | cons s ss ih =>
    have hs := h s (by simp)
    have hih := ih (fun s' h' => h s' (by simp [h']))
    rw [List.flatMap_cons, List.append_assoc, Subfield.write, List.append_assoc]
    simp only [List.cons_append, List.nil_append]
    rw [utf8Valid_cons_ascii (by decide), utf8Valid_cons_ascii (isCode_ascii hs.1)]
    rw [List.all_cons, Subfield.validate_eq, Bool.and_assoc, ← hih]
    cases ss with
    | nil =>
      simp only [List.flatMap_nil, List.nil_append]
      rw [utf8Valid_cut _ _ hx]
      simp [utf8Valid_cons_ascii hx]
    | cons s' ss =>
      rw [List.flatMap_cons, Subfield.write, List.append_assoc]
      simp only [List.cons_append, List.nil_append]
      rw [utf8Valid_cut s.value _ (x := US) (by decide)]
      rw [utf8Valid_cons_ascii (x := US) (by decide)]

theorem utf8Valid_field {f : Field} (h : IsField f) (b : Bytes) :
    utf8Valid (f.write ++ b) = (f.validate && utf8Valid b) := by
  obtain ⟨ht, ho, hs⟩ := h
  unfold Field.write
  simp only [List.append_assoc]
  rw [utf8Valid_append (utf8Valid_ascii (isTag_ascii ht)),
    utf8Valid_append (utf8Valid_ascii (isOcc_ascii ho))]
  simp only [List.cons_append, List.nil_append]
  rw [utf8Valid_cons_ascii (by decide)]
  rw [utf8Valid_subfields _ hs _ (by decide)]
  rfl

theorem utf8Valid_record {r : Record} (h : IsRecord r) (b : Bytes) :
    utf8Valid (r.flatMap Field.write ++ b) = (r.validate && utf8Valid b) := by
  induction r with
  | nil => simp [Record.validate]
  | cons f r ih =>
    rw [List.flatMap_cons, List.append_assoc, utf8Valid_field (h f (by simp)),
      ih (fun g hg => h g (by simp [hg]))]
    simp [Record.validate, Bool.and_assoc]

end Pica
