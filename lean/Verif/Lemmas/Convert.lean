import Verif.Model.Convert
import Verif.Lemmas.Record
import Verif.Spec.Grammar

/-! Self-delimiting texts, and the texts written by the converters. -/

namespace Pica
open Spec Convert

/-- `SelfDelim P F f`: from `f a` followed by a text in `F`, `a` can be read off -/
def SelfDelim {α : Type} (P : α → Prop) (F : Bytes → Prop) (f : α → Bytes) : Prop :=
  ∀ a a' r r', P a → P a' → F r → F r' → f a ++ r = f a' ++ r' → a = a' ∧ r = r'

theorem flatMap_selfDelim {α : Type} {P : α → Prop} {F : Bytes → Prop} {f : α → Bytes} {S : Byte → Prop}
    (hsd : SelfDelim P F f) (hS : ∀ a, P a → ∃ h t, f a = h :: t ∧ S h)
    (hF : ∀ a r, P a → F (f a ++ r)) :
    SelfDelim (fun l : List α => ∀ a ∈ l, P a) (fun r => F r ∧ ∀ h t, r = h :: t → ¬ S h)
      (fun l => l.flatMap f) := by
  intro l
  induction l with
  | nil =>
    intro l' r r' _ hl' hr _ h
    cases l' with
    | nil => exact ⟨rfl, h⟩
    | cons a l' =>
      obtain ⟨x, t, hx, hs⟩ := hS a (hl' a (by simp))
      simp only [List.flatMap_nil, List.nil_append, List.flatMap_cons, hx, List.cons_append] at h
      exact absurd hs (hr.2 _ _ h)
  | cons a l ih =>
    intro l' r r' hl hl' hr hr' h
    cases l' with
    | nil =>
      obtain ⟨x, t, hx, hs⟩ := hS a (hl a (by simp))
      simp only [List.flatMap_nil, List.nil_append, List.flatMap_cons, hx, List.cons_append] at h
      exact absurd hs (hr'.2 _ _ h.symm)
    | cons b l' =>
      simp only [List.flatMap_cons, List.append_assoc] at h
      have hfol : ∀ (m : List α) (r : Bytes), (∀ a ∈ m, P a) → F r → F (m.flatMap f ++ r) := by
        intro m r hm hr
        cases m with
        | nil => simpa using hr
        | cons c m => rw [List.flatMap_cons, List.append_assoc]; exact hF c _ (hm c (by simp))
      obtain ⟨h1, h2⟩ := hsd a b _ _ (hl a (by simp)) (hl' b (by simp))
        (hfol l r (fun a ha => hl a (by simp [ha])) hr.1) (hfol l' r' (fun a ha => hl' a (by simp [ha])) hr'.1) h
      obtain ⟨h3, h4⟩ := ih l' r r' (fun a ha => hl a (by simp [ha])) (fun a ha => hl' a (by simp [ha])) hr hr' h2
      exact ⟨by rw [h1, h3], h4⟩

theorem append_cons_inj {a a' r r' : Bytes} {t : Byte} (h : t ∉ a) (h' : t ∉ a')
    (he : a ++ t :: r = a' ++ t :: r') : a = a' ∧ r = r' := by
  induction a generalizing a' with
  | nil =>
    cases a' with
    | nil => simp at he; exact ⟨rfl, he⟩
    | cons x a' =>
      simp only [List.nil_append, List.cons_append, List.cons.injEq] at he
      exact absurd (by rw [← he.1]; simp) h'
  | cons x a ih =>
    cases a' with
    | nil =>
      simp only [List.nil_append, List.cons_append, List.cons.injEq] at he
      exact absurd (by rw [he.1]; simp) h
    | cons y a' =>
      simp only [List.cons_append, List.cons.injEq] at he
      simp only [List.mem_cons, not_or] at h h'
      obtain ⟨h1, h2⟩ := ih h.2 h'.2 he.2
      exact ⟨by rw [he.1, h1], h2⟩

theorem field_write_body (f : Field) : f.write = fieldBody f ++ [RS] := rfl

theorem fieldWrite_selfDelim : SelfDelim IsField (fun _ => True) (fun f => fieldBody f ++ [RS]) := by
  intro f f' r r' hf hf' _ _ h
  have h1 := pField_complete hf r
  dsimp only at h
  rw [field_write_body, h, ← field_write_body, pField_complete hf' r'] at h1
  simp only [Option.some.injEq, Prod.mk.injEq] at h1
  exact ⟨h1.1.symm, h1.2.symm⟩

theorem field_head {f : Field} (h : IsField f) (r : Bytes) :
    ∃ a t, fieldBody f ++ r = a :: t ∧ (a = 0x30 ∨ a = 0x31 ∨ a = 0x32) := by
  obtain ⟨⟨a, b, c, d, e, h1, _⟩, _⟩ := h
  refine ⟨a, [b, c, d] ++ writeOcc f.occ ++ [SP] ++ f.subfields.flatMap Subfield.write ++ r, ?_, h1⟩
  rw [fieldBody, e]
  rfl

/-- no newline in any value -/
def NoNewline (r : Record) : Prop := ∀ f ∈ r, ∀ s ∈ f.subfields, LF ∉ s.value

theorem tag_noLF {t : Bytes} (h : IsTag t) : LF ∉ t := by
  obtain ⟨a, b, c, d, e, h1, h2, h3, h4⟩ := h
  rw [e]
  simp only [List.mem_cons, List.not_mem_nil, or_false, not_or]
  have hn : ∀ x : Byte, 0x30 ≤ x → ¬ LF = x := by rintro x hx rfl; revert hx; decide
  refine ⟨?_, hn b h2.1, hn c h3.1, ?_⟩
  · rcases h1 with rfl | rfl | rfl <;> decide
  · rcases h4 with h4 | rfl
    · rintro rfl; revert h4; decide
    · decide

theorem occ_bytes {o : Option Bytes} (h : ∀ x, o = some x → IsOcc x) : LF ∉ writeOcc o ∧ SP ∉ writeOcc o := by
  cases o with
  | none => simp [writeOcc]
  | some x =>
    have := (h x rfl).2
    simp only [writeOcc, List.mem_cons, not_or]
    refine ⟨⟨by decide, fun hm => ?_⟩, by decide, fun hm => ?_⟩
    · have := (this _ hm).1; revert this; decide
    · have := (this _ hm).1; revert this; decide

theorem code_not {c : Byte} (h : IsCode c) : c ≠ LF ∧ c ≠ 0x24 := by
  constructor
  · rintro rfl
    rcases h with h | h | h <;> (revert h; decide)
  · rintro rfl
    rcases h with h | h | h <;> (revert h; decide)

theorem fieldBody_noLF {f : Field} (h : IsField f) (hn : ∀ s ∈ f.subfields, LF ∉ s.value) :
    LF ∉ fieldBody f := by
  obtain ⟨ht, ho, hs⟩ := h
  rw [fieldBody]
  simp only [List.mem_append, List.mem_singleton, List.mem_flatMap, not_or, not_exists, not_and]
  refine ⟨⟨⟨tag_noLF ht, (occ_bytes ho).1⟩, by decide⟩, fun s hm => ?_⟩
  rw [Subfield.write]
  simp only [List.cons_append, List.nil_append, List.mem_cons, not_or]
  exact ⟨by decide, fun e => (code_not (hs s hm).1).1 e.symm, hn s hm⟩

theorem importField_selfDelim :
    SelfDelim (fun f => IsField f ∧ ∀ s ∈ f.subfields, LF ∉ s.value) (fun _ => True)
      (fun f => [RS] ++ fieldBody f ++ [LF]) := by
  intro f f' r r' hf hf' _ _ h
  simp only [List.cons_append, List.nil_append, List.append_assoc, List.cons.injEq, true_and] at h
  obtain ⟨h1, h2⟩ := append_cons_inj (fieldBody_noLF hf.1 hf.2) (fieldBody_noLF hf'.1 hf'.2) h
  refine ⟨?_, h2⟩
  exact (fieldWrite_selfDelim f f' [] [] hf.1 hf'.1 trivial trivial (by simp [h1])).1

theorem head_inj {t t' : Bytes} {o o' : Option Bytes} {r r' : Bytes} (ht : IsTag t) (ht' : IsTag t')
    (ho : ∀ x, o = some x → IsOcc x) (ho' : ∀ x, o' = some x → IsOcc x)
    (h : t ++ writeOcc o ++ SP :: r = t' ++ writeOcc o' ++ SP :: r') : t = t' ∧ o = o' ∧ r = r' := by
  have hlen : t.length = t'.length := by
    obtain ⟨_, _, _, _, e, _⟩ := ht
    obtain ⟨_, _, _, _, e', _⟩ := ht'
    rw [e, e']; rfl
  rw [List.append_assoc, List.append_assoc] at h
  obtain ⟨h1, h2⟩ := List.append_inj h hlen
  obtain ⟨h3, h4⟩ := append_cons_inj (occ_bytes ho).2 (occ_bytes ho').2 h2
  refine ⟨h1, ?_, h4⟩
  cases o with
  | none => cases o' with
    | none => rfl
    | some y => simp [writeOcc] at h3
  | some x => cases o' with
    | none => simp [writeOcc] at h3
    | some y => simp only [writeOcc, List.cons.injEq, true_and] at h3; rw [h3]

/-! ## plain -/

/-- what may follow a value in plain text -/
def PlainFollow (r : Bytes) : Prop := r = [] ∨ ∃ c t, r = 0x24 :: c :: t ∧ c ≠ 0x24

theorem plainValue_selfDelim : SelfDelim (fun _ => True) PlainFollow plainValue := by
  intro v
  induction v with
  | nil =>
    intro v' r r' _ _ hr _ h
    cases v' with
    | nil => exact ⟨rfl, h⟩
    | cons b v' =>
      exfalso
      simp only [plainValue, List.flatMap_nil, List.nil_append, List.flatMap_cons] at h
      by_cases hb : b = 0x24
      · subst hb
        rcases hr with rfl | ⟨c, t, rfl, hc⟩
        · simp at h
        · simp at h; exact hc h.1
      · have : (b == 0x24) = false := by simpa using hb
        rw [this] at h
        rcases hr with rfl | ⟨c, t, rfl, hc⟩
        · simp at h
        · simp at h; exact hb h.1.symm
  | cons a v ih =>
    intro v' r r' _ _ hr hr' h
    cases v' with
    | nil =>
      exfalso
      simp only [plainValue, List.flatMap_nil, List.nil_append, List.flatMap_cons] at h
      by_cases hb : a = 0x24
      · subst hb
        rcases hr' with rfl | ⟨c, t, rfl, hc⟩
        · simp at h
        · simp at h; exact hc h.1.symm
      · have : (a == 0x24) = false := by simpa using hb
        rw [this] at h
        rcases hr' with rfl | ⟨c, t, rfl, hc⟩
        · simp at h
        · simp at h; exact hb h.1
    | cons b v' =>
      have e : ∀ x (w : Bytes), plainValue (x :: w) = (if x == 0x24 then [0x24, 0x24] else [x]) ++ plainValue w :=
        fun _ _ => rfl
      rw [e, e] at h
      by_cases ha : a = 0x24
      · by_cases hb : b = 0x24
        · subst ha hb
          simp only [beq_self_eq_true, if_true, List.cons_append, List.nil_append, List.cons.injEq, true_and] at h
          obtain ⟨h1, h2⟩ := ih v' r r' trivial trivial hr hr' h
          exact ⟨by rw [h1], h2⟩
        · have hb' : (b == 0x24) = false := by simpa using hb
          rw [hb', ha] at h
          simp at h
          exact absurd h.1.symm hb
      · have ha' : (a == 0x24) = false := by simpa using ha
        rw [ha'] at h
        by_cases hb : b = 0x24
        · subst hb
          simp at h
          exact absurd h.1 ha
        · have hb' : (b == 0x24) = false := by simpa using hb
          rw [hb'] at h
          simp only [Bool.false_eq_true, if_false, List.cons_append, List.nil_append, List.cons.injEq] at h
          obtain ⟨h1, h2⟩ := ih v' r r' trivial trivial hr hr' h.2
          exact ⟨by rw [h.1, h1], h2⟩

theorem plainSub_selfDelim : SelfDelim IsSubfield PlainFollow
    (fun s => [0x24, s.code] ++ plainValue s.value) := by
  intro s s' r r' _ _ hr hr' h
  simp only [List.cons_append, List.nil_append, List.cons.injEq, true_and] at h
  obtain ⟨h1, h2⟩ := plainValue_selfDelim s.value s'.value r r' trivial trivial hr hr' h.2
  obtain ⟨c, v⟩ := s
  obtain ⟨c', v'⟩ := s'
  dsimp only at h h1
  exact ⟨by rw [h.1, h1], h2⟩

theorem plainValue_noLF {v : Bytes} (h : LF ∉ v) : LF ∉ plainValue v := by
  intro hm
  obtain ⟨b, hb, hx⟩ := List.mem_flatMap.1 hm
  split at hx
  · simp [LF] at hx
  · rw [List.mem_singleton] at hx; exact h (hx ▸ hb)

theorem plainField_selfDelim :
    SelfDelim (fun f => IsField f ∧ ∀ s ∈ f.subfields, LF ∉ s.value) (fun _ => True) plainField := by
  intro f f' r r' hf hf' _ _ h
  have hb : ∀ f : Field, IsField f → (∀ s ∈ f.subfields, LF ∉ s.value) → LF ∉ f.tag ++ writeOcc f.occ ++
      [SP] ++ f.subfields.flatMap (fun s => [0x24, s.code] ++ plainValue s.value) := by
    rintro f ⟨ht, ho, hs⟩ hn
    simp only [List.mem_append, List.mem_singleton, List.mem_flatMap, not_or, not_exists, not_and]
    refine ⟨⟨⟨tag_noLF ht, (occ_bytes ho).1⟩, by decide⟩, fun s hm => ?_⟩
    simp only [List.mem_cons, List.not_mem_nil, or_false, not_or]
    exact ⟨⟨by decide, fun e => (code_not (hs s hm).1).1 e.symm⟩, plainValue_noLF (hn s hm)⟩
  rw [plainField, plainField, List.append_assoc _ [LF] r, List.append_assoc _ [LF] r'] at h
  obtain ⟨h1, h2⟩ := append_cons_inj (hb f hf.1 hf.2) (hb f' hf'.1 hf'.2) h
  refine ⟨?_, h2⟩
  rw [List.append_assoc _ [SP], List.append_assoc _ [SP]] at h1
  obtain ⟨h3, h4, h5⟩ := head_inj hf.1.1 hf'.1.1 hf.1.2.1 hf'.1.2.1 h1
  have hsd := flatMap_selfDelim (S := fun b => b = 0x24) plainSub_selfDelim
    (fun s _ => ⟨_, _, rfl, rfl⟩)
    (fun s r hs => .inr ⟨s.code, plainValue s.value ++ r, rfl, (code_not hs.1).2⟩)
  have h6 := (hsd f.subfields f'.subfields [] [] hf.1.2.2 hf'.1.2.2 ⟨.inl rfl, by simp⟩ ⟨.inl rfl, by simp⟩
    (by simpa using h5)).1
  obtain ⟨t, o, ss⟩ := f
  obtain ⟨t', o', ss'⟩ := f'
  dsimp only at h3 h4 h6
  rw [h3, h4, h6]

/-! ## json -/

/-- reads one escaped character -/
def jsonUnescape : Bytes → Option (Byte × Bytes)
  | 0x5C :: 0x75 :: 0x30 :: 0x30 :: h :: l :: r =>
    some ((if h < 0x40 then h - 0x30 else h - 0x57) * 16 + (if l < 0x40 then l - 0x30 else l - 0x57), r)
  | 0x5C :: c :: r =>
    some (if c = 0x62 then 0x08 else if c = 0x74 then 0x09 else if c = 0x6E then 0x0A
      else if c = 0x66 then 0x0C else if c = 0x72 then 0x0D else c, r)
  | b :: r => some (b, r)
  | [] => none

theorem jsonUnescape_escape (b : Byte) (r : Bytes) : jsonUnescape (jsonEscape b ++ r) = some (b, r) := by
  have key : ∀ n : Fin 32, jsonUnescape (jsonEscape (UInt8.ofNat n) ++ r) = some (UInt8.ofNat n, r) := by
    have k1 : ∀ n : Fin 32, (n = 8 ∨ n = 9 ∨ n = 10 ∨ n = 12 ∨ n = 13) ∨
        (jsonEscape (UInt8.ofNat n) = [0x5C, 0x75, 0x30, 0x30, (hexByte (UInt8.ofNat n)).headD 0,
          (hexByte (UInt8.ofNat n)).getLastD 0] ∧
        (if (hexByte (UInt8.ofNat n)).headD 0 < 0x40 then (hexByte (UInt8.ofNat n)).headD 0 - 0x30
            else (hexByte (UInt8.ofNat n)).headD 0 - 0x57) * 16 +
          (if (hexByte (UInt8.ofNat n)).getLastD 0 < 0x40 then (hexByte (UInt8.ofNat n)).getLastD 0 - 0x30
            else (hexByte (UInt8.ofNat n)).getLastD 0 - 0x57) = UInt8.ofNat n) := by
      decide +kernel
    intro n
    rcases k1 n with h | ⟨h1, h2⟩
    · rcases h with rfl | rfl | rfl | rfl | rfl <;> rfl
    · rw [h1]
      simp only [List.cons_append, List.nil_append, jsonUnescape]
      rw [h2]
  by_cases h : b < 0x20
  · have hlt : b.toNat < 32 := UInt8.lt_iff_toNat_lt.1 h
    have := key ⟨b.toNat, hlt⟩
    simpa using this
  · by_cases h1 : b = 0x22
    · subst h1; rfl
    · by_cases h2 : b = 0x5C
      · subst h2; rfl
      · have hne : ∀ x : Byte, x < 0x20 → ¬ b = x := by rintro x hx rfl; exact h hx
        have he : jsonEscape b = [b] := by
          unfold jsonEscape
          simp [h1, h2, h, hne 0x08 (by decide), hne 0x09 (by decide), hne 0x0A (by decide),
            hne 0x0C (by decide), hne 0x0D (by decide)]
        rw [he]
        simp only [List.cons_append, List.nil_append]
        unfold jsonUnescape
        split
        · rename_i heq
          simp only [List.cons.injEq] at heq
          exact absurd heq.1 h2
        · rename_i heq
          simp only [List.cons.injEq] at heq
          exact absurd heq.1 h2
        · rename_i heq
          simp only [List.cons.injEq] at heq
          rw [heq.1, heq.2]
        · rename_i heq; simp at heq

theorem jsonEscape_head (b : Byte) : ∃ h t, jsonEscape b = h :: t ∧ h ≠ 0x22 := by
  unfold jsonEscape
  split
  · exact ⟨_, _, rfl, by decide⟩
  split
  · exact ⟨_, _, rfl, by decide⟩
  split
  · exact ⟨_, _, rfl, by decide⟩
  split
  · exact ⟨_, _, rfl, by decide⟩
  split
  · exact ⟨_, _, rfl, by decide⟩
  split
  · exact ⟨_, _, rfl, by decide⟩
  split
  · exact ⟨_, _, rfl, by decide⟩
  split
  · exact ⟨_, _, rfl, by decide⟩
  · rename_i h _ _ _ _ _ _ _
    exact ⟨_, _, rfl, by simpa using h⟩

theorem jsonString_selfDelim : SelfDelim (fun _ => True) (fun _ => True) jsonString := by
  intro v v' r r' _ _ _ _ h
  have hsd : SelfDelim (fun _ : Byte => True) (fun _ => True) jsonEscape := by
    intro a a' r r' _ _ _ _ h
    have := jsonUnescape_escape a r
    rw [h, jsonUnescape_escape] at this
    simp only [Option.some.injEq, Prod.mk.injEq] at this
    exact ⟨this.1.symm, this.2.symm⟩
  have := flatMap_selfDelim (S := fun b => b ≠ 0x22) hsd (fun b _ => jsonEscape_head b) (fun _ _ _ => trivial)
    v v' (0x22 :: r) (0x22 :: r') (by simp) (by simp) ⟨trivial, by rintro h t e; simp at e; simp [e.1]⟩
    ⟨trivial, by rintro h t e; simp at e; simp [e.1]⟩ (by simpa [jsonString] using h)
  simp at this
  exact this

theorem jsonArray_cons (x : Bytes) (xs : List Bytes) :
    jsonArray (x :: xs) = 0x5B :: (x ++ (xs.flatMap (fun y => 0x2C :: y) ++ [0x5D])) := by
  have : ∀ (x : Bytes) (xs : List Bytes), ((x :: xs).intersperse [0x2C]).flatten =
      x ++ xs.flatMap (fun y => 0x2C :: y) := by
    intro x xs
    induction xs generalizing x with
    | nil => simp
    | cons y ys ih =>
      rw [List.intersperse_cons_cons, List.flatten_cons, List.flatten_cons, ih, List.flatMap_cons]
      simp
  rw [jsonArray, this]
  simp

/-- arrays of self-delimiting texts -/
theorem jsonArray_selfDelim {α : Type} {P : α → Prop} {f : α → Bytes}
    (hsd : SelfDelim P (fun _ => True) f) (hne : ∀ a, P a → ∃ h t, f a = h :: t ∧ h ≠ 0x5D) :
    SelfDelim (fun l : List α => ∀ a ∈ l, P a) (fun _ => True) (fun l => jsonArray (l.map f)) := by
  intro l l' r r' hl hl' _ _ h
  dsimp only at h
  have hsd' : SelfDelim P (fun _ => True) (fun a => 0x2C :: f a) := by
    intro a a' r r' ha ha' _ _ h
    simp only [List.cons_append, List.cons.injEq, true_and] at h
    exact hsd a a' r r' ha ha' trivial trivial h
  have hfm : ∀ l : List α, (l.map f).flatMap (fun y => 0x2C :: y) = l.flatMap (fun a => 0x2C :: f a) := by
    intro l; rw [List.flatMap_map]
  have hnil : jsonArray [] = [0x5B, 0x5D] := rfl
  cases l with
  | nil =>
    cases l' with
    | nil => exact ⟨rfl, by simpa using h⟩
    | cons a l' =>
      exfalso
      obtain ⟨x, t, hx, hn⟩ := hne a (hl' a (by simp))
      rw [List.map_nil, hnil, List.map_cons, jsonArray_cons, hx] at h
      simp only [List.cons_append, List.cons.injEq, true_and, List.nil_append] at h
      exact hn h.1.symm
  | cons b l =>
    cases l' with
    | nil =>
      exfalso
      obtain ⟨x, t, hx, hn⟩ := hne b (hl b (by simp))
      rw [List.map_nil, hnil, List.map_cons, jsonArray_cons, hx] at h
      simp only [List.cons_append, List.cons.injEq, true_and, List.nil_append] at h
      exact hn h.1
    | cons a l' =>
      rw [List.map_cons, List.map_cons, jsonArray_cons, jsonArray_cons, hfm, hfm] at h
      simp only [List.cons_append, List.cons.injEq, true_and, List.append_assoc] at h
      obtain ⟨h1, h2⟩ := hsd b a _ _ (hl b (by simp)) (hl' a (by simp)) trivial trivial h
      have h3 := flatMap_selfDelim (S := fun x => x = 0x2C) hsd' (fun a _ => ⟨_, _, rfl, rfl⟩) (fun _ _ _ => trivial)
        l l' (0x5D :: r) (0x5D :: r') (fun a ha => hl a (by simp [ha])) (fun a ha => hl' a (by simp [ha]))
        ⟨trivial, by rintro h t e; simp at e; simp [← e.1]⟩ ⟨trivial, by rintro h t e; simp at e; simp [← e.1]⟩ h2
      simp only [List.cons.injEq, true_and] at h3
      exact ⟨by rw [h1, h3.1], h3.2⟩

/-- all values are UTF-8 -/
def Utf8Record (r : Record) : Prop := ∀ f ∈ r, ∀ s ∈ f.subfields, utf8Valid s.value = true

theorem jsonField_eq (lossy : Bytes → Bytes) (f : Field) : jsonField lossy f =
    0x5B :: (jsonString f.tag ++ (0x2C :: ((match f.occ with
      | some o => jsonString (SLASH :: o)
      | none => bs "null") ++
      (f.subfields.flatMap (fun s => 0x2C :: (jsonString [s.code] ++ (0x2C :: jsonString (lossy s.value)))) ++
        [0x5D])))) := by
  have : ∀ ss : List Subfield, (ss.flatMap (fun s => [jsonString [s.code], jsonString (lossy s.value)])).flatMap
      (fun y => 0x2C :: y) =
      ss.flatMap (fun s => 0x2C :: (jsonString [s.code] ++ (0x2C :: jsonString (lossy s.value)))) := by
    intro ss
    induction ss with
    | nil => rfl
    | cons s ss ih => simp only [List.flatMap_cons, List.flatMap_append, ih]; simp
  rw [jsonField, List.cons_append, jsonArray_cons]
  simp only [List.cons_append, List.nil_append, List.flatMap_cons, this, List.append_assoc]
  rfl

theorem jsonField_selfDelim {lossy : Bytes → Bytes} (hlossy : ∀ v, utf8Valid v = true → lossy v = v) :
    SelfDelim (fun f : Field => ∀ s ∈ f.subfields, utf8Valid s.value = true) (fun _ => True)
      (jsonField lossy) := by
  intro f f' r r' hf hf' _ _ h
  rw [jsonField_eq, jsonField_eq] at h
  simp only [List.cons_append, List.cons.injEq, true_and, List.append_assoc] at h
  obtain ⟨h1, h2⟩ := jsonString_selfDelim _ _ _ _ trivial trivial trivial trivial h
  simp only [List.cons.injEq, true_and] at h2
  have hnull : bs "null" = [0x6E, 0x75, 0x6C, 0x6C] := by decide +kernel
  have hsub : SelfDelim (fun s : Subfield => utf8Valid s.value = true) (fun _ => True)
      (fun s => 0x2C :: (jsonString [s.code] ++ (0x2C :: jsonString (lossy s.value)))) := by
    intro s s' r r' hs hs' _ _ h
    simp only [List.cons_append, List.cons.injEq, true_and, List.append_assoc] at h
    obtain ⟨h3, h4⟩ := jsonString_selfDelim _ _ _ _ trivial trivial trivial trivial h
    simp only [List.cons.injEq, true_and] at h4
    obtain ⟨h5, h6⟩ := jsonString_selfDelim _ _ _ _ trivial trivial trivial trivial h4
    rw [hlossy _ hs, hlossy _ hs'] at h5
    obtain ⟨c, v⟩ := s
    obtain ⟨c', v'⟩ := s'
    dsimp only at h3 h5
    simp only [List.cons.injEq, and_true] at h3
    exact ⟨by rw [h3, h5], h6⟩
  have hsubs := flatMap_selfDelim (S := fun x => x = 0x2C) hsub (fun a _ => ⟨_, _, rfl, rfl⟩) (fun _ _ _ => trivial)
    f.subfields f'.subfields (0x5D :: r) (0x5D :: r') hf hf'
    ⟨trivial, by rintro h t e; simp at e; simp [← e.1]⟩ ⟨trivial, by rintro h t e; simp at e; simp [← e.1]⟩
  obtain ⟨t, o, ss⟩ := f
  obtain ⟨t', o', ss'⟩ := f'
  dsimp only at *
  cases o with
  | none =>
    cases o' with
    | none =>
      simp only [List.append_cancel_left_eq] at h2
      obtain ⟨h3, h4⟩ := hsubs h2
      simp only [List.cons.injEq, true_and] at h4
      exact ⟨by rw [h1, h3], h4⟩
    | some y =>
      exfalso
      rw [hnull] at h2
      simp [jsonString] at h2
  | some x =>
    cases o' with
    | none =>
      exfalso
      rw [hnull] at h2
      simp [jsonString] at h2
    | some y =>
      obtain ⟨h5, h6⟩ := jsonString_selfDelim _ _ _ _ trivial trivial trivial trivial h2
      obtain ⟨h3, h4⟩ := hsubs h6
      simp only [List.cons.injEq, true_and] at h4 h5
      exact ⟨by rw [h1, h3, h5], h4⟩

theorem jsonRecord_selfDelim {lossy : Bytes → Bytes} (hlossy : ∀ v, utf8Valid v = true → lossy v = v) :
    SelfDelim Utf8Record (fun _ => True) (jsonRecord lossy) := by
  intro a a' r r' ha ha' _ _ h
  exact jsonArray_selfDelim (jsonField_selfDelim hlossy)
    (fun f _ => ⟨_, _, jsonField_eq lossy f, by decide⟩) a a' r r' ha ha' trivial trivial h

end Pica
