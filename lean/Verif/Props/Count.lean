import Verif.Model.Count
import Verif.Props.Concat

/-! # C37: count -/

namespace Pica.Props
open Pica Spec

/-- number of occurrences of a byte -/
def times (b : Byte) (l : Bytes) : Nat := (l.filter (fun x => decide (x = b))).length

theorem times_append (b : Byte) (l l' : Bytes) : times b (l ++ l') = times b l + times b l' := by
  simp [times]

theorem times_cons (b x : Byte) (l : Bytes) : times b (x :: l) = (if x = b then 1 else 0) + times b l := by
  unfold times
  rw [List.filter_cons]
  by_cases h : x = b <;> simp [h]; omega

theorem times_nil (b : Byte) : times b [] = 0 := rfl

theorem times_zero {b : Byte} {l : Bytes} (h : ∀ x ∈ l, x ≠ b) : times b l = 0 := by
  unfold times
  rw [List.length_eq_zero_iff, List.filter_eq_nil_iff]
  intro x hx
  simpa using h x hx

theorem times_flatMap {α : Type} (b : Byte) (f : α → Bytes) (l : List α) :
    times b (l.flatMap f) = (l.map (fun a => times b (f a))).sum := by
  induction l with
  | nil => rfl
  | cons a l ih => rw [List.flatMap_cons, times_append, ih, List.map_cons, List.sum_cons]

theorem code_lt {c : Byte} (h : IsCode c) : 0x30 ≤ c := by
  have h1 : (0x30 : Byte).toNat = 48 := rfl
  rcases h with h | h | h
  · exact h.1
  · exact UInt8.le_iff_toNat_le.2 (by have := UInt8.le_iff_toNat_le.1 h.1; rw [h1]; have h2 : (0x41 : Byte).toNat = 65 := rfl; omega)
  · exact UInt8.le_iff_toNat_le.2 (by have := UInt8.le_iff_toNat_le.1 h.1; rw [h1]; have h2 : (0x61 : Byte).toNat = 97 := rfl; omega)

theorem ge_ne {c : Byte} (h : 0x30 ≤ c) : c ≠ 0x1E ∧ c ≠ 0x1F := by
  constructor <;> (rintro rfl; revert h; decide)

theorem subfield_times {s : Subfield} (h : IsSubfield s) :
    times 0x1E s.write = 0 ∧ times 0x1F s.write = 1 := by
  have hc := ge_ne (code_lt h.1)
  constructor
  · apply times_zero
    intro x hx
    simp only [Subfield.write, List.cons_append, List.nil_append, List.mem_cons] at hx
    rcases hx with rfl | rfl | hx
    · decide
    · exact hc.1
    · exact (h.2 x hx).2
  · rw [Subfield.write]
    have : times 0x1F s.value = 0 := times_zero (fun x hx => (h.2 x hx).1)
    simp only [List.cons_append, List.nil_append]
    rw [times_cons, times_cons, this, if_pos (by rfl), if_neg hc.2]

theorem field_times {f : Field} (h : IsField f) :
    times 0x1E f.write = 1 ∧ times 0x1F f.write = f.subfields.length := by
  obtain ⟨ht, ho, hs⟩ := h
  have htag : ∀ x ∈ f.tag, x ≠ 0x1E ∧ x ≠ 0x1F := by
    obtain ⟨a, b, c, d, e, h1, h2, h3, h4⟩ := ht
    rw [e]
    intro x hx
    simp only [List.mem_cons, List.not_mem_nil, or_false] at hx
    rcases hx with rfl | rfl | rfl | rfl
    · rcases h1 with rfl | rfl | rfl <;> decide
    · exact ge_ne h2.1
    · exact ge_ne h3.1
    · rcases h4 with h4 | rfl
      · exact ge_ne (code_lt (.inr (.inl h4)))
      · decide
  have hocc : ∀ x ∈ writeOcc f.occ, x ≠ 0x1E ∧ x ≠ 0x1F := by
    cases e : f.occ with
    | none => simp [writeOcc]
    | some o =>
      intro x hx
      simp only [writeOcc, List.mem_cons] at hx
      rcases hx with rfl | hx
      · decide
      · exact ge_ne (((ho o e).2 x hx).1)
  have h1 : ∀ ss : List Subfield, (∀ s ∈ ss, IsSubfield s) →
      times 0x1E (ss.flatMap Subfield.write) = 0 ∧ times 0x1F (ss.flatMap Subfield.write) = ss.length := by
    intro ss
    induction ss with
    | nil => intro _; exact ⟨rfl, rfl⟩
    | cons s ss ih =>
      intro h
      obtain ⟨a, b⟩ := ih (fun s hs => h s (by simp [hs]))
      obtain ⟨c, d⟩ := subfield_times (h s (by simp))
      rw [List.flatMap_cons, times_append, times_append, a, b, c, d, List.length_cons]
      omega
  obtain ⟨h2, h3⟩ := h1 f.subfields hs
  unfold Field.write
  simp only [times_append, h2, h3]
  rw [times_zero (fun x hx => (htag x hx).1), times_zero (fun x hx => (hocc x hx).1),
    times_zero (fun x hx => (htag x hx).2), times_zero (fun x hx => (hocc x hx).2)]
  constructor
  · rfl
  · show 0 + 0 + 0 + f.subfields.length + 0 = _; omega

theorem record_times {l : Bytes} {r : Record} (h : Record.fromBytes l = some r) :
    times 0x1E l = r.length ∧ times 0x1F l = (r.map (fun f => f.subfields.length)).sum := by
  obtain ⟨_, h1, rfl⟩ := Record.fromBytes_eq_some.1 h
  rw [times_append, times_append]
  have : ∀ fs : List Field, (∀ f ∈ fs, IsField f) →
      times 0x1E (fs.flatMap Field.write) = fs.length ∧
      times 0x1F (fs.flatMap Field.write) = (fs.map (fun f => f.subfields.length)).sum := by
    intro fs
    induction fs with
    | nil => intro _; exact ⟨rfl, rfl⟩
    | cons f fs ih =>
      intro h
      obtain ⟨a, b⟩ := ih (fun f hf => h f (by simp [hf]))
      obtain ⟨c, d⟩ := field_times (h f (by simp))
      rw [List.flatMap_cons, times_append, times_append, a, b, c, d, List.length_cons, List.map_cons,
        List.sum_cons]
      omega
  obtain ⟨h2, h3⟩ := this r h1
  rw [h2, h3]
  exact ⟨rfl, rfl⟩

theorem count_fold (rs : List ByteRecord) : ∀ s : CountState, rs.foldl CountCmd.step s =
    ⟨s.records + rs.length, s.fields + (rs.map (fun r => r.record.length)).sum,
      s.subfields + (rs.map (fun r => (r.record.map (fun f => f.subfields.length)).sum)).sum⟩ := by
  induction rs with
  | nil => intro s; simp
  | cons r rs ih =>
    intro s
    rw [List.foldl_cons, ih, CountCmd.step]
    simp only [List.length_cons, List.map_cons, List.sum_cons]
    congr 1 <;> omega

/-- **C37** the three numbers are the numbers of selected records, of their fields
and of their subfields. -/
theorem C37_exact (c : CountCmd) (files : List (String × Bytes)) (rs : List ByteRecord)
    (hi : Input files rs) (s : CountState) (h : c.loop files = .ok s) :
    s.records = (picked c.sel rs).length ∧
    s.fields = ((picked c.sel rs).map (fun r => r.record.length)).sum ∧
    s.subfields = ((picked c.sel rs).map (fun r => (r.record.map (fun f => f.subfields.length)).sum)).sum := by
  have := selFold_ok hi h
  rw [chosen_eq_picked, count_fold] at this
  subst this
  simp

/-- **C37** the numbers are those of the separators `0x1E`
and `0x1F` in the texts of the selected records. -/
theorem C37_separators (c : CountCmd) (files : List (String × Bytes)) (rs : List ByteRecord)
    (hi : Input files rs) (s : CountState) (h : c.loop files = .ok s) :
    s.fields = times 0x1E ((picked c.sel rs).flatMap ByteRecord.write) ∧
    s.subfields = times 0x1F ((picked c.sel rs).flatMap ByteRecord.write) := by
  obtain ⟨_, h2, h3⟩ := C37_exact c files rs hi s h
  rw [h2, h3, times_flatMap, times_flatMap]
  have key : ∀ r ∈ picked c.sel rs, times 0x1E r.write = r.record.length ∧
      times 0x1F r.write = (r.record.map (fun f => f.subfields.length)).sum := by
    intro r hr
    obtain ⟨l, hl⟩ := input_fromBytes hi r (List.mem_filter.1 hr).1
    obtain ⟨h4, h5⟩ := ByteRecord.fromBytes_eq_some.1 hl
    rw [ByteRecord.write, h5]
    exact record_times h4
  constructor
  · congr 1
    exact List.map_congr_left (fun r hr => (key r hr).1.symm)
  · congr 1
    exact List.map_congr_left (fun r hr => (key r hr).2.symm)

/-- **C37** when all lines are valid and all records are selected, the numbers are
the numbers of lines, of `0x1E` and of `0x1F` in the files. -/
theorem C37_raw (c : CountCmd) (files : List (String × Bytes)) (rs : List ByteRecord)
    (hi : Input files rs) (s : CountState) (h : c.loop files = .ok s) (hv : AllValid files)
    (hsel : ∀ r ∈ rs, Picked c.sel r.record) :
    s.records = times 0x0A (files.flatMap Prod.snd) ∧
    s.fields = times 0x1E (files.flatMap Prod.snd) ∧
    s.subfields = times 0x1F (files.flatMap Prod.snd) := by
  have h1 := (C37_exact c files rs hi s h).1
  obtain ⟨h4, h5⟩ := C37_separators c files rs hi s h
  have hp : picked c.sel rs = rs := by
    rw [picked, List.filter_eq_self]
    intro r hr; simpa using hsel r hr
  have hraw : rs.flatMap ByteRecord.write = files.flatMap Prod.snd := by
    clear h h1 h4 h5 hsel hp
    induction hi with
    | nil => rfl
    | @cons name content ls fs rs hl hi ih =>
      rw [List.flatMap_append, List.flatMap_cons, ih (fun f hf => hv f (by simp [hf]))]
      congr 1
      have hall : ∀ l ∈ ls, ∃ r, Record.fromBytes l = some r := by
        intro l hm
        exact Option.isSome_iff_exists.1 (hv (name, content) (by simp) ls hl l hm)
      have hfl := lines_flatten hl
      show _ = content
      rw [← hfl]
      clear hl hfl hv
      induction ls with
      | nil => rfl
      | cons l ls ih =>
        obtain ⟨r, hr⟩ := hall l (by simp)
        have hb : ByteRecord.fromBytes l = some ⟨some l, r⟩ := ByteRecord.fromBytes_eq_some.2 ⟨hr, rfl⟩
        rw [List.filterMap_cons, hb, List.flatMap_cons, ih (fun l hl => hall l (by simp [hl])),
          List.flatten_cons]
        rfl
  rw [hp, hraw] at h4 h5
  refine ⟨?_, h4, h5⟩
  rw [h1, hp, ← hraw, times_flatMap]
  have hone : ∀ r ∈ rs, times 0x0A r.write = 1 := by
    intro r hr
    obtain ⟨t, ht, _, hw⟩ := input_lineRecord hi r hr
    have h0 : times 0x0A t = 0 := times_zero (fun x hx e => ht (e ▸ hx : (0x0A : Byte) ∈ t))
    rw [hw, times_append, h0]
    rfl
  clear hi h h1 h4 h5 hp hsel hraw
  induction rs with
  | nil => rfl
  | cons r rs ih =>
    rw [List.length_cons, List.map_cons, List.sum_cons, hone r (by simp), ih (fun r hr => hone r (by simp [hr]))]
    omega

/-- a loop over more files, when the body never stops -/
theorem filesLoop_append {S : Type} {skip : Bool} {onSkip : S → S} {body : S → ByteRecord → Step S}
    (hb : ∀ s r s', body s r ≠ .stop s') (f1 f2 : List (String × Bytes)) (s : S) :
    filesLoop skip onSkip body (f1 ++ f2) s =
      (match filesLoop skip onSkip body f1 s with
        | .ok s' => filesLoop skip onSkip body f2 s'
        | .err e s' => .err e s'
        | .panic => .panic) := by
  have hnot : ∀ (is : List Item) (s s' : S), fileLoop skip onSkip body is s ≠ .done (.ok s') := by
    intro is
    induction is with
    | nil => intro s s' h; simp [fileLoop] at h
    | cons i is ih =>
      intro s s' h
      cases i with
      | error e =>
        rw [fileLoop] at h
        split at h
        · exact ih _ _ h
        · simp at h
      | ok r =>
        rw [fileLoop] at h
        cases hbr : body s r with
        | next s1 => rw [hbr] at h; exact ih _ _ h
        | stop s1 => exact hb _ _ _ hbr
        | panic => rw [hbr] at h; simp at h
  induction f1 generalizing s with
  | nil => rfl
  | cons f f1 ih =>
    obtain ⟨name, content⟩ := f
    rw [List.cons_append, filesLoop, filesLoop]
    cases hf : fileLoop skip onSkip body (readAll content (some name)) s with
    | eof s' => exact ih s'
    | done r =>
      cases r with
      | ok s' => exact absurd hf (hnot _ _ _)
      | err e s' => rfl
      | panic => rfl

/-- starting from other numbers -/
def shift (a s : CountState) : CountState :=
  ⟨a.records + s.records, a.fields + s.fields, a.subfields + s.subfields⟩

theorem count_shift (c : CountCmd) (a : CountState) (files : List (String × Bytes)) : ∀ s,
    filesLoop c.skip id (selBody c.sel.test (fun s r => .next (CountCmd.step s r))) files (shift a s) =
      (match filesLoop c.skip id (selBody c.sel.test (fun s r => .next (CountCmd.step s r))) files s with
        | .ok s' => .ok (shift a s')
        | .err e s' => .err e (shift a s')
        | .panic => .panic) := by
  have hfile : ∀ (is : List Item) (s : CountState),
      fileLoop c.skip id (selBody c.sel.test (fun s r => .next (CountCmd.step s r))) is (shift a s) =
      (match fileLoop c.skip id (selBody c.sel.test (fun s r => .next (CountCmd.step s r))) is s with
        | .eof s' => .eof (shift a s')
        | .done (.ok s') => .done (.ok (shift a s'))
        | .done (.err e s') => .done (.err e (shift a s'))
        | .done .panic => .done .panic) := by
    intro is
    induction is with
    | nil => intro s; rfl
    | cons i is ih =>
      intro s
      cases i with
      | error e =>
        rw [fileLoop, fileLoop]
        by_cases h : e.skipParse c.skip = true
        · rw [if_pos h, if_pos h]; exact ih s
        · rw [if_neg h, if_neg h]
      | ok r =>
        rw [fileLoop, fileLoop, selBody, selBody]
        cases c.sel.test r with
        | none => rfl
        | some b =>
          cases b with
          | false => exact ih s
          | true =>
            have : CountCmd.step (shift a s) r = shift a (CountCmd.step s r) := by
              simp [CountCmd.step, shift, Nat.add_assoc]
            dsimp only
            rw [this]
            exact ih _
  induction files with
  | nil => intro s; rfl
  | cons f files ih =>
    intro s
    obtain ⟨name, content⟩ := f
    rw [filesLoop, filesLoop, hfile]
    cases fileLoop c.skip id (selBody c.sel.test (fun s r => .next (CountCmd.step s r)))
        (readAll content (some name)) s with
    | eof s' => exact ih s'
    | done r => cases r <;> rfl

/-- **C37** the numbers of two groups of files add up. -/
theorem C37_additive (c : CountCmd) (f1 f2 : List (String × Bytes)) (s1 s2 : CountState)
    (h1 : c.loop f1 = .ok s1) (h2 : c.loop f2 = .ok s2) :
    c.loop (f1 ++ f2) =
      .ok ⟨s1.records + s2.records, s1.fields + s2.fields, s1.subfields + s2.subfields⟩ := by
  unfold CountCmd.loop at *
  rw [filesLoop_append (by
    intro s r s'
    unfold selBody
    cases c.sel.test r with
    | none => simp
    | some b => cases b <;> simp), h1]
  dsimp only
  have : s1 = shift s1 ⟨0, 0, 0⟩ := by simp [shift]
  rw [this, count_shift, h2]
  simp [shift]

/-- a decimal numeral without leading zeros -/
def Numeral (n : Nat) (t : Bytes) : Prop :=
  t ≠ [] ∧ (∀ d ∈ t, 0x30 ≤ d ∧ d ≤ 0x39) ∧ (t.head? = some 0x30 → t = [0x30]) ∧
  t.foldl (fun a d => 10 * a + (d.toNat - 48)) 0 = n

theorem decimal_numeral (n : Nat) : Numeral n (decimal n) := by
  induction n using Nat.strongRecOn with
  | ind n ih =>
    have hdig : ∀ k, k < 10 → (0x30 : Byte) ≤ 0x30 + UInt8.ofNat k ∧ (0x30 : Byte) + UInt8.ofNat k ≤ 0x39 ∧
        ((0x30 : Byte) + UInt8.ofNat k).toNat = 48 + k := by
      intro k hk
      have : k = 0 ∨ k = 1 ∨ k = 2 ∨ k = 3 ∨ k = 4 ∨ k = 5 ∨ k = 6 ∨ k = 7 ∨ k = 8 ∨ k = 9 := by omega
      rcases this with rfl | rfl | rfl | rfl | rfl | rfl | rfl | rfl | rfl | rfl <;> decide
    rw [decimal]
    by_cases h : n < 10
    · rw [if_pos h]
      obtain ⟨h1, h2, h3⟩ := hdig n h
      refine ⟨by simp, ?_, ?_, ?_⟩
      · intro d hd
        rw [List.mem_singleton] at hd
        subst hd; exact ⟨h1, h2⟩
      · intro h; simpa using h
      · simp only [List.foldl_cons, List.foldl_nil, h3]; omega
    · rw [if_neg h]
      obtain ⟨i1, i2, i3, i4⟩ := ih (n / 10) (by omega)
      obtain ⟨h1, h2, h3⟩ := hdig (n % 10) (by omega)
      refine ⟨by simp, ?_, ?_, ?_⟩
      · intro d hd
        rcases List.mem_append.1 hd with hd | hd
        · exact i2 d hd
        · rw [List.mem_singleton] at hd
          subst hd; exact ⟨h1, h2⟩
      · intro hh
        rw [List.head?_append, Option.or_of_isSome (by cases hd : decimal (n / 10) with
          | nil => exact absurd hd i1
          | cons x xs => rfl)] at hh
        have := i3 hh
        rw [this] at i4
        simp at i4
        omega
      · rw [List.foldl_append, i4]
        simp only [List.foldl_cons, List.foldl_nil, h3]
        omega

/-- **C37** what is printed: the numbers, as decimal numerals, in the documented
layout. -/
theorem C37_report (c : CountCmd) (files : List (String × Bytes)) (s : CountState)
    (h : c.loop files = .ok s) : ∃ a b d, Numeral s.records a ∧ Numeral s.fields b ∧ Numeral s.subfields d ∧
    c.run files = .ok (match c.format with
      | .records => a ++ bs "\n"
      | .fields => b ++ bs "\n"
      | .subfields => d ++ bs "\n"
      | .csv true => bs "records,fields,subfields\n" ++ (a ++ bs "," ++ b ++ bs "," ++ d ++ bs "\n")
      | .csv false => a ++ bs "," ++ b ++ bs "," ++ d ++ bs "\n"
      | .tsv true => bs "records\tfields\tsubfields\n" ++ (a ++ bs "\t" ++ b ++ bs "\t" ++ d ++ bs "\n")
      | .tsv false => a ++ bs "\t" ++ b ++ bs "\t" ++ d ++ bs "\n"
      | .plain => bs "records: " ++ a ++ bs "\nfields: " ++ b ++ bs "\nsubfields: " ++ d ++ bs "\n") := by
  refine ⟨decimal s.records, decimal s.fields, decimal s.subfields, decimal_numeral _, decimal_numeral _,
    decimal_numeral _, ?_⟩
  have e1 : bs "\n" = [LF] := by decide +kernel
  have e2 : bs "," = [0x2C] := by decide +kernel
  have e3 : bs "\t" = [0x09] := by decide +kernel
  have e4 : bs "records,fields,subfields\n" = bs "records,fields,subfields" ++ [LF] := by decide +kernel
  have e5 : bs "records\tfields\tsubfields\n" =
    bs "records" ++ [0x09] ++ bs "fields" ++ [0x09] ++ bs "subfields" ++ [LF] := by decide +kernel
  have e6 : bs "\nfields: " = [LF] ++ bs "fields: " := by decide +kernel
  have e7 : bs "\nsubfields: " = [LF] ++ bs "subfields: " := by decide +kernel
  rw [CountCmd.run, h]
  dsimp only
  rw [CountCmd.report]
  congr 1
  cases c.format with
  | records => rw [e1]
  | fields => rw [e1]
  | subfields => rw [e1]
  | csv hd =>
    cases hd
    · rw [e1, e2]; rfl
    · rw [e1, e2, e4]; rfl
  | tsv hd =>
    cases hd
    · rw [e1, e3]; rfl
    · rw [e1, e3, e5]; rfl
  | plain => simp only [e1, e6, e7, List.append_assoc]

/-- **C37** the command finishes when the invalid lines are skipped or absent and
lists and matcher do not panic. -/
theorem C37_finishes (c : CountCmd) (files : List (String × Bytes)) (rs : List ByteRecord)
    (hi : Input files rs) (hc : c.skip = true ∨ AllValid files)
    (hp : ∀ r ∈ rs, NoPanic c.sel r.record) : ∃ s, c.loop files = .ok s :=
  selFold_clean hi hc (fun r hr => test_total (hp r hr)) _

/-- a record with two fields and three subfields -/
def twoFields : Bytes := bs "003@ " ++ [0x1F] ++ bs "01" ++ [0x1E] ++ bs "012A " ++ [0x1F] ++ bs "a" ++ [0x1F] ++ bs "b" ++ [0x1E, 0x0A]

def countSample (f : CountFormat) : CountCmd := ⟨true, f, noSelection⟩

example : (countSample .plain).run [("a", recLine "1" ++ bs "x" ++ [LF]), ("b", twoFields ++ recLine "2")] =
    .ok (bs "records: 3\nfields: 4\nsubfields: 5\n") := by decide +kernel
example : (countSample (.csv true)).run [("a", recLine "1" ++ bs "x" ++ [LF]), ("b", twoFields ++ recLine "2")] =
    .ok (bs "records,fields,subfields\n3,4,5\n") := by decide +kernel
example : (countSample .fields).run [("b", twoFields ++ twoFields ++ twoFields ++ twoFields ++ twoFields ++ twoFields)] =
    .ok (bs "12\n") := by decide +kernel

/-! ## the theorems on concrete files -/

/-- two files, the first with an invalid line -/
def countFiles : List (String × Bytes) := [("a", recLine "1" ++ bs "x" ++ [LF]), ("b", twoFields ++ recLine "2")]

example := C37_exact (countSample .plain) countFiles _ (input_of _) ⟨3, 4, 5⟩ (by decide +kernel)
example := C37_separators (countSample .plain) countFiles _ (input_of _) ⟨3, 4, 5⟩ (by decide +kernel)
example := C37_raw (countSample .plain) [("b", twoFields ++ recLine "2")] _ (input_of _) ⟨2, 3, 4⟩ (by decide +kernel)
  (allValid_of (by decide +kernel)) (picked_of (by decide +kernel))
example := C37_additive (countSample .plain) [("a", recLine "1" ++ bs "x" ++ [LF])] [("b", twoFields ++ recLine "2")]
  ⟨1, 1, 1⟩ ⟨2, 3, 4⟩ (by decide +kernel) (by decide +kernel)
example := C37_report (countSample .plain) countFiles ⟨3, 4, 5⟩ (by decide +kernel)
example := C37_finishes (countSample .plain) countFiles _ (input_of _) (.inl rfl) (noPanic_of (by decide +kernel))

end Pica.Props
