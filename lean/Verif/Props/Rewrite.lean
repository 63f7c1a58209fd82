import Verif.Props.Convert

/-! # C93: the formats of convert as a rewriting of the valid lines -/

namespace Pica.Props
open Pica Spec Convert

/-! ## the claim -/

/-- the valid lines of the files, with their line feeds, in order -/
inductive ValidLines : List (String × Bytes) → List Bytes → Prop
  | nil : ValidLines [] []
  | cons {name : String} {content : Bytes} {ls ms : List Bytes} {files : List (String × Bytes)} :
      Lines content ls → ValidLines files ms →
      ValidLines ((name, content) :: files) (ls.filter (fun l => decide (ValidLine l)) ++ ms)

/-- binary: a group separator takes the place of the line feed -/
def toBinary (b : Byte) : Byte := if b = 0x0A then 0x1D else b

/-- plain: `$` before a subfield code, `$$` for a dollar sign, a line feed at the end of a field -/
def toPlain (b : Byte) : Bytes :=
  if b = 0x1F then [0x24]
  else if b = 0x24 then [0x24, 0x24]
  else if b = 0x1E then [0x0A]
  else if b = 0x0A then []
  else [b]

/-- import: a record begins with `'`, a group separator and a line feed; a field begins with a record
separator and ends with a line feed -/
def toImport (line : Bytes) : Bytes :=
  [0x27, 0x1D, 0x0A, 0x1E] ++
    (line.dropLast.dropLast.flatMap (fun b => if b = 0x1E then [0x0A, 0x1E] else [b]) ++ [0x0A])

/-! ## lines and records -/

theorem validLines_input {files : List (String × Bytes)} {ls : List Bytes} (h : ValidLines files ls) :
    ∃ rs, Input files rs ∧ rs.map ByteRecord.write = ls := by
  induction h with
  | nil => exact ⟨[], .nil, rfl⟩
  | @cons name content ls ms files hl _ ih =>
    obtain ⟨rs, hi, hr⟩ := ih
    refine ⟨_, .cons hl hi, ?_⟩
    rw [List.map_append, hr]
    congr 1
    clear hl
    induction ls with
    | nil => rfl
    | cons l ls ih =>
      rw [List.filterMap_cons, List.filter_cons]
      cases h : ByteRecord.fromBytes l with
      | none =>
        have : ¬ ValidLine l := by
          rw [validLine_iff, ← fromBytes_isSome, h]; simp
        simp [this, ih]
      | some r =>
        have hv : ValidLine l := by
          rw [validLine_iff, ← fromBytes_isSome, h]; simp
        obtain ⟨_, h2⟩ := ByteRecord.fromBytes_eq_some.1 h
        simp [hv, ih, ByteRecord.write, h2]

theorem lineRecord_write {r : ByteRecord} (h : LineRecord r) : r.record ≠ [] ∧ IsRecord r.record ∧
    r.write = r.record.flatMap Field.write ++ [LF] ∧ LF ∉ r.record.flatMap Field.write := by
  obtain ⟨t, ht, hb, hw⟩ := h
  obtain ⟨h1, h2, h3⟩ := Record.fromBytes_eq_some.1 (ByteRecord.fromBytes_eq_some.1 hb).1
  have h4 := List.append_cancel_right h3
  exact ⟨h1, h2, by rw [hw, h3], by rw [← h4]; exact ht⟩

theorem fieldWrite_body (f : Field) : f.write = fieldBody f ++ [RS] := rfl

/-! ## binary -/

theorem binary_line {r : ByteRecord} (h : LineRecord r) : binaryRecord r.record = r.write.map toBinary := by
  obtain ⟨-, -, hw, hl⟩ := lineRecord_write h
  rw [hw, List.map_append]
  have : ∀ l : Bytes, LF ∉ l → l.map toBinary = l := by
    intro l hl
    refine (List.map_congr_left fun b hb => ?_).trans (List.map_id l)
    unfold toBinary
    rw [if_neg]
    · rfl
    · rintro rfl; exact hl hb
  rw [this _ hl]
  rfl

/-! ## plain -/

theorem field_bytes {f : Field} (h : IsField f) :
    (∀ b ∈ f.tag ++ writeOcc f.occ ++ [SP], b ≠ 0x1F ∧ b ≠ 0x24 ∧ b ≠ 0x1E ∧ b ≠ 0x0A) ∧
    ∀ s ∈ f.subfields, s.code ≠ 0x1F ∧ s.code ≠ 0x24 ∧ s.code ≠ 0x1E ∧ s.code ≠ 0x0A := by
  obtain ⟨⟨a, b, c, d, ht, h1, h2, h3, h4⟩, ho, hs⟩ := h
  have up : ∀ x : Byte, 0x30 ≤ x → x ≠ 0x1F ∧ x ≠ 0x24 ∧ x ≠ 0x1E ∧ x ≠ 0x0A := by
    intro x hx
    refine ⟨?_, ?_, ?_, ?_⟩ <;> (rintro rfl; revert hx; decide)
  constructor
  · intro x hx
    rw [ht] at hx
    simp only [List.mem_append, List.mem_cons, List.not_mem_nil, or_false] at hx
    rcases hx with ((rfl | rfl | rfl | rfl) | hx) | rfl
    · apply up; rcases h1 with rfl | rfl | rfl <;> decide
    · exact up _ h2.1
    · exact up _ h3.1
    · rcases h4 with h4 | rfl
      · exact up _ (UInt8.le_trans (by decide) h4.1)
      · decide
    · cases hoc : f.occ with
      | none => rw [hoc] at hx; simp [writeOcc] at hx
      | some o =>
        rw [hoc] at hx
        rcases List.mem_cons.1 hx with rfl | hx
        · decide
        · exact up _ ((ho o hoc).2 x hx).1
    · decide
  · intro s hs'
    have := (hs s hs').1
    unfold IsCode at this
    rcases this with h | h | h
    · exact up _ h.1
    · exact up _ (UInt8.le_trans (by decide) h.1)
    · exact up _ (UInt8.le_trans (by decide) h.1)

theorem toPlain_other {b : Byte} (h : b ≠ 0x1F ∧ b ≠ 0x24 ∧ b ≠ 0x1E ∧ b ≠ 0x0A) : toPlain b = [b] := by
  unfold toPlain
  rw [if_neg h.1, if_neg h.2.1, if_neg h.2.2.1, if_neg h.2.2.2]

theorem flatMap_eq_of {α β : Type} {l : List α} {f g : α → List β} (h : ∀ a ∈ l, f a = g a) :
    l.flatMap f = l.flatMap g := by
  rw [List.flatMap_def, List.flatMap_def, List.map_congr_left h]

theorem flatMap_single {l : Bytes} {g : Byte → Bytes} (h : ∀ b ∈ l, g b = [b]) : l.flatMap g = l := by
  induction l with
  | nil => rfl
  | cons b l ih =>
    rw [List.flatMap_cons, h b (by simp), ih (fun a ha => h a (by simp [ha]))]
    rfl

theorem plain_field {f : Field} (h : IsField f) (hl : LF ∉ f.write) : plainField f = f.write.flatMap toPlain := by
  obtain ⟨h1, h2⟩ := field_bytes h
  have e : f.write = (f.tag ++ writeOcc f.occ ++ [SP]) ++ (f.subfields.flatMap Subfield.write ++ [RS]) := by
    unfold Field.write
    simp only [List.append_assoc]
  rw [e] at hl ⊢
  rw [List.flatMap_append, flatMap_single (fun b hb => toPlain_other (h1 b hb)), List.flatMap_append]
  unfold plainField
  rw [List.append_assoc]
  congr 2
  have key : ∀ ss : List Subfield, (∀ s ∈ ss, IsSubfield s ∧ LF ∉ s.value ∧ toPlain s.code = [s.code]) →
      ss.flatMap (fun s => [0x24, s.code] ++ plainValue s.value) =
        (ss.flatMap Subfield.write).flatMap toPlain := by
    intro ss
    induction ss with
    | nil => intro _; rfl
    | cons s ss ih =>
      intro hs
      obtain ⟨k1, k2, k3⟩ := hs s (by simp)
      rw [List.flatMap_cons, List.flatMap_cons, List.flatMap_append, ih (fun a ha => hs a (by simp [ha]))]
      congr 1
      show [0x24, s.code] ++ plainValue s.value = toPlain US ++ (s.code :: s.value).flatMap toPlain
      rw [List.flatMap_cons, k3]
      have : plainValue s.value = s.value.flatMap toPlain := by
        unfold plainValue
        refine flatMap_eq_of fun b hb => ?_
        by_cases hd : b = 0x24
        · subst hd; decide
        · have hv := k1.2 b hb
          rw [toPlain_other ⟨hv.1, hd, hv.2, fun h => k2 (by rw [h] at hb; exact hb)⟩, if_neg (by simpa using hd)]
      rw [this]
      rfl
  refine key _ fun s hs => ⟨h.2.2 s hs, fun hm => hl ?_, toPlain_other (h2 s hs)⟩
  simp only [List.mem_append, List.mem_flatMap]
  exact .inr (.inl ⟨s, hs, by simp [Subfield.write, hm]⟩)

theorem plain_line {r : ByteRecord} (h : LineRecord r) : plainRecord r.record = r.write.flatMap toPlain := by
  obtain ⟨-, hr, hw, hl⟩ := lineRecord_write h
  rw [hw, List.flatMap_append]
  have hn : ([LF] : Bytes).flatMap toPlain = [] := by decide
  rw [hn, List.append_nil, List.flatMap_assoc]
  unfold plainRecord
  exact flatMap_eq_of fun f hf => plain_field (hr f hf) (fun hm => hl (List.mem_flatMap.2 ⟨f, hf, hm⟩))

/-! ## import -/

theorem body_noRS {f : Field} (h : IsField f) : ∀ b ∈ fieldBody f, b ≠ 0x1E := by
  obtain ⟨h1, h2⟩ := field_bytes h
  intro b hb
  unfold fieldBody at hb
  rcases List.mem_append.1 hb with hb | hb
  · exact (h1 b hb).2.2.1
  · obtain ⟨s, hs, hb⟩ := List.mem_flatMap.1 hb
    have e : s.write = US :: s.code :: s.value := rfl
    rw [e] at hb
    rcases List.mem_cons.1 hb with rfl | hb
    · decide
    · rcases List.mem_cons.1 hb with rfl | hb
      · exact (h2 s hs).2.2.1
      · exact ((h.2.2 s hs).2 b hb).2

theorem import_fields : ∀ {fs : List Field}, fs ≠ [] → (∀ f ∈ fs, IsField f) →
    fs.flatMap (fun f => [RS] ++ fieldBody f ++ [LF]) =
      [0x1E] ++ ((fs.flatMap Field.write).dropLast.flatMap (fun b => if b = 0x1E then [0x0A, 0x1E] else [b]) ++ [0x0A]) := by
  intro fs
  induction fs with
  | nil => intro h; exact absurd rfl h
  | cons f fs ih =>
    intro _ hf
    have hb : (fieldBody f).flatMap (fun b => if b = 0x1E then [0x0A, 0x1E] else [b]) = fieldBody f :=
      flatMap_single (fun b hb => if_neg (body_noRS (hf f (by simp)) b hb))
    cases fs with
    | nil =>
      simp only [List.flatMap_cons, List.flatMap_nil, List.append_nil]
      rw [fieldWrite_body, List.dropLast_concat, hb]
      simp only [List.append_assoc]
      rfl
    | cons g fs =>
      have hne : (g :: fs).flatMap Field.write ≠ [] := by
        rw [List.flatMap_cons, fieldWrite_body]
        simp
      have ew : (f :: g :: fs).flatMap Field.write = fieldBody f ++ RS :: (g :: fs).flatMap Field.write := by
        rw [List.flatMap_cons, fieldWrite_body, List.append_assoc, List.singleton_append]
      rw [List.flatMap_cons, ih (by simp) (fun a ha => hf a (by simp [ha])), ew,
        List.dropLast_append_of_ne_nil (by simp), List.flatMap_append, hb,
        List.dropLast_cons_of_ne_nil hne]
      generalize ((g :: fs).flatMap Field.write).dropLast = t
      rw [List.flatMap_cons]
      have e : (if RS = (0x1E : Byte) then ([0x0A, 0x1E] : Bytes) else [RS]) = [0x0A, 0x1E] := by decide
      rw [e]
      simp only [List.append_assoc, List.cons_append, List.nil_append]
      rfl

theorem import_line {r : ByteRecord} (h : LineRecord r) : importRecord r.record = toImport r.write := by
  obtain ⟨hne, hr, hw, hl⟩ := lineRecord_write h
  unfold importRecord toImport
  rw [import_fields hne hr, hw, List.dropLast_concat]
  rfl

/-! ## the command -/

theorem convert_out {c : ConvertCmd} {g : ByteRecord → Bytes} (hto : c.head = [] ∧ c.tail = [])
    (hg : ∀ s r, c.write s r = some ⟨s.out ++ g r, s.count + 1⟩) {files : List (String × Bytes)}
    {rs : List ByteRecord} (hi : Input files rs) {out : Bytes} (h : c.run files = .ok out) : out = rs.flatMap g := by
  obtain ⟨s, h1, h2⟩ := convert_ok hi h
  rw [foldlM_append hg] at h1
  simp only [Option.some.injEq] at h1
  subst h1
  rw [h2, hto.1, hto.2, List.nil_append, List.append_nil]

theorem lines_flatMap {files : List (String × Bytes)} {rs : List ByteRecord} (hi : Input files rs)
    {g : ByteRecord → Bytes} {k : Bytes → Bytes} (hg : ∀ r, LineRecord r → g r = k r.write) :
    rs.flatMap g = (rs.map ByteRecord.write).flatMap k := by
  rw [List.flatMap_map]
  exact flatMap_eq_of fun r hr => hg r (input_lineRecord hi r hr)

/-- **C93** plus: the valid lines are written as they are. -/
theorem C93_plus (c : ConvertCmd) (hto : c.to = .plus) (files : List (String × Bytes)) (ls : List Bytes)
    (hl : ValidLines files ls) (out : Bytes) (h : c.run files = .ok out) : out = ls.flatten := by
  obtain ⟨rs, hi, rfl⟩ := validLines_input hl
  rw [convert_out (g := ByteRecord.write) (by simp [ConvertCmd.head, ConvertCmd.tail, hto])
    (by intro s r; rw [ConvertCmd.write, hto]) hi h, List.flatMap_def]

/-- **C93** binary: the valid lines with a group separator for every line feed. -/
theorem C93_binary (c : ConvertCmd) (hto : c.to = .binary) (files : List (String × Bytes)) (ls : List Bytes)
    (hl : ValidLines files ls) (out : Bytes) (h : c.run files = .ok out) : out = ls.flatten.map toBinary := by
  obtain ⟨rs, hi, rfl⟩ := validLines_input hl
  rw [convert_out (g := fun r => binaryRecord r.record) (by simp [ConvertCmd.head, ConvertCmd.tail, hto])
    (by intro s r; rw [ConvertCmd.write, hto]) hi h, lines_flatMap hi (fun r hr => binary_line hr),
    List.flatMap_def, List.map_flatten]

/-- **C93** plain: the valid lines, byte by byte. -/
theorem C93_plain (c : ConvertCmd) (hto : c.to = .plain) (files : List (String × Bytes)) (ls : List Bytes)
    (hl : ValidLines files ls) (out : Bytes) (h : c.run files = .ok out) : out = ls.flatten.flatMap toPlain := by
  obtain ⟨rs, hi, rfl⟩ := validLines_input hl
  rw [convert_out (g := fun r => plainRecord r.record) (by simp [ConvertCmd.head, ConvertCmd.tail, hto])
    (by intro s r; rw [ConvertCmd.write, hto]) hi h, lines_flatMap hi (fun r hr => plain_line hr)]
  generalize rs.map ByteRecord.write = ls
  induction ls with
  | nil => rfl
  | cons l ls ih => rw [List.flatMap_cons, List.flatten_cons, List.flatMap_append, ih]

/-- **C93** import: line by line. -/
theorem C93_import (c : ConvertCmd) (hto : c.to = .import) (files : List (String × Bytes)) (ls : List Bytes)
    (hl : ValidLines files ls) (out : Bytes) (h : c.run files = .ok out) : out = ls.flatMap toImport := by
  obtain ⟨rs, hi, rfl⟩ := validLines_input hl
  rw [convert_out (g := fun r => importRecord r.record) (by simp [ConvertCmd.head, ConvertCmd.tail, hto])
    (by intro s r; rw [ConvertCmd.write, hto]) hi h, lines_flatMap hi (fun r hr => import_line hr)]

/-- **C93** binary: putting line feeds for the group separators gives the lines back if and only if
they have no group separator. -/
theorem C93_back (c : ConvertCmd) (hto : c.to = .binary) (files : List (String × Bytes)) (ls : List Bytes)
    (hl : ValidLines files ls) (out : Bytes) (h : c.run files = .ok out) :
    out.map (fun b => if b = 0x1D then 0x0A else b) = ls.flatten ↔ 0x1D ∉ ls.flatten := by
  rw [C93_binary c hto files ls hl out h, List.map_map]
  generalize ls.flatten = t
  induction t with
  | nil => simp
  | cons b t ih =>
    rw [List.map_cons, List.cons.injEq, ih, List.mem_cons, not_or]
    refine and_congr_left fun _ => ?_
    show (if toBinary b = 0x1D then 0x0A else toBinary b) = b ↔ _
    by_cases h1 : b = 0x0A
    · subst h1; decide
    · have e : toBinary b = b := if_neg h1
      rw [e]
      by_cases h2 : b = 0x1D
      · subst h2; decide
      · rw [if_neg h2]
        exact ⟨fun _ h => h2 h.symm, fun _ => rfl⟩

/-! ## the theorems on a concrete input -/

theorem rewrite_sample : ValidLines [("a", convertLine ++ bs "x\n" ++ recLine "1")] [convertLine, recLine "1"] := by
  have h : Lines (convertLine ++ bs "x\n" ++ recLine "1") [convertLine, bs "x\n", recLine "1"] := by
    have e : convertLine ++ bs "x\n" ++ recLine "1" =
        convertLine.dropLast ++ 0x0A :: (bs "x" ++ 0x0A :: ((recLine "1").dropLast ++ 0x0A :: [])) := by decide +kernel
    have e' : [convertLine, bs "x\n", recLine "1"] =
        [convertLine.dropLast ++ [0x0A], bs "x" ++ [0x0A], (recLine "1").dropLast ++ [0x0A]] := by decide +kernel
    rw [e, e']
    exact .line _ _ _ (by decide +kernel) (.line _ _ _ (by decide +kernel) (.line _ _ _ (by decide +kernel) .eof))
  have hf : [convertLine, bs "x\n", recLine "1"].filter (fun l => decide (ValidLine l)) ++ [] =
      [convertLine, recLine "1"] := by decide +kernel
  rw [← hf]
  exact .cons (name := "a") h .nil

/-- the invalid line is skipped -/
example := C93_plus (convertSample .plus) rfl _ _ rewrite_sample (convertLine ++ recLine "1") (by decide +kernel)
example := C93_binary (convertSample .binary) rfl _ _ rewrite_sample
  (convertLine.dropLast ++ [0x1D] ++ (recLine "1").dropLast ++ [0x1D]) (by decide +kernel)
example := C93_back (convertSample .binary) rfl _ _ rewrite_sample
  (convertLine.dropLast ++ [0x1D] ++ (recLine "1").dropLast ++ [0x1D]) (by decide +kernel)
example := C93_plain (convertSample .plain) rfl _ _ rewrite_sample
  (bs "003@/01 $0x$$a\"" ++ [0x01] ++ bs "$b\n012A \n003@ $01\n") (by decide +kernel)
example := C93_import (convertSample .import) rfl _ _ rewrite_sample
  (toImport convertLine ++ toImport (recLine "1")) (by decide +kernel)
example : toImport convertLine = [0x27, 0x1D, 0x0A, 0x1E] ++ bs "003@/01 " ++ [0x1F] ++ bs "0x$a\"" ++ [0x01, 0x1F] ++
    bs "b" ++ [0x0A, 0x1E] ++ bs "012A " ++ [0x0A] := by decide +kernel

end Pica.Props
