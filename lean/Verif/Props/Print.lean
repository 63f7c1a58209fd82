import Verif.Model.Print
import Verif.Props.Concat
import Verif.Props.Split
import Verif.Props.Path

/-! # C51: print, C52: hash -/

namespace Pica.Props
open Pica Spec

/-! ## C51 -/

/-- the line of a field: tag, occurrence and, for each subfield, the code after a
dollar sign and the value -/
def fieldLine (translit : Bytes → Bytes) (f : Field) : Bytes :=
  f.tag ++ (match f.occ with
    | none => []
    | some o => 0x2F :: o) ++
  f.subfields.flatMap (fun s => [0x20, 0x24, s.code, 0x20] ++ translit s.value) ++ [0x0A]

/-- the block of a record: a line for each field and an empty line -/
def recordBlock (translit : Bytes → Bytes) (r : Record) : Bytes :=
  r.flatMap (fieldLine translit) ++ [0x0A]

/-- all values are valid UTF-8 -/
def AllUtf8 (r : Record) : Prop := ∀ f ∈ r, ∀ s ∈ f.subfields, utf8Valid s.value = true

theorem print_subfields (tr : Bytes → Bytes) (ss : List Subfield) :
    ((∀ s ∈ ss, utf8Valid s.value = true) ∧ PrintCmd.subfields tr ss =
      some (ss.flatMap (fun s => [0x20, 0x24, s.code, 0x20] ++ tr s.value))) ∨
    ((∃ s ∈ ss, utf8Valid s.value = false) ∧ PrintCmd.subfields tr ss = none) := by
  have h1 : bs " $" = [0x20, 0x24] := by decide +kernel
  have h2 : bs " " = [0x20] := by decide +kernel
  induction ss with
  | nil => exact .inl ⟨by simp, rfl⟩
  | cons s ss ih =>
    rw [PrintCmd.subfields]
    cases hv : utf8Valid s.value with
    | false => exact .inr ⟨⟨s, by simp, hv⟩, rfl⟩
    | true =>
      rw [if_pos rfl]
      rcases ih with ⟨h3, h4⟩ | ⟨⟨t, ht, ht'⟩, h4⟩
      · left
        refine ⟨by simpa [hv] using h3, ?_⟩
        rw [h4, h1, h2]
        simp
      · right
        exact ⟨⟨t, by simp [ht], ht'⟩, by rw [h4]; rfl⟩

theorem print_fields (tr : Bytes → Bytes) (r : Record) :
    (AllUtf8 r ∧ PrintCmd.fields tr r = some (r.flatMap (fieldLine tr))) ∨
    (¬ AllUtf8 r ∧ PrintCmd.fields tr r = none) := by
  induction r with
  | nil => exact .inl ⟨by simp [AllUtf8], rfl⟩
  | cons f r ih =>
    rw [PrintCmd.fields]
    rcases print_subfields tr f.subfields with ⟨h1, h2⟩ | ⟨⟨s, hs, hs'⟩, h2⟩
    · rw [h2]
      dsimp only
      rcases ih with ⟨h3, h4⟩ | ⟨h3, h4⟩
      · left
        refine ⟨?_, ?_⟩
        · intro g hg
          rcases List.mem_cons.1 hg with rfl | hg
          · exact h1
          · exact h3 g hg
        · rw [h4, Option.map_some, List.flatMap_cons]
          congr 1
      · right
        refine ⟨fun h => h3 (fun g hg => h g (by simp [hg])), by rw [h4]; rfl⟩
    · right
      refine ⟨fun h => ?_, by rw [h2]⟩
      have := h f (by simp) s hs
      rw [hs'] at this
      simp at this

theorem print_record (tr : Bytes → Bytes) (r : Record) (t : Bytes) :
    PrintCmd.record tr r = some t ↔ AllUtf8 r ∧ t = recordBlock tr r := by
  unfold PrintCmd.record
  rcases print_fields tr r with ⟨h1, h2⟩ | ⟨h1, h2⟩
  · rw [h2, Option.map_some, Option.some.injEq]
    exact ⟨fun h => ⟨h1, h.symm⟩, fun h => h.2.symm⟩
  · rw [h2]
    simp [h1]

theorem print_test (sel : Selection) (r : ByteRecord) :
    PrintCmd.test sel r = some true ↔ Picked sel r.record := by
  unfold PrintCmd.test Picked
  rw [← check_true_iff]
  cases hm : sel.matcher with
  | none => simp
  | some m =>
    dsimp only
    cases he : m.eval sel.E sel.o r.record with
    | none => simp [he]
    | some b =>
      cases b with
      | false => simp [he]
      | true => simp [he]

theorem print_chosen (sel : Selection) (rs : List ByteRecord) :
    chosen (PrintCmd.test sel) rs = picked sel rs := by
  classical
  exact List.filter_congr (fun r _ => by rw [Bool.eq_iff_iff]; simpa using print_test sel r)

theorem print_total {sel : Selection} {r : ByteRecord} (h : NoPanic sel r.record) :
    ∃ b, PrintCmd.test sel r = some b := by
  obtain ⟨vs, hv⟩ := Option.isSome_iff_exists.1 h.1
  have hc := C29_check sel.E₀ sel.set r.record vs hv
  have hchk : ∃ b, sel.set.check sel.E₀ r.record = some b := by
    by_cases ha : Admitted sel.set.allow sel.set.deny vs
    · exact ⟨_, hc.1.2 ha⟩
    · exact ⟨_, hc.2.2 ha⟩
  unfold PrintCmd.test
  cases hm : sel.matcher with
  | none => exact hchk
  | some m =>
    dsimp only
    obtain ⟨b, hb⟩ := Option.isSome_iff_exists.1 (h.2 m hm)
    rw [hb]
    cases b with
    | false => exact ⟨false, rfl⟩
    | true => exact hchk

theorem print_fold (xs : List Bytes) : ∀ s : PrintState,
    xs.foldl (fun s t => (⟨s.out ++ t, s.count + 1⟩ : PrintState)) s = ⟨s.out ++ xs.flatten, s.count + xs.length⟩ := by
  induction xs with
  | nil => intro s; simp
  | cons x xs ih =>
    intro s
    rw [List.foldl_cons, ih]
    simp only [List.append_assoc, List.flatten_cons, List.length_cons, PrintState.mk.injEq, true_and]
    omega

/-- **C51** if `print` ends without error, it has written the block of each selected
record up to the limit, in order, and all values of these records are valid UTF-8. -/
theorem C51_output (c : PrintCmd) (files : List (String × Bytes)) (rs : List ByteRecord) (hi : Input files rs)
    (st : PrintState) (h : c.run files = .ok st) :
    st.out = (limited c.limit (picked c.sel rs)).flatMap (fun r => recordBlock c.translit r.record) ∧
      ∀ r ∈ limited c.limit (picked c.sel rs), AllUtf8 r.record := by
  unfold PrintCmd.run at h
  obtain ⟨xs, h1, h2⟩ := result_ok (cnt := PrintState.count) (fun _ _ => rfl) hi rfl h
  rw [print_chosen] at h1
  rw [print_fold] at h2
  subst h2
  dsimp only
  rw [List.nil_append]
  generalize limited c.limit (picked c.sel rs) = l at h1
  clear h hi
  induction h1 with
  | nil => simp
  | cons hr _ ih =>
    obtain ⟨h3, h4⟩ := (print_record _ _ _).1 hr
    rw [List.flatten_cons, List.flatMap_cons, ih.1, h4]
    refine ⟨rfl, ?_⟩
    intro r hr
    rcases List.mem_cons.1 hr with rfl | hr
    · exact h3
    · exact ih.2 r hr

theorem runSteps_result_none {S X : Type} (limit : Nat) (cnt : S → Nat) (f : ByteRecord → Option X)
    (g : S → X → S) (hg : ∀ s x, cnt (g s x) = cnt s + 1) :
    ∀ (rs : List ByteRecord) (s : S), limit = 0 ∨ cnt s < limit →
    (runSteps (resultBody limit cnt f g) rs s = none ↔
      ∃ r ∈ (if limit = 0 then rs else rs.take (limit - cnt s)), f r = none) := by
  intro rs
  induction rs with
  | nil => intro s _; simp [runSteps]
  | cons r rs ih =>
    intro s hc
    have htake : (if limit = 0 then r :: rs else (r :: rs).take (limit - cnt s)) =
        r :: (if limit = 0 then rs else rs.take (limit - (cnt s + 1))) := by
      by_cases h0 : limit = 0
      · simp [h0]
      · rw [if_neg h0, if_neg h0]
        obtain ⟨k, hk⟩ : ∃ k, limit - cnt s = k + 1 := ⟨limit - cnt s - 1, by omega⟩
        rw [hk, List.take_succ_cons]
        congr 2
        omega
    rw [htake, runSteps, resultBody]
    cases hf : f r with
    | none => simp [hf]
    | some x =>
      dsimp only
      rw [limitStep, hg]
      by_cases hl : limit > 0 ∧ cnt s + 1 ≥ limit
      · rw [if_pos (by simpa using hl)]
        have e : limit - (cnt s + 1) = 0 := by omega
        rw [if_neg (by omega), e]
        simp [hf]
      · rw [if_neg (by simpa using hl)]
        dsimp only
        rw [ih (g s x) (by rw [hg]; omega), hg]
        simp [hf]

/-- **C51** if all lines are valid (or invalid ones are skipped) and no test panics,
`print` panics iff a value in a selected record up to the limit is not valid UTF-8. -/
theorem C51_panics (c : PrintCmd) (files : List (String × Bytes)) (rs : List ByteRecord)
    (hi : Input files rs) (hc : Clean c.skip files) (hp : ∀ r ∈ rs, NoPanic c.sel r.record) :
    (c.run files = .panic ↔ ∃ r ∈ limited c.limit (picked c.sel rs), ¬ AllUtf8 r.record) ∧
    ((∃ st, c.run files = .ok st) ↔ ∀ r ∈ limited c.limit (picked c.sel rs), AllUtf8 r.record) := by
  have hn : ∀ r : ByteRecord, PrintCmd.record c.translit r.record = none ↔ ¬ AllUtf8 r.record := by
    intro r
    rw [Option.eq_none_iff_forall_not_mem]
    constructor
    · intro h hu
      exact h _ ((print_record _ _ _).2 ⟨hu, rfl⟩)
    · intro h t ht
      exact h ((print_record _ _ _).1 ht).1
  have key := runSteps_result_none c.limit PrintState.count (fun r => PrintCmd.record c.translit r.record)
    (fun s t => (⟨s.out ++ t, s.count + 1⟩ : PrintState)) (fun _ _ => rfl) (picked c.sel rs) ⟨[], 0⟩ (by dsimp only; omega)
  have hrun : c.run files = match runSteps (resultBody c.limit PrintState.count
      (fun r => PrintCmd.record c.translit r.record)
      (fun s t => (⟨s.out ++ t, s.count + 1⟩ : PrintState))) (picked c.sel rs) ⟨[], 0⟩ with
      | some s' => .ok s'
      | none => .panic := by
    unfold PrintCmd.run
    rw [filesLoop_clean hi hc, runSteps_sel_total (fun r hr => print_total (hp r hr)), print_chosen]
    split <;> split <;> simp_all
  rw [hrun]
  have e : ∀ {A : Type} (l : List A), (if c.limit = 0 then l else l.take (c.limit - 0)) = limited c.limit l :=
    fun l => rfl
  dsimp only at key
  rw [e] at key
  simp only [hn] at key
  cases hs : runSteps (resultBody c.limit PrintState.count
      (fun r => PrintCmd.record c.translit r.record)
      (fun s t => (⟨s.out ++ t, s.count + 1⟩ : PrintState))) (picked c.sel rs) ⟨[], 0⟩ with
  | none =>
    rw [hs] at key
    have := key.1 rfl
    refine ⟨by simpa using this, ?_⟩
    obtain ⟨r, hr, hu⟩ := this
    constructor
    · rintro ⟨st, h⟩; simp at h
    · intro h; exact absurd (h r hr) hu
  | some s =>
    rw [hs] at key
    have : ¬ ∃ r ∈ limited c.limit (picked c.sel rs), ¬ AllUtf8 r.record := fun h => by simpa using key.2 h
    refine ⟨by simpa using this, ⟨fun _ r hr => ?_, fun _ => ⟨s, rfl⟩⟩⟩
    exact Classical.byContradiction (fun hu => this ⟨r, hr, hu⟩)

/-- the command without options -/
def printSample : PrintCmd := ⟨true, 0, id, noSelection⟩

/-- **C51** a record that the reader accepts makes `print` panic, also with
`--skip-invalid`. -/
theorem C51_utf8_false :
    (Record.fromBytes (bs "003@ " ++ [US] ++ bs "0" ++ [0xFF] ++ [RS, LF])).isSome = true ∧
    printSample.run [("a", bs "003@ " ++ [US] ++ bs "0" ++ [0xFF] ++ [RS, LF])] = .panic := by
  decide +kernel

/-- **C51** the output does not determine the records: different records have the same
block. -/
theorem C51_ambiguous_false : ∃ r r' : Record, IsRecord r ∧ IsRecord r' ∧ r ≠ r' ∧
    recordBlock id r = recordBlock id r' := by
  refine ⟨[⟨bs "012A", none, [⟨0x61, bs "x"⟩, ⟨0x62, bs "y"⟩]⟩], [⟨bs "012A", none, [⟨0x61, bs "x $b y"⟩]⟩],
    ?_, ?_, by decide +kernel, by decide +kernel⟩
  · have h : Record.fromBytes (bs "012A " ++ [US] ++ bs "ax" ++ [US] ++ bs "by" ++ [RS, LF]) =
      some [⟨bs "012A", none, [⟨0x61, bs "x"⟩, ⟨0x62, bs "y"⟩]⟩] := by decide +kernel
    exact (Record.fromBytes_eq_some.1 h).2.1
  · have h : Record.fromBytes (bs "012A " ++ [US] ++ bs "ax $b y" ++ [RS, LF]) =
      some [⟨bs "012A", none, [⟨0x61, bs "x $b y"⟩]⟩] := by decide +kernel
    exact (Record.fromBytes_eq_some.1 h).2.1

example : (printSample.run [("a", sampleBytes ++ recLine "1")]) =
    .ok ⟨recordBlock id sample ++ (bs "003@ $0 1" ++ [LF, LF]), 2⟩ := by decide +kernel

/-! ## C52 -/

/-- hexadecimal digits -/
def hexDigits : Bytes := bs "0123456789abcdef"

/-- the text has two hexadecimal digits for each byte, the higher half first -/
theorem hexByte_spec (b : Byte) :
    hexByte b = [hexDigits.getD (b.toNat / 16) 0, hexDigits.getD (b.toNat % 16) 0] := by
  have : ∀ n : Fin 256, hexByte (UInt8.ofNat n.val) =
      [hexDigits.getD (n.val / 16) 0, hexDigits.getD (n.val % 16) 0] := by decide +kernel
  have h := this ⟨b.toNat, b.toNat_lt⟩
  simpa using h

theorem hexByte_inj : ∀ a b : Byte, hexByte a = hexByte b → a = b := by
  have hd : ∀ n m : Fin 16, hexDigits.getD n.val 0 = hexDigits.getD m.val 0 → n = m := by decide +kernel
  intro a b h
  rw [hexByte_spec, hexByte_spec] at h
  simp only [List.cons.injEq, and_true] at h
  have ha := a.toNat_lt
  have hb := b.toNat_lt
  have h1 := hd ⟨a.toNat / 16, by omega⟩ ⟨b.toNat / 16, by omega⟩ h.1
  have h2 := hd ⟨a.toNat % 16, by omega⟩ ⟨b.toNat % 16, by omega⟩ h.2
  simp only [Fin.mk.injEq] at h1 h2
  apply UInt8.toNat_inj.1
  omega

theorem hexText_inj : ∀ {a b : Bytes}, hexText a = hexText b → a = b := by
  intro a
  induction a with
  | nil =>
    intro b h
    cases b with
    | nil => rfl
    | cons y b => simp [hexText, hexByte] at h
  | cons x a ih =>
    intro b h
    cases b with
    | nil => simp [hexText, hexByte] at h
    | cons y b =>
      unfold hexText at h
      rw [List.flatMap_cons, List.flatMap_cons] at h
      have hl : (hexByte x).length = (hexByte y).length := rfl
      obtain ⟨h1, h2⟩ := List.append_inj h hl
      rw [hexByte_inj x y h1, ih h2]

/-- the IDN of a record, the empty string if it has none -/
def idnText (r : Record) : Bytes :=
  (((r.filter (fun f => f.tag == bs "003@" && (f.occ == none || f.occ == some (bs "00")))).flatMap
    (fun f => (f.subfields.filter (fun s => s.code == 0x30)).map Subfield.value)).head?).getD []

theorem hash_fold (xs : List (Bytes × Bytes)) : ∀ s : HashState,
    xs.foldl (fun s t => (⟨s.out ++ [t], s.count + 1⟩ : HashState)) s = ⟨s.out ++ xs, s.count + xs.length⟩ := by
  induction xs with
  | nil => intro s; simp
  | cons x xs ih =>
    intro s
    rw [List.foldl_cons, ih]
    simp only [List.append_assoc, List.length_cons, HashState.mk.injEq, List.singleton_append, true_and]
    omega

/-- **C52** one row for each selected record up to the limit, in order: the IDN and the
hexadecimal digest of the bytes of the record. -/
theorem C52_rows (c : HashCmd) (files : List (String × Bytes)) (rs : List ByteRecord) (hi : Input files rs)
    (st : HashState) (h : c.run files = .ok st) :
    st.out = (limited c.limit (picked c.sel rs)).map (fun r =>
      (c.lossy (idnText r.record), hexText (c.sha r.record.write))) := by
  unfold HashCmd.run at h
  obtain ⟨xs, h1, h2⟩ := result_ok (cnt := HashState.count) (fun _ _ => rfl) hi rfl h
  rw [chosen_eq_picked] at h1
  rw [hash_fold] at h2
  subst h2
  dsimp only
  rw [List.nil_append]
  have hmem : ∀ r ∈ limited c.limit (picked c.sel rs), r ∈ rs := by
    intro r hr
    exact (List.mem_filter.1 (mem_limited hr)).1
  have hin := input_fromBytes hi
  generalize limited c.limit (picked c.sel rs) = l at h1 hmem
  clear h hi
  induction h1 with
  | nil => rfl
  | @cons r x l xs hr _ ih =>
    rw [List.map_cons, ← ih (fun r hr => hmem r (by simp [hr]))]
    congr 1
    unfold HashCmd.row at hr
    rw [(C23_ppn c.sel.E₀ ⟨false⟩ r.record).1, Option.map_some, Option.some.injEq] at hr
    rw [← hr]
    obtain ⟨b, hb⟩ := hin r (hmem r (by simp))
    have hreach : Reach r := .fromBytes hb
    unfold ByteRecord.shaInput
    rw [C10_written_bytes r hreach]
    rfl

/-- **C52** two records have the same digest text iff their digests agree; if SHA-256
does not collide on them, iff the records are equal. -/
theorem C52_digest (c : HashCmd) (r r' : Record) (h : IsRecord r) (h' : IsRecord r') (hne : r ≠ []) (hne' : r' ≠ [])
    (hsha : c.sha r.write = c.sha r'.write → r.write = r'.write) :
    hexText (c.sha r.write) = hexText (c.sha r'.write) ↔ r = r' := by
  constructor
  · intro he
    have h1 := hsha (hexText_inj he)
    have h2 := Record.fromBytes_write h hne
    rw [h1, Record.fromBytes_write h' hne'] at h2
    exact (Option.some.inj h2).symm
  · rintro rfl; rfl

/-- **C52** the command ends without error if no test panics. -/
theorem C52_finishes (c : HashCmd) (files : List (String × Bytes)) (rs : List ByteRecord)
    (hi : Input files rs) (hc : Clean c.skip files) (hp : ∀ r ∈ rs, NoPanic c.sel r.record) :
    ∃ st, c.run files = .ok st := by
  unfold HashCmd.run
  refine result_clean (cnt := HashState.count) (fun _ _ => rfl) hi hc (fun r hr => test_total (hp r hr)) ?_ _ rfl
  intro r _
  unfold HashCmd.row
  rw [(C23_ppn c.sel.E₀ ⟨false⟩ r.record).1]
  rfl

/-- the command with a toy digest -/
def hashSample : HashCmd := ⟨true, 1, fun b => b.take 2, id, noSelection⟩

example : hashSample.run [("a", recLine "1" ++ recLine "2")] = .ok ⟨[(bs "1", bs "3030")], 1⟩ := by decide +kernel

/-! ## the theorems on concrete files -/

example := C51_output printSample [("a", sampleBytes ++ recLine "1")] _ (input_of _)
  ⟨recordBlock id sample ++ (bs "003@ $0 1" ++ [LF, LF]), 2⟩ (by decide +kernel)
example := C51_panics printSample [("a", sampleBytes ++ bs "003@ " ++ [US] ++ bs "0" ++ [0xFF] ++ [RS, LF])] _
  (input_of _) (.inl rfl) (noPanic_of (by decide +kernel))
example := C52_rows hashSample [("a", recLine "1" ++ recLine "2")] _ (input_of _) ⟨[(bs "1", bs "3030")], 1⟩ (by decide +kernel)
example := C52_digest { hashSample with sha := id } sample (recOf "1").record (isRecord_of (b := sampleBytes) (by decide +kernel))
  (isRecord_of (b := recLine "1") (by decide +kernel)) (by decide +kernel) (by decide +kernel) (fun h => h)
example := C52_finishes hashSample [("a", recLine "1" ++ recLine "2")] _ (input_of _) (.inl rfl) (noPanic_of (by decide +kernel))

end Pica.Props
