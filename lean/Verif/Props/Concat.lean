import Verif.Model.Concat
import Verif.Props.Split

/-! # C32, C44: concat and invalid -/

namespace Pica.Props
open Pica Spec

/-! ## C44 -/

/-- the lines of all files, in order -/
inductive AllLines : List (String × Bytes) → List Bytes → Prop
  | nil : AllLines [] []
  | cons {name content ls fs ls'} : Lines content ls → AllLines fs ls' →
      AllLines ((name, content) :: fs) (ls ++ ls')

theorem allLines_exists (files : List (String × Bytes)) : ∃ ls, AllLines files ls := by
  induction files with
  | nil => exact ⟨[], .nil⟩
  | cons f fs ih =>
    obtain ⟨ls, h⟩ := ih
    obtain ⟨l, hl⟩ := lines_exists f.2
    exact ⟨_, .cons hl h⟩

theorem allLines_input {files ls} (h : AllLines files ls) :
    Input files (ls.filterMap ByteRecord.fromBytes) := by
  induction h with
  | nil => exact .nil
  | cons hl _ ih => rw [List.filterMap_append]; exact .cons hl ih

theorem allLines_flatten {files ls} (h : AllLines files ls) :
    ls.flatten = files.flatMap Prod.snd := by
  induction h with
  | nil => rfl
  | cons hl _ ih => rw [List.flatten_append, lines_flatten hl, ih, List.flatMap_cons]

/-- a line is a record -/
def ValidLine (l : Bytes) : Prop := ∃ r, Record.fromBytes l = some r

theorem fromBytes_isSome (l : Bytes) : (ByteRecord.fromBytes l).isSome = (Record.fromBytes l).isSome := by
  unfold ByteRecord.fromBytes; cases Record.fromBytes l <;> rfl

theorem validLine_iff (l : Bytes) : ValidLine l ↔ (Record.fromBytes l).isSome = true := by
  rw [Option.isSome_iff_exists]; rfl

instance (l : Bytes) : Decidable (ValidLine l) := decidable_of_iff _ (validLine_iff l).symm

theorem filterMap_write (ls : List Bytes) :
    (ls.filterMap ByteRecord.fromBytes).flatMap ByteRecord.write = (ls.filter (fun l => decide (ValidLine l))).flatten := by
  induction ls with
  | nil => rfl
  | cons l ls ih =>
    rw [List.filterMap_cons, List.filter_cons]
    cases h : ByteRecord.fromBytes l with
    | none =>
      have : ¬ ValidLine l := by
        rw [validLine_iff, ← fromBytes_isSome, h]; simp
      simp [this, ih]
    | some r =>
      have hv : ValidLine l := by rw [validLine_iff, ← fromBytes_isSome, h]; simp
      obtain ⟨_, h2⟩ := ByteRecord.fromBytes_eq_some.1 h
      simp [hv, ih, ByteRecord.write, h2]

theorem invalidLoop_lines {b ls} (h : Lines b ls) : ∀ (fuel : Nat) (out : Bytes), b.length < fuel →
    invalidLoop fuel b out = out ++ (ls.filter (fun l => decide (¬ ValidLine l))).flatten := by
  induction h with
  | eof => intro fuel out hf; cases fuel <;> simp [invalidLoop, readUntil]
  | last t h0 ht =>
    intro fuel out hf
    obtain ⟨fuel, rfl⟩ : ∃ k, fuel = k + 1 := ⟨fuel - 1, by omega⟩
    have hfuel : 0 < fuel := by
      have := List.length_pos_iff.2 h0; omega
    obtain ⟨fuel, rfl⟩ : ∃ k, fuel = k + 1 := ⟨fuel - 1, by omega⟩
    have hne : t.isEmpty = false := by cases t <;> simp_all
    have hend : ∀ out, invalidLoop (fuel + 1) [] out = out := by intro out; simp [invalidLoop, readUntil]
    rw [invalidLoop, readUntil_last t ht]
    simp only [hne, Bool.false_eq_true, if_false, fromBytes_isSome, hend]
    rw [fromBytes_no_lf ht]
    have : ¬ ValidLine t := by rw [validLine_iff, fromBytes_no_lf ht]; simp
    simp [this]
  | line t rest ls ht _ ih =>
    intro fuel out hf
    obtain ⟨fuel, rfl⟩ : ∃ k, fuel = k + 1 := ⟨fuel - 1, by omega⟩
    have hf' : rest.length < fuel := by simp at hf; omega
    rw [invalidLoop]
    have hr := readUntil_line t rest ht
    rw [show (t ++ 0x0A :: rest) = t ++ LF :: rest from rfl, hr]
    have hne : (t ++ [LF]).isEmpty = false := by simp
    simp only [hne, Bool.false_eq_true, if_false, fromBytes_isSome]
    by_cases hv : ValidLine (t ++ [LF])
    · rw [if_pos ((validLine_iff _).1 hv), ih fuel out hf', List.filter_cons]
      have : decide (¬ ValidLine (t ++ [0x0A])) = false := decide_eq_false (fun h => h hv)
      rw [this]; rfl
    · rw [if_neg (fun h => hv ((validLine_iff _).2 h)), ih fuel _ hf', List.filter_cons]
      have : decide (¬ ValidLine (t ++ [0x0A])) = true := decide_eq_true hv
      rw [this]; simp [LF]

theorem invalidRun_lines {files ls} (h : AllLines files ls) : ∀ out,
    invalidRun files out = out ++ (ls.filter (fun l => decide (¬ ValidLine l))).flatten := by
  induction h with
  | nil => intro out; simp [invalidRun]
  | cons hl _ ih =>
    intro out
    rw [invalidRun, ih, invalidLoop_lines hl _ _ (by omega)]
    simp

/-! ## C32 -/

theorem concat_body_plain (c : ConcatCmd) (hu : c.unique = false) :
    c.body = fun s r => .next (ConcatCmd.emit s r) := by
  funext s r; simp [ConcatCmd.body, hu]

theorem emit_fold (rs : List ByteRecord) : ∀ (s : ConcatState),
    rs.foldl ConcatCmd.emit s = ⟨s.out ++ rs.flatMap ByteRecord.write,
      s.tee.map (· ++ rs.flatMap ByteRecord.write), s.seen⟩ := by
  induction rs with
  | nil => intro s; cases s; rename_i t _; cases t <;> simp
  | cons r rs ih =>
    intro s
    rw [List.foldl_cons, ih]
    cases s; rename_i t _
    cases t <;> simp [ConcatCmd.emit]

/-- **C32** without `--unique`: the valid records of all inputs, in order. -/
theorem C32_lossless (c : ConcatCmd) (hu : c.unique = false) (files : List (String × Bytes))
    (rs : List ByteRecord) (hi : Input files rs) :
    (∀ s, c.run files = .ok s → s.out = rs.flatMap ByteRecord.write ∧
      s.tee = if c.tee then some s.out else none) ∧
    (c.skip = true ∨ AllValid files → ∃ s, c.run files = .ok s) := by
  unfold ConcatCmd.run
  rw [concat_body_plain c hu]
  constructor
  · intro s h
    have h1 := filesLoop_ok hi h
    rw [runSteps_fold] at h1
    rw [← Option.some.inj h1, emit_fold]
    constructor
    · simp
    · cases c.tee <;> simp
  · intro hc
    rw [filesLoop_clean hi hc, runSteps_fold]
    exact ⟨_, rfl⟩

/-- **C44** every line of the input is either in the output of `invalid` or in
that of `concat --skip-invalid`, in order: the outputs are the concatenations of
the two complementary sublists of the lines. -/
theorem C44_partition (c : ConcatCmd) (hu : c.unique = false) (hs : c.skip = true)
    (files : List (String × Bytes)) :
    ∃ ls, AllLines files ls ∧ ls.flatten = files.flatMap Prod.snd ∧
      invalidRun files [] = (ls.filter (fun l => decide (¬ ValidLine l))).flatten ∧
      ∃ s, c.run files = .ok s ∧ s.out = (ls.filter (fun l => decide (ValidLine l))).flatten := by
  obtain ⟨ls, h⟩ := allLines_exists files
  refine ⟨ls, h, allLines_flatten h, by simpa using invalidRun_lines h [], ?_⟩
  obtain ⟨h1, h2⟩ := C32_lossless c hu files _ (allLines_input h)
  obtain ⟨s, hs⟩ := h2 (.inl hs)
  exact ⟨s, hs, by rw [(h1 s hs).1, filterMap_write]⟩

/-- **C44** if both outputs are non-empty lists of lines, their total number is
that of the input lines. -/
theorem C44_count (ls : List Bytes) :
    (ls.filter (fun l => decide (¬ ValidLine l))).length + (ls.filter (fun l => decide (ValidLine l))).length
      = ls.length := by
  induction ls with
  | nil => rfl
  | cons l ls ih =>
    by_cases h : ValidLine l <;> simp [h] at ih ⊢ <;> omega

/-- **C44** a line in the output of `invalid` is reported as an error by the
reader, and a line in the output of `concat` is not, wherever it is. -/
theorem C44_same_test (l : Bytes) (hl : Lines l [l]) (name : String) :
    (¬ ValidLine l ↔ ∃ e, readAll l (some name) = [.error e]) := by
  rw [readAll_lines hl]
  simp only [itemsFrom, decodeLine]
  rw [validLine_iff, ← fromBytes_isSome]
  cases h : ByteRecord.fromBytes l with
  | none => simp
  | some r => simp

/-- **C32** `concat` applied to the files of `split` writes the selected records
again, and reads every one of them. -/
theorem C32_undoes_split_partial (sp : SplitCmd) (c : ConcatCmd) (hu : c.unique = false)
    (hn : 0 < sp.chunkSize) (ht : HasBraces sp.template) (files : List (String × Bytes))
    (rs : List ByteRecord) (hi : Input files rs) (s : SplitState) (h : sp.run files = .ok s)
    (hsize : (limited sp.limit (picked sp.sel rs)).length ≤ 2 ^ 32) (name : Nat → String) :
    ∃ s', c.run (s.store.zipIdx.map (fun x => (name x.2, x.1.2))) = .ok s' ∧
      s'.out = (limited sp.limit (picked sp.sel rs)).flatMap ByteRecord.write := by
  obtain ⟨chunks, h1, h2⟩ := C31_chunks_partial sp hn ht files rs hi s h hsize
  have hline : ∀ x ∈ chunks, ∀ r ∈ x, LineRecord r := by
    intro x hx r hr
    have : r ∈ limited sp.limit (picked sp.sel rs) := by
      rw [← h1.whole]; exact List.mem_flatten.2 ⟨x, hx, hr⟩
    exact input_lineRecord hi r (List.mem_filter.1 (mem_limited this)).1
  have e : s.store.zipIdx.map (fun x => (name x.2, x.1.2)) =
      chunks.zipIdx.map (fun x => (name x.2, x.1.flatMap ByteRecord.write)) := by
    rw [h2]
    apply List.ext_getElem
    · simp [chunkFiles]
    · intro i h1 h2; simp [chunkFiles]
  have hi' := input_of_records name chunks 0 hline
  have hv := allValid_of_records name chunks 0 hline
  obtain ⟨hc1, hc2⟩ := C32_lossless c hu _ _ hi'
  obtain ⟨s', hs'⟩ := hc2 (.inr hv)
  rw [e]
  exact ⟨s', hs', by rw [(hc1 s' hs').1, h1.whole]⟩

/-- **C32** in particular `split` followed by `concat` restores a valid input
byte for byte when nothing is selected away. -/
theorem C32_restores_partial (sp : SplitCmd) (c : ConcatCmd) (hu : c.unique = false)
    (hn : 0 < sp.chunkSize) (ht : HasBraces sp.template) (files : List (String × Bytes))
    (rs : List ByteRecord) (hi : Input files rs) (s : SplitState) (h : sp.run files = .ok s)
    (hv : AllValid files) (hlim : sp.limit = 0) (hall : ∀ r ∈ rs, Picked sp.sel r.record)
    (hsize : rs.length ≤ 2 ^ 32) (name : Nat → String) :
    ∃ s', c.run (s.store.zipIdx.map (fun x => (name x.2, x.1.2))) = .ok s' ∧
      s'.out = files.flatMap Prod.snd := by
  classical
  have e : limited sp.limit (picked sp.sel rs) = rs := by
    rw [limited, if_pos hlim, picked, List.filter_eq_self]
    intro r hr; simpa using hall r hr
  obtain ⟨s', h1, h2⟩ := C32_undoes_split_partial sp c hu hn ht files rs hi s h (by rw [e]; exact hsize) name
  refine ⟨s', h1, ?_⟩
  rw [h2, e]
  obtain ⟨ls, hls⟩ := allLines_exists files
  rw [input_unique hi (allLines_input hls), filterMap_write, List.filter_eq_self.2, allLines_flatten hls]
  intro l hl
  rw [decide_eq_true_eq, validLine_iff]
  clear h h1 h2 e hall hsize hi
  induction hls with
  | nil => simp at hl
  | @cons name content ls0 fs ls1 hl0 _ ih =>
    rcases List.mem_append.1 hl with hl | hl
    · exact hv _ (List.mem_cons_self ..) ls0 hl0 l hl
    · exact ih (fun f hf => hv f (List.mem_cons_of_mem _ hf)) hl

/-! ### --unique -/

/-- the elements with a non-empty key that no earlier element has -/
def firstOf {α : Type} (key : α → Bytes) (l : List α) : List α :=
  (l.zipIdx.filter (fun x : α × Nat => decide (key x.1 ≠ [] ∧ ∀ y ∈ l.take x.2, key y ≠ key x.1))).map Prod.fst

/-- the same by recursion, after the elements `p` -/
def firstFrom {α : Type} (key : α → Bytes) (p : List α) : List α → List α
  | [] => []
  | a :: l =>
    (if key a ≠ [] ∧ key a ∉ p.map key then [a] else []) ++ firstFrom key (p ++ [a]) l

theorem firstFrom_eq {α : Type} (key : α → Bytes) : ∀ (l p : List α),
    firstFrom key p l = ((l.zipIdx p.length).filter
      (fun x : α × Nat => decide (key x.1 ≠ [] ∧ ∀ y ∈ (p ++ l).take x.2, key y ≠ key x.1))).map Prod.fst := by
  intro l
  induction l with
  | nil => intro p; rfl
  | cons a l ih =>
    intro p
    rw [firstFrom, ih, List.zipIdx_cons, List.filter_cons]
    have e1 : (p ++ a :: l).take p.length = p := by simp
    have e2 : (p ++ [a]) ++ l = p ++ a :: l := by simp
    rw [e2]
    simp only [e1, List.length_append, List.length_cons, List.length_nil, Nat.zero_add]
    have e3 : (∀ y ∈ p, key y ≠ key a) ↔ key a ∉ p.map key := by
      simp only [List.mem_map, not_exists, not_and]
    by_cases h : key a ≠ [] ∧ key a ∉ p.map key
    · have h' : decide (key a ≠ [] ∧ ∀ y ∈ p, key y ≠ key a) = true := by
        simp only [decide_eq_true_eq]; exact ⟨h.1, e3.2 h.2⟩
      rw [if_pos h, if_pos h']; rfl
    · have h' : ¬ decide (key a ≠ [] ∧ ∀ y ∈ p, key y ≠ key a) = true := by
        simp only [decide_eq_true_eq]; rw [e3]; exact h
      rw [if_neg h, if_neg h']; rfl

theorem firstFrom_nil {α : Type} (key : α → Bytes) (l : List α) : firstFrom key [] l = firstOf key l := by
  rw [firstFrom_eq]; rfl

theorem unique_run (c : ConcatCmd) (hu : c.unique = true) (key : ByteRecord → Bytes) :
    ∀ (rs p : List ByteRecord) (s : ConcatState), (∀ r ∈ rs, c.key r = some (key r)) →
    (∀ k, k ∈ s.seen ↔ k ≠ [] ∧ k ∈ p.map key) →
    ∃ s', runSteps c.body rs s = some s' ∧
      s'.out = s.out ++ (firstFrom key p rs).flatMap ByteRecord.write ∧
      s'.tee = s.tee.map (· ++ (firstFrom key p rs).flatMap ByteRecord.write) := by
  intro rs
  induction rs with
  | nil => intro p s _ _; exact ⟨s, rfl, by simp [firstFrom], by cases s.tee <;> simp [firstFrom]⟩
  | cons r rs ih =>
    intro p s hk hs
    have hkr := hk r (by simp)
    rw [runSteps, ConcatCmd.body, if_pos hu, hkr]
    dsimp only
    have hk' : ∀ r ∈ rs, c.key r = some (key r) := fun r hr => hk r (by simp [hr])
    by_cases h : key r ≠ [] ∧ key r ∉ p.map key
    · have hc : (s.seen.contains (key r) || (key r).isEmpty) = false := by
        simp only [Bool.or_eq_false_iff, List.contains_eq_mem, decide_eq_false_iff_not, hs, List.isEmpty_eq_false_iff]
        exact ⟨fun hh => h.2 hh.2, h.1⟩
      rw [hc]
      simp only [Bool.false_eq_true, if_false]
      obtain ⟨s', h1, h2, h3⟩ := ih (p ++ [r]) (ConcatCmd.emit { s with seen := key r :: s.seen } r) hk' (by
        intro k
        simp only [ConcatCmd.emit, List.mem_cons, hs, List.map_append, List.mem_append, List.map_cons,
          List.map_nil, List.not_mem_nil, or_false]
        constructor
        · rintro (rfl | h')
          · exact ⟨h.1, .inr rfl⟩
          · exact ⟨h'.1, .inl h'.2⟩
        · rintro ⟨h1, h2 | h2⟩
          · exact .inr ⟨h1, h2⟩
          · exact .inl h2)
      refine ⟨s', h1, ?_, ?_⟩
      · rw [h2, firstFrom, if_pos h]; simp [ConcatCmd.emit]
      · rw [h3, firstFrom, if_pos h]
        cases s; rename_i t _; cases t <;> simp [ConcatCmd.emit]
    · have hc : (s.seen.contains (key r) || (key r).isEmpty) = true := by
        simp only [Bool.or_eq_true, List.contains_eq_mem, decide_eq_true_eq, hs, List.isEmpty_iff]
        by_cases h0 : key r = []
        · exact .inr h0
        · exact .inl ⟨h0, Classical.byContradiction (fun h2 => h ⟨h0, h2⟩)⟩
      rw [hc]
      simp only [if_true]
      obtain ⟨s', h1, h2, h3⟩ := ih (p ++ [r]) s hk' (by
        intro k
        simp only [hs, List.map_append, List.mem_append, List.map_cons,
          List.map_nil, List.mem_cons, List.not_mem_nil, or_false]
        constructor
        · rintro h'; exact ⟨h'.1, .inl h'.2⟩
        · rintro ⟨h1, h2 | h2⟩
          · exact ⟨h1, h2⟩
          · subst h2; exact ⟨h1, Classical.byContradiction (fun h2 => h ⟨h1, h2⟩)⟩)
      refine ⟨s', h1, ?_, ?_⟩
      · rw [h2, firstFrom, if_neg h]; simp
      · rw [h3, firstFrom, if_neg h]; simp

/-- the identification number of a record: the first value of subfield `0` in a
field `003@` -/
def idnOf (r : Record) : Option Bytes :=
  ((r.filter (fun f => f.tag == bs "003@" && (f.occ == none || f.occ == some (bs "00")))).flatMap
    (fun f => (f.subfields.filter (fun s => s.code == 0x30)).map Subfield.value)).head?

theorem key_idn (c : ConcatCmd) (hs : c.strategy = .idn) (r : ByteRecord) :
    c.key r = (idnOf r.record).map c.lossy := by
  unfold ConcatCmd.key
  rw [hs, (C23_ppn c.E c.o r.record).1]
  simp only [idnOf]
  split
  · rename_i h; simp at h; simp [h]
  · rename_i h
    generalize List.head? _ = x at h
    cases x with
    | none => rfl
    | some v => exact absurd rfl (h v)

theorem run_of_steps {c : ConcatCmd} {files rs} (hi : Input files rs) (hc : c.skip = true ∨ AllValid files)
    {s'} (h : runSteps c.body rs ⟨[], if c.tee then some [] else none, []⟩ = some s') :
    c.run files = .ok s' := by
  unfold ConcatCmd.run
  rw [filesLoop_clean hi hc, h]

/-- **C32** with `--unique` by IDN: exactly the first record of each non-empty IDN
is written.
Missing: records without IDN, IDNs that are not UTF-8 (see below). -/
theorem C32_unique_idn_partial (c : ConcatCmd) (hu : c.unique = true) (hs : c.strategy = .idn)
    (hlossy : ∀ v, utf8Valid v = true → c.lossy v = v)
    (files : List (String × Bytes)) (rs : List ByteRecord) (hi : Input files rs)
    (hc : c.skip = true ∨ AllValid files)
    (hidn : ∀ r ∈ rs, ∃ v, idnOf r.record = some v ∧ utf8Valid v = true) :
    ∃ s, c.run files = .ok s ∧
      s.out = (firstOf (fun r => (idnOf r.record).getD []) rs).flatMap ByteRecord.write ∧
      s.tee = if c.tee then some s.out else none := by
  obtain ⟨s', h1, h2, h3⟩ := unique_run c hu (fun r => (idnOf r.record).getD []) rs []
    ⟨[], if c.tee then some [] else none, []⟩ (by
      intro r hr
      obtain ⟨v, hv, hu⟩ := hidn r hr
      rw [key_idn c hs, hv]; simp [hlossy v hu]) (by simp)
  refine ⟨s', run_of_steps hi hc h1, ?_, ?_⟩
  · rw [h2, firstFrom_nil]; rfl
  · rw [h3, h2]; cases c.tee <;> simp

/-- **C32** with `--unique` by checksum: exactly the first record of each checksum
is written. -/
theorem C32_unique_hash (c : ConcatCmd) (hu : c.unique = true) (hs : c.strategy = .hash)
    (hsha : ∀ b, (c.sha b).length = 32) (files : List (String × Bytes)) (rs : List ByteRecord)
    (hi : Input files rs) (hc : c.skip = true ∨ AllValid files) :
    ∃ s, c.run files = .ok s ∧
      s.out = (firstOf (fun r => c.sha r.write) rs).flatMap ByteRecord.write := by
  obtain ⟨s', h1, h2, _⟩ := unique_run c hu (fun r => (c.sha r.write).flatMap hexByte) rs []
    ⟨[], if c.tee then some [] else none, []⟩ (by
      intro r hr; simp [ConcatCmd.key, hs, ByteRecord.shaInput]) (by simp)
  refine ⟨s', run_of_steps hi hc h1, ?_⟩
  rw [h2, firstFrom_nil, List.nil_append]
  have hinj : ∀ a b : Bytes, a.flatMap hexByte = b.flatMap hexByte → a = b := by
    have hd : ∀ a b : UInt8, hexByte a = hexByte b → a = b := by
      intro a b h
      have key : ∀ x : UInt8, x < 16 → ∀ y : UInt8, y < 16 →
          (if x < 10 then 0x30 + x else 0x57 + x) = (if y < 10 then (0x30 : UInt8) + y else 0x57 + y) → x = y := by
        intro x hx y hy
        have hx' : x.toNat < 16 := by simpa [UInt8.lt_iff_toNat_lt] using hx
        have hy' : y.toNat < 16 := by simpa [UInt8.lt_iff_toNat_lt] using hy
        intro h
        apply UInt8.toNat_inj.1
        have h := congrArg UInt8.toNat h
        have e1 : x < 10 ↔ x.toNat < 10 := by simp [UInt8.lt_iff_toNat_lt]
        have e2 : y < 10 ↔ y.toNat < 10 := by simp [UInt8.lt_iff_toNat_lt]
        simp only [e1, e2] at h
        split at h <;> split at h <;> simp [UInt8.toNat_add] at h <;> omega
      simp only [hexByte, List.cons.injEq, and_true] at h
      have hm : ∀ a : UInt8, a / 16 < 16 ∧ a % 16 < 16 := by
        intro a
        have := a.toNat_lt
        simp [UInt8.lt_iff_toNat_lt]
        omega
      have h1 := key _ (hm a).1 _ (hm b).1 h.1
      have h2 := key _ (hm a).2 _ (hm b).2 h.2
      apply UInt8.toNat_inj.1
      have h1 := congrArg UInt8.toNat h1
      have h2 := congrArg UInt8.toNat h2
      simp at h1 h2
      omega
    intro a
    induction a with
    | nil =>
      intro b h
      cases b with
      | nil => rfl
      | cons y b => rw [List.flatMap_cons, List.flatMap_nil] at h; exact absurd h (by rw [hexByte]; exact List.cons_ne_nil _ _ ∘ Eq.symm)
    | cons x a ih =>
      intro b h
      cases b with
      | nil => simp [hexByte] at h
      | cons y b =>
        rw [List.flatMap_cons, List.flatMap_cons] at h
        obtain ⟨h1, h2⟩ := List.append_inj h (by simp [hexByte])
        rw [hd x y h1, ih b h2]
  congr 1
  unfold firstOf
  congr 1
  refine List.filter_congr (fun x _ => ?_)
  rw [Bool.eq_iff_iff]
  simp only [decide_eq_true_eq]
  have hne : ∀ b : Bytes, c.sha b ≠ [] := fun b h => by have := hsha b; rw [h] at this; simp at this
  have hne' : ∀ b : Bytes, (c.sha b).flatMap hexByte ≠ [] := by
    intro b h
    have := hne b
    cases hb : c.sha b with
    | nil => exact this hb
    | cons x l => rw [hb] at h; simp [hexByte] at h
  constructor
  · rintro ⟨_, h⟩; exact ⟨hne _, fun y hy he => h y hy (by rw [he])⟩
  · rintro ⟨_, h⟩; exact ⟨hne' _, fun y hy he => h y hy (hinj _ _ he)⟩

/-- **C32** is false: a record without an IDN is not ignored, the command panics. -/
theorem C32_missing_idn_false (c : ConcatCmd) (hu : c.unique = true) (hs : c.strategy = .idn)
    (files : List (String × Bytes)) (rs : List ByteRecord) (hi : Input files rs)
    (hc : c.skip = true ∨ AllValid files) (r : ByteRecord) (hr : r ∈ rs)
    (hidn : idnOf r.record = none) : c.run files = .panic := by
  unfold ConcatCmd.run
  rw [filesLoop_clean hi hc]
  have key : ∀ (rs : List ByteRecord) (s : ConcatState), r ∈ rs → runSteps c.body rs s = none := by
    intro rs
    induction rs with
    | nil => intro s h; simp at h
    | cons x rs ih =>
      intro s h
      rw [runSteps, ConcatCmd.body, if_pos hu]
      rcases List.mem_cons.1 h with rfl | h
      · rw [key_idn c hs, hidn]; rfl
      · cases c.key x with
        | none => rfl
        | some k =>
          dsimp only
          by_cases hk : (s.seen.contains k || List.isEmpty k) = true
          · rw [if_pos hk]; exact ih _ h
          · rw [if_neg hk]; exact ih _ h
  rw [key rs _ hr]

/-- **C32** is false for IDNs that are not UTF-8: different ones may have the same
key, and the second record is lost. -/
theorem C32_lossy_false (c : ConcatCmd) (hu : c.unique = true) (hs : c.strategy = .idn)
    (h1 : c.lossy [0xFF] = [0xEF, 0xBF, 0xBD]) (h2 : c.lossy [0xFE] = [0xEF, 0xBF, 0xBD])
    (htee : c.tee = false) :
    c.run [("a", bs "003@ " ++ [0x1F, 0x30, 0xFF, 0x1E, 0x0A] ++ (bs "003@ " ++ [0x1F, 0x30, 0xFE, 0x1E, 0x0A]))]
      = .ok ⟨bs "003@ " ++ [0x1F, 0x30, 0xFF, 0x1E, 0x0A], none, [[0xEF, 0xBF, 0xBD]]⟩ := by
  let x : ByteRecord := ⟨some (bs "003@ " ++ [0x1F, 0x30, 0xFF, 0x1E, 0x0A]), [⟨bs "003@", none, [⟨0x30, [0xFF]⟩]⟩]⟩
  let y : ByteRecord := ⟨some (bs "003@ " ++ [0x1F, 0x30, 0xFE, 0x1E, 0x0A]), [⟨bs "003@", none, [⟨0x30, [0xFE]⟩]⟩]⟩
  have hr : readAll (bs "003@ " ++ [0x1F, 0x30, 0xFF, 0x1E, 0x0A] ++ (bs "003@ " ++ [0x1F, 0x30, 0xFE, 0x1E, 0x0A]))
      (some "a") = [.ok x, .ok y] := by decide +kernel
  have kx : c.key x = some [0xEF, 0xBF, 0xBD] := by
    rw [key_idn c hs, show idnOf x.record = some [0xFF] by decide +kernel, Option.map_some, h1]
  have ky : c.key y = some [0xEF, 0xBF, 0xBD] := by
    rw [key_idn c hs, show idnOf y.record = some [0xFE] by decide +kernel, Option.map_some, h2]
  unfold ConcatCmd.run
  rw [filesLoop, hr]
  simp [fileLoop, ConcatCmd.body, hu, kx, ky, ConcatCmd.emit, ByteRecord.write, filesLoop, htee, x]

/-- a command for the examples; `lossy` replaces byte strings that are not UTF-8 -/
def concatSample (unique : Bool) (st : Strategy) : ConcatCmd :=
  ⟨true, unique, st, false, toyEnv, ⟨false⟩,
    fun v => if utf8Valid v then v else [0xEF, 0xBF, 0xBD], fun b => (b ++ List.replicate 32 0).take 32⟩

example : (concatSample true .idn).run [("a", recLine "1" ++ recLine "2"), ("b", bs "x" ++ [LF] ++ recLine "1" ++ recLine "3")]
    = .ok ⟨recLine "1" ++ recLine "2" ++ recLine "3", none, [bs "3", bs "2", bs "1"]⟩ := by decide +kernel
example : ((concatSample true .hash).run [("a", recLine "1" ++ recLine "2" ++ recLine "1")])
    = .ok ⟨recLine "1" ++ recLine "2", none,
      [((concatSample true .hash).sha (recLine "2")).flatMap hexByte,
       ((concatSample true .hash).sha (recLine "1")).flatMap hexByte]⟩ := by decide +kernel
/-- a record without IDN -/
example : (concatSample true .idn).run [("a", bs "012A " ++ [0x1F] ++ bs "ax" ++ [0x1E, 0x0A])] = .panic := by
  decide +kernel
example : invalidRun [("a", recLine "1" ++ bs "x" ++ [LF] ++ recLine "2" ++ bs "rest")] [] =
    bs "x" ++ [LF] ++ bs "rest" := by decide +kernel
example : (concatSample false .idn).run [("a", recLine "1" ++ bs "x" ++ [LF] ++ recLine "2" ++ bs "rest")] =
    .ok ⟨recLine "1" ++ recLine "2", none, []⟩ := by decide +kernel

/-! ## the theorems on concrete files -/

/-- two files, the second with an invalid line and a record of the first -/
def concatFiles : List (String × Bytes) :=
  [("a", recLine "1" ++ recLine "2"), ("b", bs "x" ++ [LF] ++ recLine "1" ++ recLine "3")]

example := C32_lossless (concatSample false .idn) rfl concatFiles _ (input_of _)
example := C44_partition (concatSample false .idn) rfl rfl concatFiles
example := C44_same_test (bs "x") (.last _ (by decide +kernel) (by decide +kernel)) "a"
example := C32_undoes_split_partial (splitSample "x{}") (concatSample false .idn) rfl (by decide)
  ⟨bs "x", [], by decide +kernel⟩ splitFiles _ (input_of _)
  ⟨[(bs "x0", recLine "1" ++ recLine "2"), (bs "x1", recLine "3")], 1, 3⟩ (by decide +kernel)
  (by rw [← chosen_eq_picked]; decide +kernel) (fun _ => "f")
example := C32_restores_partial (splitSample "x{}") (concatSample false .idn) rfl (by decide)
  ⟨bs "x", [], by decide +kernel⟩ splitFiles _ (input_of _)
  ⟨[(bs "x0", recLine "1" ++ recLine "2"), (bs "x1", recLine "3")], 1, 3⟩ (by decide +kernel)
  (allValid_of (by decide +kernel)) rfl (picked_of (by decide +kernel)) (by decide +kernel) (fun _ => "f")
example := C32_unique_idn_partial (concatSample true .idn) rfl rfl (fun v h => by simp [concatSample, h]) concatFiles _
  (input_of _) (.inl rfl) (by
    have h : ∀ r ∈ inputOf concatFiles, (idnOf r.record).isSome = true ∧ utf8Valid ((idnOf r.record).getD []) = true := by
      decide +kernel
    intro r hr
    obtain ⟨h1, h2⟩ := h r hr
    obtain ⟨v, hv⟩ := Option.isSome_iff_exists.1 h1
    rw [hv] at h2
    exact ⟨v, hv, h2⟩)
example := C32_unique_hash (concatSample true .hash) rfl rfl (fun b => by simp [concatSample]) concatFiles _
  (input_of _) (.inl rfl)
example := C32_missing_idn_false (concatSample true .idn) rfl rfl
  [("a", bs "012A " ++ [0x1F] ++ bs "ax" ++ [0x1E, 0x0A])] _ (input_of _) (.inl rfl)
  ⟨some (bs "012A " ++ [0x1F] ++ bs "ax" ++ [0x1E, 0x0A]), [⟨bs "012A", none, [⟨0x61, bs "x"⟩]⟩]⟩
  (by decide +kernel) (by decide +kernel)
example := C32_lossy_false (concatSample true .idn) rfl rfl (by decide +kernel) (by decide +kernel) rfl

end Pica.Props
