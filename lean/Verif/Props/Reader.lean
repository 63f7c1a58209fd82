import Verif.Lemmas.Reader
import Verif.Props.Codec

/-! C04 - C08: the record reader and string records. -/

namespace Pica.Props
open Pica Pica.Spec

/-- A two line input: a valid record and garbage without newline. -/
def twoLines : Bytes := sampleBytes ++ bs "garbage"

/-- **C04** one item per line, in order, each the decoding of that line alone;
then `None` for ever. -/
theorem C04_one_item_per_line (input : Bytes) (src : Option String) :
    ∃ ls, Lines input ls ∧ ls.flatten = input ∧ ∀ k,
      match ls[k]? with
      | none => callNo Reader.nextByte k (Reader.new input src) = none
      | some l =>
        match Record.fromBytes l with
        | some r => callNo Reader.nextByte k (Reader.new input src) = some (.ok ⟨some l, r⟩)
        | none => ∃ e, callNo Reader.nextByte k (Reader.new input src) = some (.error e) := by
  obtain ⟨ls, hls⟩ := lines_exists input
  refine ⟨ls, hls, lines_flatten hls, fun k => ?_⟩
  have h := callNo_nextByte hls (shownSource src) 0 k
  have h' : callNo Reader.nextByte k (Reader.new input src) = _ := h
  cases hk : ls[k]? with
  | none => simp only; rw [h', hk]; rfl
  | some l =>
    simp only
    rw [h', hk]
    simp only [Option.map, decodeLine, ByteRecord.fromBytes]
    cases hr : Record.fromBytes l with
    | none => simp
    | some r => simp

/-- **C04** the cutting into lines is unique. -/
theorem C04_lines_unique (input : Bytes) (ls ls' : List Bytes) (h : Lines input ls)
    (h' : Lines input ls') : ls = ls' := lines_unique h h'

/-- **C04** a non-empty rest without newline is reported as an error, after
which the reader is at its end. -/
theorem C04_unterminated (pre rest : Bytes) (src : Option String)
    (hpre : pre = [] ∨ ∃ p, pre = p ++ [LF]) (hne : rest ≠ []) (hlf : LF ∉ rest) :
    ∃ k e, callNo Reader.nextByte k (Reader.new (pre ++ rest) src) = some (.error e) ∧
      callNo Reader.nextByte (k + 1) (Reader.new (pre ++ rest) src) = none := by
  have key : ∀ (n : Nat) (pre : Bytes), pre.length ≤ n → (pre = [] ∨ ∃ p, pre = p ++ [LF]) →
      ∃ ls, Lines (pre ++ rest) (ls ++ [rest]) := by
    intro n
    induction n with
    | zero =>
      intro pre hl _
      simp at hl; subst hl
      exact ⟨[], .last rest hne hlf⟩
    | succ n ih =>
      intro pre hl hp
      rcases hp with rfl | ⟨p, rfl⟩
      · exact ⟨[], .last rest hne hlf⟩
      · obtain ⟨t, r, he, ht⟩ := List.eq_append_cons_of_mem (a := LF) (xs := p ++ [LF]) (by simp)
        have hr : r = [] ∨ ∃ q, r = q ++ [LF] := by
          rcases List.eq_nil_or_concat r with h | ⟨q, x, h⟩
          · exact .inl h
          · refine .inr ⟨q, ?_⟩
            rw [h] at he ⊢
            have : p ++ [LF] = (t ++ LF :: q) ++ [x] := by simpa using he
            have := List.append_inj_right' this rfl
            simp at this; rw [this]; simp
        obtain ⟨ls, hls⟩ := ih r (by rw [he] at hl; simp at hl; omega) hr
        refine ⟨(t ++ [LF]) :: ls, ?_⟩
        rw [he]
        have := Lines.line t _ _ ht hls
        simpa [LF] using this
  obtain ⟨ls, hls⟩ := key pre.length pre (Nat.le_refl _) hpre
  refine ⟨ls.length, .parse (parseMsg (ls.length + 1) (shownSource src)), ?_, ?_⟩
  · have h := callNo_nextByte hls (shownSource src) 0 ls.length
    have h' : callNo Reader.nextByte _ (Reader.new (pre ++ rest) src) = _ := h
    rw [h']
    simp [decodeLine, ByteRecord.fromBytes, fromBytes_no_lf hlf]
  · have h := callNo_nextByte hls (shownSource src) 0 (ls.length + 1)
    have h' : callNo Reader.nextByte _ (Reader.new (pre ++ rest) src) = _ := h
    rw [h']; simp

example : (readAll twoLines none) =
    [.ok ⟨some sampleBytes, sample⟩, .error (.parse "invalid record on line 2.")] := by
  decide +kernel

/-- **C05** (partial) written records are read back unchanged, if no value
contains a newline.  The full statement (without `NoLF`) is false, see
`C05_readback_false`. -/
theorem C05_readback_partial (rs : List Record) (src : Option String)
    (h : ∀ r ∈ rs, IsRecord r ∧ r ≠ []) (hlf : ∀ r ∈ rs, NoLF r) :
    readAll (rs.flatMap Record.write) src = rs.map (fun r => .ok ⟨some r.write, r⟩) := by
  have hl : Lines (rs.flatMap Record.write) (rs.map Record.write) := by
    have := lines_of_list (rs.map (fun r : Record => r.flatMap Field.write)) (by
      intro t ht
      simp at ht
      obtain ⟨r, hr, rfl⟩ := ht
      intro hm
      exact (lf_mem_fields (h r hr).1).1 hm (hlf r hr))
    rw [List.flatMap_map, List.map_map] at this
    have e1 : rs.flatMap Record.write = rs.flatMap (fun r => r.flatMap Field.write ++ [LF]) := by
      rw [List.flatMap_def, List.flatMap_def]
      congr 1
      exact List.map_congr_left (fun r hr => Record.write_of_ne (h r hr).2)
    have e2 : rs.map Record.write = rs.map (fun r => r.flatMap Field.write ++ [LF]) :=
      List.map_congr_left (fun r hr => Record.write_of_ne (h r hr).2)
    rw [e1, e2]; exact this
  rw [readAll_lines hl]
  clear hl hlf
  generalize shownSource src = src'
  generalize 0 = n
  induction rs generalizing n with
  | nil => rfl
  | cons r rs ih =>
    have hr := h r (by simp)
    simp only [List.map_cons, itemsFrom, decodeLine, ByteRecord.fromBytes,
      Record.fromBytes_write hr.1 hr.2]
    rw [ih (fun r hr => h r (by simp [hr]))]

/-- **C05** exact condition: records can be read back iff no value contains a
newline. -/
theorem C05_readback_iff (rs : List Record) (src : Option String)
    (h : ∀ r ∈ rs, IsRecord r ∧ r ≠ []) :
    readAll (rs.flatMap Record.write) src = rs.map (fun r => .ok ⟨some r.write, r⟩) ↔
      ∀ r ∈ rs, NoLF r := by
  refine ⟨fun heq => ?_, C05_readback_partial rs src h⟩
  obtain ⟨ls, hls⟩ := lines_exists (rs.flatMap Record.write)
  rw [readAll_lines hls] at heq
  have hmem := lines_mem hls
  clear hls
  generalize shownSource src = src' at heq
  generalize 0 = n at heq
  induction rs generalizing n ls with
  | nil => simp
  | cons r rs ih =>
    cases ls with
    | nil => simp [itemsFrom] at heq
    | cons l ls =>
      simp only [List.map_cons, itemsFrom, List.cons.injEq] at heq
      obtain ⟨h1, h2⟩ := heq
      intro r' hr'
      rw [List.mem_cons] at hr'
      rcases hr' with rfl | hr'
      · have hl : l = r'.write := by
          unfold decodeLine ByteRecord.fromBytes at h1
          cases hx : Record.fromBytes l with
          | none => simp [hx] at h1
          | some x => simp [hx] at h1; exact h1.1
        have hne := (h r' (by simp)).2
        have := (hmem l (by simp)).1
        rw [hl, Record.write_of_ne hne, List.dropLast_concat] at this
        have hi := (lf_mem_fields (h r' (by simp)).1)
        exact Classical.not_not.1 (fun hn => this (hi.2 hn))
      · exact ih (fun r hr => h r (by simp [hr])) ls (fun l hl => hmem l (by simp [hl])) _ h2 r' hr'

/-- a record with a newline in a value: `003@ \x1f0a\nb\x1e` -/
def lfRecord : Record := [⟨bs "003@", none, [⟨0x30, [0x61, 0x0A, 0x62]⟩]⟩]

/-- **C05** the full statement is false: the record is accepted by the decoder,
but not by a reader of the written file. -/
theorem C05_readback_false :
    Record.fromBytes lfRecord.write = some lfRecord ∧
    Record.new [(bs "003@", none, [('0', [0x61, 0x0A, 0x62])])] = some lfRecord ∧
    readAll ([lfRecord].flatMap Record.write) none =
      [.error (.parse "invalid record on line 1."), .error (.parse "invalid record on line 2.")] := by
  decide +kernel

example : (∀ r ∈ [sample, sample], IsRecord r ∧ r ≠ []) ∧ ∀ r ∈ [sample, sample], NoLF r := by
  have h : Record.fromBytes sampleBytes = some sample := by decide +kernel
  have h' := Record.fromBytes_eq_some.1 h
  refine ⟨?_, ?_⟩
  · intro r hr; simp at hr; subst hr; exact ⟨h'.2.1, h'.1⟩
  · intro r hr; simp at hr; subst hr; unfold NoLF; decide +kernel

/-- **C06** `next_byte_record`: the error of the `k`-th call (from 0) belongs to
the `k`-th line, and its message says `k + 1`. -/
theorem C06_byte_line_number (input : Bytes) (src : Option String) (ls : List Bytes)
    (hls : Lines input ls) (k : Nat) (e : ReadErr)
    (h : callNo Reader.nextByte k (Reader.new input src) = some (.error e)) :
    ∃ l, ls[k]? = some l ∧ Record.fromBytes l = none ∧
      (src = none → e = .parse ("invalid record on line " ++ toString (k + 1) ++ ".")) ∧
      (src = some "-" → e = .parse ("invalid record on line " ++ toString (k + 1) ++ " (<stdin>).")) ∧
      (∀ s, src = some s → s ≠ "-" →
        e = .parse ("invalid record on line " ++ toString (k + 1) ++ " (" ++ s ++ ").")) := by
  have h1 := callNo_nextByte hls (shownSource src) 0 k
  have h2 : callNo Reader.nextByte k (Reader.new input src) = _ := h1
  rw [h2] at h
  cases hk : ls[k]? with
  | none => simp [hk] at h
  | some l =>
    rw [hk] at h
    simp only [Option.map, decodeLine, ByteRecord.fromBytes, Option.some.injEq] at h
    cases hr : Record.fromBytes l with
    | some r => simp [hr] at h
    | none =>
      simp only [hr, Except.error.injEq] at h
      refine ⟨l, rfl, hr, ?_, ?_, ?_⟩
      · intro hs; rw [← h, hs, shownSource_none, parseMsg_none, Nat.zero_add]
      · intro hs; rw [← h, hs, shownSource_stdin, parseMsg_some, String.append_assoc,
          String.append_assoc, String.append_assoc, String.append_assoc, Nat.zero_add]
        congr 2
      · intro s hs hd; rw [← h, hs, shownSource_some hd, parseMsg_some, Nat.zero_add]

example : callNo Reader.nextByte 1 (Reader.new twoLines (some "a.dat")) =
    some (.error (.parse "invalid record on line 2 (a.dat).")) := by decide +kernel

/-- `003@ \x1f0\xff\x1e\n`: a record which is not UTF-8 -/
def badUtf8 : Bytes := bs "003@ " ++ [0x1F, 0x30, 0xFF, 0x1E, 0x0A]

/-- **C06** false for `next_string_record`: the first line is reported as line 0. -/
theorem C06_string_line_number_false :
    Lines badUtf8 [badUtf8] ∧
    callNo Reader.nextString 0 (Reader.new badUtf8 none) =
      some (.error (.utf8 "invalid record on line 0.")) := by
  refine ⟨?_, by decide +kernel⟩
  have := Lines.line (badUtf8.dropLast) [] [] (by decide +kernel) .eof
  have e : badUtf8.dropLast ++ [0x0A] = badUtf8 := by decide +kernel
  rw [e] at this; exact this

/-- **C06** (partial) `next_string_record`: parse errors carry the right number,
an invalid UTF-8 error of line `k + 1` carries `k`.  Missing for the full
statement: the number in the UTF-8 case, which is wrong. -/
theorem C06_string_line_number_partial (input : Bytes) (src : Option String) (ls : List Bytes)
    (hls : Lines input ls) (k : Nat) (e : ReadErr)
    (h : callNo Reader.nextString k (Reader.new input src) = some (.error e)) :
    ∃ l, ls[k]? = some l ∧
      ((Record.fromBytes l = none ∧
          callNo Reader.nextByte k (Reader.new input src) = some (.error e)) ∨
        ((Record.fromBytes l).isSome ∧ ¬ IsUtf8 l ∧
          e = .utf8 ("invalid record on line " ++ toString k ++ "."))) := by
  rw [callNo_nextString] at h
  have h1 := callNo_nextByte hls (shownSource src) 0 k
  have h2 : callNo Reader.nextByte k (Reader.new input src) = _ := h1
  rw [h2] at h ⊢
  cases hk : ls[k]? with
  | none => simp [hk] at h
  | some l =>
    rw [hk] at h
    refine ⟨l, rfl, ?_⟩
    simp only [Option.map, decodeLine, ByteRecord.fromBytes] at h ⊢
    cases hr : Record.fromBytes l with
    | none =>
      simp only [hr, stringify] at h ⊢
      exact .inl ⟨trivial, h⟩
    | some r =>
      right
      simp only [hr, stringify, StringRecord.tryFrom] at h
      refine ⟨rfl, ?_, ?_⟩
      · intro hu
        obtain ⟨_, hR, he⟩ := Record.fromBytes_eq_some.1 hr
        have hv := (utf8Valid_iff l).2 hu
        rw [he, utf8Valid_record hR, Bool.and_eq_true] at hv
        simp [hv.1] at h
      · cases hv : r.validate with
        | true => simp [hv] at h
        | false =>
          simp [hv, Reader.new] at h
          rw [← h]; simp

/-- the items of the lines, read as string records -/
def stringItems (src : Option String) : Nat → List Bytes → List Item
  | _, [] => []
  | n, l :: ls => stringify n (decodeLine src (n + 1) l) :: stringItems src (n + 1) ls

theorem nextString_eq (rd : Reader) :
    rd.nextString = (rd.nextByte.1.map (stringify rd.line), rd.nextByte.2) :=
  Prod.ext (nextString_fst rd) (nextString_snd rd)

theorem collectStrings_lines {b ls} (h : Lines b ls) (src : Option String) (n fuel : Nat)
    (hf : b.length < fuel) :
    collectItems Reader.nextString fuel ⟨b, n, src⟩ = stringItems src n ls := by
  induction h generalizing n fuel with
  | eof =>
    cases fuel with
    | zero => simp at hf
    | succ fuel => simp [collectItems, nextString_eq, nextByte_nil, stringItems]
  | last t h0 ht =>
    cases fuel with
    | zero => simp at hf
    | succ fuel =>
      have hl : 0 < t.length := List.length_pos_iff.2 h0
      cases fuel with
      | zero => omega
      | succ fuel =>
        simp [collectItems, nextString_eq, nextByte_last t h0 ht, nextByte_nil, stringItems]
  | line t rest ls ht _ ih =>
    cases fuel with
    | zero => simp at hf
    | succ fuel =>
      have e := nextByte_line t rest ht n src
      simp only [LF] at e
      simp only [collectItems, nextString_eq, e, Option.map_some, stringItems]
      rw [ih]
      simp at hf; omega

theorem stringLoop (src : Option String) (ls : List Bytes) (n : Nat) (acc : List Record) :
    (recordLoop true (fun s r => (s ++ [r.record], false)) (stringItems src n ls) acc).1 =
      acc ++ ((ls.filter (fun l => (Record.fromBytes l).isSome)).takeWhile utf8Valid).filterMap
        Record.fromBytes ∧
    ((recordLoop true (fun s r => (s ++ [r.record], false)) (stringItems src n ls) acc).2 = none ↔
      (ls.filter (fun l => (Record.fromBytes l).isSome)).all utf8Valid = true) := by
  induction ls generalizing n acc with
  | nil => simp [stringItems, recordLoop]
  | cons l ls ih =>
    rw [stringItems, List.filter_cons]
    cases hr : Record.fromBytes l with
    | none =>
      simp only [decodeLine, ByteRecord.fromBytes, hr, stringify, recordLoop, ReadErr.skipParse,
        Bool.and_self, if_true]
      simpa using ih (n + 1) acc
    | some r =>
      obtain ⟨_, hR, he⟩ := Record.fromBytes_eq_some.1 hr
      have hv : utf8Valid l = r.validate := by
        rw [he, utf8Valid_record hR, show utf8Valid [LF] = true from by decide +kernel, Bool.and_true]
      simp only [decodeLine, ByteRecord.fromBytes, hr, stringify, StringRecord.tryFrom,
        Option.isSome_some, if_true, List.takeWhile_cons, List.all_cons]
      cases hval : r.validate with
      | true =>
        have := ih (n + 1) (acc ++ [r])
        simp only [hv, hval, if_true, recordLoop, List.filterMap_cons, hr, Bool.true_and]
        simpa using this
      | false => simp [hv, hval, recordLoop, ReadErr.skipParse]

/-- **C07** with skip-invalid every record loop (whatever its body does, whenever
it stops) sees exactly the records of the valid lines, in order, and reports no
error. -/
theorem C07_skip_invalid {S : Type} (body : S → ByteRecord → S × Bool) (input : Bytes)
    (src : Option String) (ls : List Bytes) (hls : Lines input ls) (s : S) :
    recordLoop true body (readAll input src) s =
      (foldUntil body (ls.filterMap ByteRecord.fromBytes) s, none) := by
  rw [readAll_lines hls, recordLoop_skip]

/-- **C07** the delivered records themselves. -/
theorem C07_skip_invalid_records (input : Bytes) (src : Option String) (ls : List Bytes)
    (hls : Lines input ls) :
    recordLoop true (fun s r => (s ++ [r.record], false)) (readAll input src) [] =
      (ls.filterMap Record.fromBytes, none) := by
  rw [C07_skip_invalid _ _ _ _ hls]
  congr 1
  suffices h : ∀ acc : List Record,
      foldUntil (fun s r => (s ++ [r.record], false)) (ls.filterMap ByteRecord.fromBytes) acc =
        acc ++ ls.filterMap Record.fromBytes by simpa using h []
  clear hls
  induction ls with
  | nil => intro acc; simp [foldUntil]
  | cons l ls ih =>
    intro acc
    rw [List.filterMap_cons, List.filterMap_cons]
    cases hr : Record.fromBytes l with
    | none => simpa [ByteRecord.fromBytes, hr] using ih acc
    | some r => simp [ByteRecord.fromBytes, hr, foldUntil, ih]

/-- **C07** inputs with the same valid lines cannot be told apart. -/
theorem C07_independent {S : Type} (body : S → ByteRecord → S × Bool) (a b : Bytes)
    (sa sb : Option String) (la lb : List Bytes) (ha : Lines a la) (hb : Lines b lb)
    (h : la.filter (fun l => (Record.fromBytes l).isSome) =
      lb.filter (fun l => (Record.fromBytes l).isSome)) (s : S) :
    recordLoop true body (readAll a sa) s = recordLoop true body (readAll b sb) s := by
  rw [C07_skip_invalid _ _ _ _ ha, C07_skip_invalid _ _ _ _ hb]
  have key : ∀ ls : List Bytes, ls.filterMap ByteRecord.fromBytes =
      (ls.filter (fun l => (Record.fromBytes l).isSome)).filterMap ByteRecord.fromBytes := by
    intro ls
    induction ls with
    | nil => rfl
    | cons l ls ih =>
      rw [List.filterMap_cons, List.filter_cons]
      cases hr : Record.fromBytes l with
      | none => simpa [ByteRecord.fromBytes, hr] using ih
      | some r => simp [ByteRecord.fromBytes, hr, ← ih]
  rw [key la, key lb, h]

/-- **C07** without skip-invalid: the records before the first invalid line,
then an error with its number (no error if all lines are valid). -/
theorem C07_strict (input : Bytes) (ls : List Bytes) (hls : Lines input ls) :
    recordLoop false (fun s r => (s ++ [r], false)) (readAll input none) [] =
      ((ls.takeWhile (fun l => (Record.fromBytes l).isSome)).filterMap ByteRecord.fromBytes,
        if ls.all (fun l => (Record.fromBytes l).isSome) then none
        else some (.parse ("invalid record on line " ++
          toString ((ls.takeWhile (fun l => (Record.fromBytes l).isSome)).length + 1) ++ "."))) := by
  have hv : validLine = fun l => (Record.fromBytes l).isSome := by
    funext l; simp only [validLine, ByteRecord.fromBytes]; cases Record.fromBytes l <;> rfl
  rw [readAll_lines hls, recordLoop_strict _ _ _ _ _ (fun _ _ => rfl), foldUntil_collect, hv,
    shownSource_none, parseMsg_none, List.nil_append, Nat.zero_add]

/-- **C07** string records: skip-invalid skips the invalid lines, but not the
valid ones that are not UTF-8.  The records of the valid lines before the first
such line are delivered, then an error is reported; without such a line all of
them are, without error. -/
theorem C07_string (input : Bytes) (src : Option String) (ls : List Bytes) (hls : Lines input ls) :
    let valid := ls.filter (fun l => (Record.fromBytes l).isSome)
    (recordLoop true (fun s r => (s ++ [r.record], false)) (readAllStrings input src) []).1 =
      (valid.takeWhile utf8Valid).filterMap Record.fromBytes ∧
    ((recordLoop true (fun s r => (s ++ [r.record], false)) (readAllStrings input src) []).2 = none ↔
      ∀ l ∈ valid, IsUtf8 l) := by
  intro valid
  have hall : (∀ l ∈ valid, IsUtf8 l) ↔ valid.all utf8Valid = true := by
    rw [List.all_eq_true]
    exact forall_congr' fun l => forall_congr' fun _ => (utf8Valid_iff l).symm
  rw [hall]
  have key := stringLoop (shownSource src) ls 0 []
  rw [List.nil_append] at key
  have e : readAllStrings input src = stringItems (shownSource src) 0 ls :=
    collectStrings_lines hls _ _ _ (by omega)
  rw [e]
  exact key

example : (recordLoop true (fun s r => (s ++ [r.record], false))
    (readAllStrings (bs "x\n" ++ sampleBytes ++ badUtf8 ++ sampleBytes) none) []) =
    ([sample], some (.utf8 "invalid record on line 2.")) := by decide +kernel

example : recordLoop true (fun s r => (s ++ [r.record], false)) (readAll (bs "x\n" ++ twoLines) none) [] =
    ([sample], none) := by decide +kernel
example : recordLoop false (fun s r => (s ++ [r.record], false)) (readAll (bs "x\n" ++ twoLines) none) [] =
    ([], some (.parse "invalid record on line 1.")) := by decide +kernel

/-- **C08** a byte string decodes to a string record iff it decodes to a byte
record and is valid UTF-8 as a whole. -/
theorem C08_string_record_iff_utf8 (b : Bytes) (x : ByteRecord) :
    (ByteRecord.fromBytes b).bind StringRecord.tryFrom = some x ↔
      ByteRecord.fromBytes b = some x ∧ IsUtf8 b := by
  rw [← utf8Valid_iff]
  cases hb : ByteRecord.fromBytes b with
  | none => simp
  | some y =>
    obtain ⟨hr, _⟩ := ByteRecord.fromBytes_eq_some.1 hb
    obtain ⟨_, hR, he⟩ := Record.fromBytes_eq_some.1 hr
    have hv : utf8Valid b = y.record.validate := by
      rw [he, utf8Valid_record hR]; simp [utf8Valid, LF]
    simp only [Option.bind_some, StringRecord.tryFrom, Option.some.injEq, hv]
    cases y.record.validate <;> simp

/-- **C08** after any sequence of `retain`, `keep` and `discard` calls on a
string record, every value is valid UTF-8, so `to_str().unwrap()` succeeds. -/
inductive StringReach : ByteRecord → Prop
  | tryFrom {b x} : StringRecord.tryFrom b = some x → StringReach x
  | retain {x} (p) : StringReach x → StringReach (x.retain p)
  | keep {x} (ps) : StringReach x → StringReach (x.keep ps)
  | discard {x} (ps) : StringReach x → StringReach (x.discard ps)

theorem C08_values_utf8 (x : ByteRecord) (h : StringReach x) :
    ∀ f ∈ x.record, ∀ s ∈ f.subfields, IsUtf8 s.value := by
  induction h with
  | @tryFrom b x hx =>
    unfold StringRecord.tryFrom at hx
    split at hx
    · rename_i hv
      simp at hx; subst hx
      intro f hf s hs
      unfold Record.validate at hv
      rw [List.all_eq_true] at hv
      have := hv f hf
      unfold Field.validate at this
      rw [List.all_eq_true] at this
      have := this s hs
      rw [Subfield.validate_eq] at this
      exact (utf8Valid_iff _).1 this
    · simp at hx
  | retain p _ ih =>
    intro f hf
    exact ih f ((List.mem_filter.1 hf).1)
  | @keep x ps _ ih =>
    intro f hf
    unfold ByteRecord.keep at hf
    split at hf
    · exact ih f hf
    · exact ih f ((List.mem_filter.1 hf).1)
  | @discard x ps _ ih =>
    intro f hf
    unfold ByteRecord.discard at hf
    split at hf
    · exact ih f hf
    · exact ih f ((List.mem_filter.1 hf).1)

example : ∃ x, (ByteRecord.fromBytes sampleBytes).bind StringRecord.tryFrom = some x ∧
    x.record.length = 2 := ⟨⟨some sampleBytes, sample⟩, by decide +kernel⟩
/-- an accepted byte record which is no string record -/
example : (ByteRecord.fromBytes badUtf8).isSome ∧
    (ByteRecord.fromBytes badUtf8).bind StringRecord.tryFrom = none := by decide +kernel

end Pica.Props
