import Verif.Lemmas.Utf8
import Verif.Model.Reader
import Verif.Spec.Lines

/-! The reader yields one item per line. -/

namespace Pica
open Spec

theorem readUntil_line (t rest : Bytes) (h : LF ∉ t) :
    readUntil (t ++ LF :: rest) = (t ++ [LF], rest) := by
  induction t with
  | nil => simp [readUntil]
  | cons b t ih =>
    simp at h
    have hb : (b == LF) = false := by simp [Ne.symm h.1]
    simp [readUntil, hb, ih h.2]

theorem readUntil_last (t : Bytes) (h : LF ∉ t) : readUntil t = (t, []) := by
  induction t with
  | nil => rfl
  | cons b t ih =>
    simp at h
    have hb : (b == LF) = false := by simp [Ne.symm h.1]
    simp [readUntil, hb, ih h.2]

theorem lines_exists (b : Bytes) : ∃ ls, Lines b ls := by
  suffices h : ∀ n (b : Bytes), b.length ≤ n → ∃ ls, Lines b ls from h b.length b (Nat.le_refl _)
  intro n
  induction n with
  | zero => intro b hb; simp at hb; subst hb; exact ⟨[], .eof⟩
  | succ n ih =>
    intro b hb
    by_cases hmem : LF ∈ b
    · obtain ⟨t, rest, rfl, ht⟩ := List.eq_append_cons_of_mem hmem
      obtain ⟨ls, hls⟩ := ih rest (by simp at hb; omega)
      exact ⟨_, .line t rest ls ht hls⟩
    · by_cases h0 : b = []
      · subst h0; exact ⟨[], .eof⟩
      · exact ⟨_, .last b h0 hmem⟩

theorem lines_flatten {b ls} (h : Lines b ls) : ls.flatten = b := by
  induction h with
  | eof => rfl
  | last t => simp
  | line t rest ls _ _ ih => simp [ih]

/-- decoding of a single line with number `n` -/
def decodeLine (src : Option String) (n : Nat) (l : Bytes) : Item :=
  match ByteRecord.fromBytes l with
  | some r => .ok r
  | none => .error (.parse (parseMsg n src))

theorem nextByte_nil (n : Nat) (src) :
    Reader.nextByte ⟨[], n, src⟩ = (none, ⟨[], n + 1, src⟩) := by
  simp [Reader.nextByte, readUntil]

theorem nextByte_last (t : Bytes) (h0 : t ≠ []) (h : LF ∉ t) (n src) :
    Reader.nextByte ⟨t, n, src⟩ = (some (decodeLine src (n + 1) t), ⟨[], n + 1, src⟩) := by
  unfold Reader.nextByte decodeLine
  simp only [readUntil_last t h]
  rw [if_neg (by simpa using h0)]
  split <;> simp_all

theorem nextByte_line (t rest : Bytes) (h : LF ∉ t) (n src) :
    Reader.nextByte ⟨t ++ LF :: rest, n, src⟩ =
      (some (decodeLine src (n + 1) (t ++ [LF])), ⟨rest, n + 1, src⟩) := by
  unfold Reader.nextByte decodeLine
  simp only [readUntil_line t rest h]
  rw [if_neg (by simp)]
  split <;> simp_all

theorem callNo_nil (n src k) : callNo Reader.nextByte k ⟨[], n, src⟩ = none := by
  induction k generalizing n with
  | zero => simp [callNo, nextByte_nil]
  | succ k ih => simp [callNo, nextByte_nil, ih]

theorem callNo_nextByte {b ls} (h : Lines b ls) (src : Option String) (n k : Nat) :
    callNo Reader.nextByte k ⟨b, n, src⟩ =
      (ls[k]?).map (decodeLine src (n + k + 1)) := by
  induction h generalizing n k with
  | eof => simp [callNo_nil]
  | last t h0 ht =>
    cases k with
    | zero => simp [callNo, nextByte_last t h0 ht]
    | succ k => simp [callNo, nextByte_last t h0 ht, callNo_nil]
  | line t rest ls ht _ ih =>
    cases k with
    | zero =>
      have := nextByte_line t rest ht n src
      simp only [LF] at this
      simp [callNo, this]
    | succ k =>
      have := nextByte_line t rest ht n src
      simp only [LF] at this
      simp only [callNo, this, ih, List.getElem?_cons_succ]
      congr 2; omega

/-- the items of the lines `ls` when `n` lines have been read before -/
def itemsFrom (src : Option String) : Nat → List Bytes → List Item
  | _, [] => []
  | n, l :: ls => decodeLine src (n + 1) l :: itemsFrom src (n + 1) ls

/-- a fuel-free description of all items -/
theorem collectItems_lines {b ls} (h : Lines b ls) (src : Option String) (n fuel : Nat)
    (hf : b.length < fuel) :
    collectItems Reader.nextByte fuel ⟨b, n, src⟩ = itemsFrom src n ls := by
  induction h generalizing n fuel with
  | eof =>
    cases fuel with
    | zero => simp at hf
    | succ f => simp [collectItems, nextByte_nil, itemsFrom]
  | last t h0 ht =>
    cases fuel with
    | zero => simp at hf
    | succ f =>
      have : 0 < t.length := List.length_pos_iff.2 h0
      cases f with
      | zero => omega
      | succ f => simp [collectItems, nextByte_last t h0 ht, nextByte_nil, itemsFrom]
  | line t rest ls ht _ ih =>
    cases fuel with
    | zero => simp at hf
    | succ f =>
      have h1 := nextByte_line t rest ht n src
      simp only [LF] at h1
      simp only [collectItems, h1, itemsFrom]
      rw [ih (n + 1) f (by simp at hf; omega)]

/-- the name shown for a source, reader.rs:136-137 -/
def shownSource (src : Option String) : Option String :=
  src.map (fun s => if s == "-" then "<stdin>" else s)

theorem parseMsg_none (n : Nat) :
    parseMsg n none = "invalid record on line " ++ toString n ++ "." := rfl
theorem parseMsg_some (n : Nat) (s : String) :
    parseMsg n (some s) = "invalid record on line " ++ toString n ++ " (" ++ s ++ ")." := rfl
theorem shownSource_none : shownSource none = none := rfl
theorem shownSource_stdin : shownSource (some "-") = some "<stdin>" := rfl
theorem shownSource_some {s : String} (h : s ≠ "-") : shownSource (some s) = some s := by
  unfold shownSource
  rw [Option.map_some, if_neg (by simpa using h)]

theorem readAll_lines {b ls} (h : Lines b ls) (src : Option String) :
    readAll b src = itemsFrom (shownSource src) 0 ls :=
  collectItems_lines h _ _ _ (by omega)

theorem lines_unique {b ls ls'} (h : Lines b ls) (h' : Lines b ls') : ls = ls' := by
  induction h generalizing ls' with
  | eof =>
    generalize hb : ([] : Bytes) = b at h'
    cases h' with
    | eof => rfl
    | last t h0 _ => exact absurd hb.symm h0
    | line t rest ls _ _ => simp at hb
  | last t h0 ht =>
    cases h' with
    | eof => exact absurd rfl h0
    | last _ _ _ => rfl
    | line t' rest ls ht' _ => exact absurd (by simp) ht
  | line t rest ls ht hl ih =>
    have key := readUntil_line t rest ht
    generalize hb : t ++ 0x0A :: rest = b at h'
    cases h' with
    | eof => simp at hb
    | last _ _ hn => subst hb; exact absurd (by simp) hn
    | line t' rest' ls' ht' hl' =>
      have key' := readUntil_line t' rest' ht'
      have hb' : t ++ LF :: rest = t' ++ LF :: rest' := hb
      rw [hb', key'] at key
      simp only [Prod.mk.injEq] at key
      obtain ⟨h1, h2⟩ := key
      subst h2
      have h1' : t' ++ [0x0A] = t ++ [0x0A] := h1
      rw [h1', ih hl']

/-- a line without newline is never a record -/
theorem fromBytes_no_lf {l : Bytes} (h : LF ∉ l) : Record.fromBytes l = none := by
  cases hr : Record.fromBytes l with
  | none => rfl
  | some r =>
    have := (Record.fromBytes_eq_some.1 hr).2.2
    rw [this] at h
    simp at h

theorem lines_mem {b ls} (h : Lines b ls) : ∀ l ∈ ls, LF ∉ l.dropLast ∧ l ≠ [] := by
  induction h with
  | eof => simp
  | last t h0 ht =>
    intro l hl
    simp at hl; subst hl
    exact ⟨fun hm => ht (List.dropLast_subset _ hm), h0⟩
  | line t rest ls ht _ ih =>
    intro l hl
    simp at hl
    rcases hl with rfl | hl
    · exact ⟨by rw [List.dropLast_concat]; exact ht, by simp⟩
    · exact ih l hl

theorem lines_of_list (ts : List Bytes) (h : ∀ t ∈ ts, LF ∉ t) :
    Lines (ts.flatMap (fun t => t ++ [LF])) (ts.map (fun t => t ++ [LF])) := by
  induction ts with
  | nil => exact .eof
  | cons t ts ih =>
    have := Lines.line t _ _ (h t (by simp)) (ih (fun t' h' => h t' (by simp [h'])))
    simpa [LF] using this

/-- no value of the record contains a newline -/
def NoLF (r : Record) : Prop := ∀ f ∈ r, ∀ s ∈ f.subfields, LF ∉ s.value

theorem not_mem_of_ascii_digits {o : Bytes} (h : ∀ b ∈ o, (0x30 : Byte) ≤ b ∧ b ≤ 0x39) : LF ∉ o := by
  intro hm
  have := (h LF hm).1
  exact absurd this (by decide)

theorem isTag_no_lf {t : Bytes} (h : IsTag t) : LF ∉ t := by
  obtain ⟨a, b, c, d, rfl, ha, hb, hc, hd⟩ := h
  intro hm
  simp at hm
  rcases hm with rfl | rfl | rfl | rfl
  · rcases ha with ha | ha | ha <;> exact absurd ha (by decide)
  · exact absurd hb.1 (by decide)
  · exact absurd hc.1 (by decide)
  · rcases hd with hd | hd
    · exact absurd hd.1 (by decide)
    · exact absurd hd (by decide)

theorem isCode_ne_lf {c : Byte} (h : IsCode c) : LF ≠ c := by
  rintro rfl
  rcases h with h | h | h <;> exact absurd h.1 (by decide)

/-- the only newlines before the end of a written record are in values -/
theorem lf_mem_fields {r : Record} (h : IsRecord r) :
    LF ∈ r.flatMap Field.write ↔ ¬ NoLF r := by
  unfold NoLF
  constructor
  · intro hm hno
    rw [List.mem_flatMap] at hm
    obtain ⟨f, hf, hm⟩ := hm
    obtain ⟨ht, ho, hs⟩ := h f hf
    unfold Field.write at hm
    simp only [List.append_assoc, List.mem_append] at hm
    rcases hm with hm | hm | hm | hm | hm
    · exact isTag_no_lf ht hm
    · cases hocc : f.occ with
      | none => simp [hocc, writeOcc] at hm
      | some o =>
        rw [hocc] at hm
        simp only [writeOcc, List.mem_cons] at hm
        rcases hm with hm | hm
        · exact absurd hm (by decide)
        · exact not_mem_of_ascii_digits (ho o hocc).2 hm
    · simp [LF, SP] at hm
    · rw [List.mem_flatMap] at hm
      obtain ⟨s, hs', hm⟩ := hm
      simp only [Subfield.write, List.cons_append, List.nil_append, List.mem_cons] at hm
      rcases hm with hm | hm | hm
      · exact absurd hm (by decide)
      · exact isCode_ne_lf (hs s hs').1 hm
      · exact hno f hf s hs' hm
    · simp [LF, RS] at hm
  · intro hn
    simp only [Classical.not_forall, Classical.not_not] at hn
    obtain ⟨f, hf, s, hs, hm⟩ := hn
    rw [List.mem_flatMap]
    refine ⟨f, hf, ?_⟩
    unfold Field.write
    simp only [List.append_assoc, List.mem_append]
    refine .inr (.inr (.inr (.inl ?_)))
    rw [List.mem_flatMap]
    exact ⟨s, hs, by simp [Subfield.write, hm]⟩

/-- `nextString` moves through the stream like `nextByte` -/
theorem nextString_snd (rd : Reader) : rd.nextString.2 = rd.nextByte.2 := by
  unfold Reader.nextString
  simp only
  generalize rd.nextByte = x
  obtain ⟨i, rd'⟩ := x
  cases i with
  | none => rfl
  | some i =>
    cases i with
    | error e => rfl
    | ok r => simp only; split <;> rfl

/-- what `next_string_record` makes of an item -/
def stringify (line : Nat) : Item → Item
  | .ok r =>
    match StringRecord.tryFrom r with
    | some r => .ok r
    | none => .error (.utf8 ("invalid record on line " ++ toString line ++ "."))
  | .error e => .error e

theorem nextString_fst (rd : Reader) :
    rd.nextString.1 = rd.nextByte.1.map (stringify rd.line) := by
  unfold Reader.nextString
  simp only
  generalize rd.nextByte = x
  obtain ⟨i, rd'⟩ := x
  cases i with
  | none => rfl
  | some i =>
    cases i with
    | error e => rfl
    | ok r => simp only [Option.map, stringify]; split <;> simp_all

theorem nextByte_line_no (rd : Reader) : rd.nextByte.2.line = rd.line + 1 := by
  unfold Reader.nextByte
  simp only
  split
  · rfl
  · split <;> rfl

theorem callNo_nextString (k : Nat) (rd : Reader) :
    callNo Reader.nextString k rd = (callNo Reader.nextByte k rd).map (stringify (rd.line + k)) := by
  induction k generalizing rd with
  | zero => simp [callNo, nextString_fst]
  | succ k ih =>
    simp only [callNo, nextString_snd, ih, nextByte_line_no]
    congr 2; omega

/-- `body` run over records until it stops -/
def foldUntil {S : Type} (body : S → ByteRecord → S × Bool) : List ByteRecord → S → S
  | [], s => s
  | r :: rs, s => if (body s r).2 then (body s r).1 else foldUntil body rs (body s r).1

theorem recordLoop_skip {S : Type} (body : S → ByteRecord → S × Bool) (src : Option String)
    (ls : List Bytes) (n : Nat) (s : S) :
    recordLoop true body (itemsFrom src n ls) s =
      (foldUntil body (ls.filterMap ByteRecord.fromBytes) s, none) := by
  induction ls generalizing n s with
  | nil => rfl
  | cons l ls ih =>
    rw [itemsFrom, decodeLine, List.filterMap_cons]
    cases hl : ByteRecord.fromBytes l with
    | none => simpa [recordLoop, ReadErr.skipParse] using ih (n + 1) s
    | some r =>
      simp only [recordLoop, foldUntil]
      generalize body s r = x
      obtain ⟨s', stop⟩ := x
      cases stop with
      | true => simp
      | false => simpa using ih (n + 1) s'

/-- is the line a record? -/
def validLine (l : Bytes) : Bool := (ByteRecord.fromBytes l).isSome

theorem recordLoop_strict {S : Type} (body : S → ByteRecord → S × Bool) (src : Option String)
    (ls : List Bytes) (n : Nat) (s : S) (hb : ∀ s r, (body s r).2 = false) :
    recordLoop false body (itemsFrom src n ls) s =
      (foldUntil body ((ls.takeWhile validLine).filterMap ByteRecord.fromBytes) s,
        if ls.all validLine then none
        else some (.parse (parseMsg (n + (ls.takeWhile validLine).length + 1) src))) := by
  induction ls generalizing n s with
  | nil => rfl
  | cons l ls ih =>
    rw [itemsFrom, decodeLine, List.takeWhile_cons, List.all_cons]
    cases hl : ByteRecord.fromBytes l with
    | none =>
      have : validLine l = false := by simp [validLine, hl]
      simp [recordLoop, ReadErr.skipParse, this, foldUntil]
    | some r =>
      have hv : validLine l = true := by simp [validLine, hl]
      have hbr := hb s r
      have h1 : ∀ m : Nat, n + 1 + m + 1 = n + (m + 1) + 1 := by intro m; omega
      simp only [recordLoop, hv, if_true, List.filterMap_cons, hl, foldUntil, hbr, Bool.true_and,
        List.length_cons]
      generalize hx : body s r = x at hbr
      obtain ⟨s', stop⟩ := x
      simp only at hbr
      subst hbr
      simp only [ih (n + 1) s', h1]
      simp

theorem foldUntil_collect (rs acc : List ByteRecord) :
    foldUntil (fun s r => (s ++ [r], false)) rs acc = acc ++ rs := by
  induction rs generalizing acc with
  | nil => simp [foldUntil]
  | cons r rs ih => simp [foldUntil, ih]

theorem ByteRecord.fromBytes_eq_some {b : Bytes} {x : ByteRecord} :
    ByteRecord.fromBytes b = some x ↔ Record.fromBytes b = some x.record ∧ x.raw = some b := by
  unfold ByteRecord.fromBytes
  cases h : Record.fromBytes b with
  | none => simp
  | some r =>
    obtain ⟨raw, rec⟩ := x
    simp only [Option.some.injEq, ByteRecord.mk.injEq]
    constructor
    · rintro ⟨h1, h2⟩; exact ⟨h2, h1.symm⟩
    · rintro ⟨h1, h2⟩; exact ⟨h2.symm, h1⟩

end Pica
