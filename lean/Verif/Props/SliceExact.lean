import Verif.Props.Slice
import Verif.Props.Concat

/-! # C34: what `slice --length` writes when invalid lines are skipped -/

namespace Pica.Props
open Pica Spec

open Classical in
/-- the selected records, each with the number of invalid lines before it; `e` invalid lines
come before the first line -/
noncomputable def numbered (sel : Selection) : Nat → List Bytes → List (ByteRecord × Nat)
  | _, [] => []
  | e, l :: ls =>
    match ByteRecord.fromBytes l with
    | none => numbered sel (e + 1) ls
    | some r => if Picked sel r.record then (r, e) :: numbered sel e ls else numbered sel e ls

/-! ## the loop over the lines -/

/-- the loop of a command that skips invalid lines -/
def runLines {S : Type} (onSkip : S → S) (body : S → ByteRecord → Step S) : List Bytes → S → LoopResult S
  | [], s => .ok s
  | l :: ls, s =>
    match ByteRecord.fromBytes l with
    | none => runLines onSkip body ls (onSkip s)
    | some r =>
      match body s r with
      | .next s' => runLines onSkip body ls s'
      | .stop s' => .ok s'
      | .panic => .panic

/-- what follows the end of a file -/
def FileEnd.andThen {S : Type} (k : S → LoopResult S) : FileEnd S → LoopResult S
  | .eof s => k s
  | .done r => r

theorem fileLoop_lines {S : Type} {onSkip : S → S} {body : S → ByteRecord → Step S} (ms : List Bytes)
    (src : Option String) : ∀ (ls : List Bytes) (n : Nat) (s : S),
    FileEnd.andThen (runLines onSkip body ms) (fileLoop true onSkip body (itemsFrom src n ls) s) =
      runLines onSkip body (ls ++ ms) s := by
  intro ls
  induction ls with
  | nil => intro n s; rfl
  | cons l ls ih =>
    intro n s
    rw [List.cons_append]
    simp only [itemsFrom, decodeLine, runLines]
    cases hb : ByteRecord.fromBytes l with
    | none =>
      simp only [fileLoop, ReadErr.skipParse, Bool.and_self, if_true]
      exact ih _ _
    | some r =>
      simp only [fileLoop]
      cases body s r with
      | next s' => exact ih _ _
      | stop s' => rfl
      | panic => rfl

theorem filesLoop_lines {S : Type} {onSkip : S → S} {body : S → ByteRecord → Step S}
    {files : List (String × Bytes)} {lines : List Bytes} (h : AllLines files lines) (s : S) :
    filesLoop true onSkip body files s = runLines onSkip body lines s := by
  induction h generalizing s with
  | nil => rfl
  | @cons name content ls fs ms hl _ ih =>
    rw [filesLoop, readAll_lines hl, ← fileLoop_lines ms (shownSource (some name)) ls 0 s]
    cases fileLoop true onSkip body (itemsFrom (shownSource (some name)) 0 ls) s with
    | eof s' => exact ih s'
    | done r => rfl

/-! ## the records written -/

/-- the records written from position `i` on -/
noncomputable def window (c : SliceCmd) (i e : Nat) (lines : List Bytes) : List ByteRecord :=
  ((((numbered c.sel e lines).zipIdx i).drop (c.start - i)).takeWhile
    (fun x => decide (x.2 < min (c.start + c.length + x.1.2) (2 ^ 64 - 1)))).map (fun x => x.1.1)

theorem slice_lines (c : SliceCmd) (hl : 0 < c.length) : ∀ (lines : List Bytes) (e : Nat) (s s' : SliceState),
    s.rangeEnd = min (c.start + c.length + e) (2 ^ 64 - 1) →
    c.limit = 0 ∨ s.count < c.limit →
    runLines c.onSkip (selBody c.sel.test c.act) lines s = .ok s' →
    s'.out = s.out ++ (if c.limit = 0 then window c s.i e lines
      else (window c s.i e lines).take (c.limit - s.count)).flatMap ByteRecord.write := by
  classical
  intro lines
  induction lines with
  | nil =>
    intro e s s' _ _ h
    simp only [runLines, LoopResult.ok.injEq] at h
    subst h
    simp [window, numbered]
  | cons l lines ih =>
    intro e s s' hr hc h
    rw [runLines] at h
    cases hl' : ByteRecord.fromBytes l with
    | none =>
      rw [hl'] at h
      have hskip : c.onSkip s = { s with rangeEnd := min (c.start + c.length + (e + 1)) (2 ^ 64 - 1) } := by
        unfold SliceCmd.onSkip
        by_cases hm : s.rangeEnd < 2 ^ 64 - 1
        · rw [if_pos (by simp; omega)]
          congr 1
          omega
        · rw [if_neg (by simp; omega)]
          have : min (c.start + c.length + (e + 1)) (2 ^ 64 - 1) = s.rangeEnd := by omega
          rw [this]
      have hw : window c s.i e (l :: lines) = window c s.i (e + 1) lines := by
        simp only [window, numbered, hl']
      rw [hw]
      have := ih (e + 1) (c.onSkip s) s' (by rw [hskip]) (by rw [hskip]; exact hc) h
      rw [hskip] at this
      exact this
    | some r =>
      rw [hl'] at h
      dsimp only at h
      have hp := picked_iff c.sel r
      rw [selBody] at h
      cases ht : c.sel.test r with
      | none => rw [ht] at h; simp at h
      | some b =>
        rw [ht] at h
        cases b with
        | false =>
          have hnp : ¬ Picked c.sel r.record := fun hx => by
            have := hp.2 hx; rw [ht] at this; simp at this
          have hw : window c s.i e (l :: lines) = window c s.i e lines := by
            simp only [window, numbered, hl', if_neg hnp]
          rw [hw]
          exact ih e s s' hr hc h
        | true =>
          have hpi : Picked c.sel r.record := hp.1 ht
          dsimp only at h
          rw [SliceCmd.act] at h
          have hnum : numbered c.sel e (l :: lines) = (r, e) :: numbered c.sel e lines := by
            simp only [numbered, hl', if_pos hpi]
          by_cases hin : c.start ≤ s.i ∧ s.i < s.rangeEnd
          · rw [if_pos (by simpa using hin)] at h
            have hw : window c s.i e (l :: lines) = r :: window c (s.i + 1) e lines := by
              simp only [window, hnum, List.zipIdx_cons]
              have e1 : c.start - s.i = 0 := by omega
              have e2 : c.start - (s.i + 1) = 0 := by omega
              rw [e1, e2, List.drop_zero, List.drop_zero, List.takeWhile_cons, if_pos (by simp; omega), List.map_cons]
            rw [hw]
            dsimp only at h
            by_cases hlim : c.limit > 0 ∧ s.count + 1 ≥ c.limit
            · rw [if_pos (by simpa using hlim)] at h
              simp only [LoopResult.ok.injEq] at h
              subst h
              have e1 : c.limit - s.count = 1 := by omega
              rw [if_neg (by omega), e1]
              simp
            · rw [if_neg (by simpa using hlim)] at h
              have := ih e _ s' (by simpa using hr) (by simp only; omega) h
              rw [this]
              simp only
              by_cases h0 : c.limit = 0
              · rw [if_pos h0, if_pos h0]; simp
              · rw [if_neg h0, if_neg h0]
                have e1 : c.limit - s.count = (c.limit - (s.count + 1)) + 1 := by omega
                rw [e1, List.take_succ_cons]
                simp
          · rw [if_neg (by simpa using hin)] at h
            by_cases hlt : s.i < c.start
            · rw [if_pos hlt] at h
              have hw : window c s.i e (l :: lines) = window c (s.i + 1) e lines := by
                simp only [window, hnum, List.zipIdx_cons]
                have e1 : c.start - s.i = (c.start - (s.i + 1)) + 1 := by omega
                rw [e1, List.drop_succ_cons]
              rw [hw]
              exact ih e _ s' (by simpa using hr) (by simpa using hc) h
            · rw [if_neg hlt] at h
              simp only [LoopResult.ok.injEq] at h
              subst h
              have hw : window c s.i e (l :: lines) = [] := by
                simp only [window, hnum, List.zipIdx_cons]
                have e1 : c.start - s.i = 0 := by omega
                rw [e1, List.drop_zero, List.takeWhile_cons, if_neg (by simp; omega), List.map_nil]
              rw [hw]
              simp

/-- **C34** (exactly what happens with `--length` when invalid lines are skipped) the selected records from
position `start` on are written as long as their position is smaller than `start + length` plus the number
of invalid lines before them; this sum does not exceed the largest number. -/
theorem C34_length_exact (c : SliceCmd) (hk : c.skip = true) (he : c.end = 0) (hl : 0 < c.length)
    (hw : c.start + c.length < 2 ^ 64)
    (files : List (String × Bytes)) (lines : List Bytes) (ha : AllLines files lines)
    (s : SliceState) (h : c.run files = .ok s) :
    s.out = (limited c.limit ((((numbered c.sel 0 lines).zipIdx.drop c.start).takeWhile
      (fun x => decide (x.2 < min (c.start + c.length + x.1.2) (2 ^ 64 - 1)))).map
        (fun x => x.1.1))).flatMap ByteRecord.write := by
  unfold SliceCmd.run at h
  rw [hk, filesLoop_lines ha] at h
  have := slice_lines c hl lines 0 ⟨c.rangeEnd, 0, 0, []⟩ s (by
    simp only [SliceCmd.rangeEnd]
    rw [if_neg (by omega), if_pos hl, Nat.mod_eq_of_lt (by omega)]
    omega) (by simp only; omega) h
  rw [this]
  simp only [List.nil_append, window, Nat.sub_zero]
  rfl

theorem takeWhile_length_le {α : Type} (p : α → Bool) : ∀ (n : Nat) (L : List α),
    (∀ k < n, ∀ x, L[k]? = some x → p x = true) →
    ((L.takeWhile p).length ≤ n ↔ ∀ x, L[n]? = some x → p x = false) := by
  intro n
  induction n with
  | zero =>
    intro L _
    cases L with
    | nil => simp
    | cons a L =>
      rw [List.takeWhile_cons]
      cases ha : p a <;> simp [ha]
  | succ n ih =>
    intro L h
    cases L with
    | nil => simp
    | cons a L =>
      have ha : p a = true := h 0 (by omega) a (by simp)
      rw [List.takeWhile_cons, if_pos ha, List.length_cons, List.getElem?_cons_succ]
      have := ih L (fun k hk x hx => h (k + 1) (by omega) x (by simpa using hx))
      rw [Nat.add_le_add_iff_right]
      exact this

/-- **C34** at most `length` records are written, when invalid lines are skipped, iff no invalid line comes before
the selected record at position `start + length` (or there is no such record). -/
theorem C34_length_iff (c : SliceCmd) (hk : c.skip = true) (he : c.end = 0) (hl : 0 < c.length) (h0 : c.limit = 0)
    (files : List (String × Bytes)) (lines : List Bytes) (ha : AllLines files lines)
    (hw : c.start + c.length + lines.length < 2 ^ 64 - 1) (s : SliceState) (h : c.run files = .ok s) :
    ∃ ws : List ByteRecord, ws <+: (picked c.sel (lines.filterMap ByteRecord.fromBytes)).drop c.start ∧
      s.out = ws.flatMap ByteRecord.write ∧
      (ws.length ≤ c.length ↔ ∀ x, (numbered c.sel 0 lines)[c.start + c.length]? = some x → x.2 = 0) := by
  classical
  have hn : ∀ (lines : List Bytes) (e : Nat), (numbered c.sel e lines).map Prod.fst =
      picked c.sel (lines.filterMap ByteRecord.fromBytes) := by
    intro lines
    induction lines with
    | nil => intro e; rfl
    | cons l lines ih =>
      intro e
      simp only [numbered]
      cases hb : ByteRecord.fromBytes l with
      | none => simp only [List.filterMap_cons, hb]; exact ih _
      | some r =>
        have ih := ih e
        simp only [picked] at ih ⊢
        simp only [List.filterMap_cons, hb, List.filter_cons]
        by_cases hp : Picked c.sel r.record
        · rw [if_pos hp, if_pos (by simpa using hp), List.map_cons, ih]
        · rw [if_neg hp, if_neg (by simpa using hp), ih]
  refine ⟨_, ?_, by rw [C34_length_exact c hk he hl (by omega) files lines ha s h, limited, if_pos h0], ?_⟩
  · have e1 : (numbered c.sel 0 lines).zipIdx.map (fun x => x.1.1) =
        picked c.sel (lines.filterMap ByteRecord.fromBytes) := by
      rw [← hn lines 0]
      have : (fun x : (ByteRecord × Nat) × Nat => x.1.1) = Prod.fst ∘ Prod.fst := rfl
      rw [this, ← List.map_map, List.zipIdx_map_fst]
    rw [← e1, ← List.map_drop]
    exact (List.takeWhile_prefix _).map _
  · have hget : ∀ k, ((numbered c.sel 0 lines).zipIdx.drop c.start)[k]? =
        (numbered c.sel 0 lines)[c.start + k]?.map (fun x => (x, c.start + k)) := by
      intro k
      rw [List.getElem?_drop, List.getElem?_zipIdx, Nat.zero_add]
    rw [List.length_map, takeWhile_length_le]
    · rw [hget]
      cases (numbered c.sel 0 lines)[c.start + c.length]? with
      | none => simp
      | some x =>
        simp only [Option.map_some, Option.some.injEq, decide_eq_false_iff_not]
        constructor
        · intro hx y hy
          subst hy
          have := hx _ rfl
          simp only at this
          omega
        · intro hx y hy
          subst hy
          have := hx _ rfl
          simp only
          omega
    · intro k hk' x hx
      rw [hget] at hx
      cases hx' : (numbered c.sel 0 lines)[c.start + k]? with
      | none => rw [hx'] at hx; simp at hx
      | some y =>
        rw [hx'] at hx
        simp only [Option.map_some, Option.some.injEq] at hx
        subst hx
        simp only [decide_eq_true_eq]
        omega

/-- the input of `C34_length_false`: one invalid line comes before the record at position 1, so one record too many
is written -/
example : ∃ lines, AllLines [("a", bs "x" ++ [LF] ++ recLine "1" ++ recLine "2" ++ recLine "3")] lines ∧
    lines.length = 4 := by
  have h : bs "x" ++ [LF] ++ recLine "1" ++ recLine "2" ++ recLine "3" =
      bs "x" ++ 0x0A :: ((recLine "1").dropLast ++ 0x0A :: ((recLine "2").dropLast ++ 0x0A ::
        ((recLine "3").dropLast ++ 0x0A :: []))) := by decide +kernel
  rw [h]
  have hn : ∀ x ∈ [bs "x", (recLine "1").dropLast, (recLine "2").dropLast, (recLine "3").dropLast],
      (0x0A : Byte) ∉ x := by decide +kernel
  exact ⟨_, .cons (.line _ _ _ (hn _ (by simp)) (.line _ _ _ (hn _ (by simp)) (.line _ _ _ (hn _ (by simp))
    (.line _ _ _ (hn _ (by simp)) .eof)))) .nil, by simp⟩

end Pica.Props
