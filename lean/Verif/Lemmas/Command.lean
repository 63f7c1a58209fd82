import Verif.Spec.Command
import Verif.Lemmas.Reader
import Verif.Base.List

/-! Record loops. -/

namespace Pica
open Spec

/-- the body applied to a list of records; `none` is a panic -/
def runSteps {S : Type} (body : S → ByteRecord → Step S) : List ByteRecord → S → Option S
  | [], s => some s
  | r :: rs, s =>
    match body s r with
    | .next s' => runSteps body rs s'
    | .stop s' => some s'
    | .panic => none

theorem input_exists (files : List (String × Bytes)) : ∃ rs, Input files rs := by
  induction files with
  | nil => exact ⟨[], .nil⟩
  | cons f fs ih =>
    obtain ⟨rs, h⟩ := ih
    obtain ⟨ls, hls⟩ := lines_exists f.2
    exact ⟨_, .cons hls h⟩

theorem input_unique {files : List (String × Bytes)} {rs rs'} (h : Input files rs)
    (h' : Input files rs') : rs = rs' := by
  induction h generalizing rs' with
  | nil => cases h'; rfl
  | cons hl _ ih =>
    cases h' with
    | cons hl' h' => rw [lines_unique hl hl', ih h']

/-- records in a list of items -/
def okItems (is : List Item) : List ByteRecord :=
  is.filterMap (fun i => match i with | .ok r => some r | .error _ => none)

/-- how a file loop relates to the loop over the records -/
inductive Ends {S : Type} (body : S → ByteRecord → Step S) : List ByteRecord → S → FileEnd S → Prop
  | eof {s} : Ends body [] s (.eof s)
  | stop {r rs s s'} : body s r = .stop s' → Ends body (r :: rs) s (.done (.ok s'))
  | panic {r rs s} : body s r = .panic → Ends body (r :: rs) s (.done .panic)
  | next {r rs s s' x} : body s r = .next s' → Ends body rs s' x → Ends body (r :: rs) s x

theorem fileLoop_ends {S : Type} {skip : Bool} {body : S → ByteRecord → Step S} :
    ∀ (is : List Item) (s : S), (∃ e s', fileLoop skip id body is s = .done (.err e s')) ∨
      Ends body (okItems is) s (fileLoop skip id body is s) := by
  intro is
  induction is with
  | nil => intro s; exact .inr .eof
  | cons i is ih =>
    intro s
    cases i with
    | error e =>
      rw [fileLoop]
      split
      · exact ih _
      · exact .inl ⟨e, s, rfl⟩
    | ok r =>
      rw [fileLoop]
      cases hb : body s r with
      | next s' =>
        rcases ih s' with h | h
        · exact .inl h
        · exact .inr (.next hb h)
      | stop s' => exact .inr (.stop hb)
      | panic => exact .inr (.panic hb)

/-- what is left to do after a file loop -/
def endsTo {S : Type} (body : S → ByteRecord → Step S) (rs' : List ByteRecord) : FileEnd S → Option S
  | .eof s' => runSteps body rs' s'
  | .done (.ok s') => some s'
  | .done (.err _ _) => none
  | .done .panic => none

theorem ends_runSteps {S : Type} {body : S → ByteRecord → Step S} {rs s x} (h : Ends body rs s x)
    (rs' : List ByteRecord) :
    runSteps body (rs ++ rs') s = endsTo body rs' x := by
  induction h with
  | eof => rfl
  | stop h => rw [List.cons_append, runSteps, h]; rfl
  | panic h => rw [List.cons_append, runSteps, h]; rfl
  | next h _ ih => rw [List.cons_append, runSteps, h]; exact ih

theorem okItems_readAll {content : Bytes} {ls : List Bytes} (h : Lines content ls) (src : Option String) :
    okItems (readAll content src) = ls.filterMap ByteRecord.fromBytes := by
  rw [readAll_lines h]
  generalize shownSource src = x
  generalize 0 = n
  clear h
  induction ls generalizing n with
  | nil => rfl
  | cons l ls ih =>
    rw [List.filterMap_cons]
    simp only [itemsFrom, decodeLine]
    cases hb : ByteRecord.fromBytes l with
    | none => simpa [okItems, hb] using ih (n + 1)
    | some r =>
      have := ih (n + 1)
      simp only [okItems] at this ⊢
      rw [List.filterMap_cons]
      simp [hb, this]

/-- If a command ends normally, then its loop has processed the valid records. -/
theorem filesLoop_ok {S : Type} {skip : Bool} {body : S → ByteRecord → Step S}
    {files : List (String × Bytes)} {rs : List ByteRecord} (hi : Input files rs) {s s' : S}
    (h : filesLoop skip id body files s = .ok s') : runSteps body rs s = some s' := by
  induction hi generalizing s with
  | nil => simp only [filesLoop, LoopResult.ok.injEq] at h; rw [runSteps, h]
  | @cons name content ls fs rs hl _ ih =>
    rw [filesLoop] at h
    have e := okItems_readAll hl (some name)
    rcases fileLoop_ends (skip := skip) (body := body) (readAll content (some name)) s with ⟨err, s1, he⟩ | he
    · rw [he] at h; simp at h
    · rw [e] at he
      rw [ends_runSteps he]
      split at h
      · rename_i s1 hs1
        rw [hs1]; exact ih h
      · rename_i r hr
        rw [hr]; subst h; rfl

/-- Errors are skipped or do not occur. -/
def Clean (skip : Bool) (files : List (String × Bytes)) : Prop := skip = true ∨ AllValid files

theorem fileLoop_clean {S : Type} {skip : Bool} {onSkip : S → S} {body : S → ByteRecord → Step S}
    (is : List Item) (s : S)
    (h : ∀ e, Except.error e ∈ is → e.skipParse skip = true) (e : ReadErr) (s' : S) :
    fileLoop skip onSkip body is s ≠ .done (.err e s') := by
  induction is generalizing s with
  | nil => simp [fileLoop]
  | cons i is ih =>
    cases i with
    | error e' =>
      rw [fileLoop, if_pos (h e' (by simp))]
      exact ih _ (fun e he => h e (by simp [he]))
    | ok r =>
      rw [fileLoop]
      cases body s r with
      | next s1 => exact ih _ (fun e he => h e (by simp [he]))
      | stop s1 => simp
      | panic => simp

theorem itemsFrom_error {src : Option String} {n : Nat} {ls : List Bytes} {e : ReadErr}
    (h : Except.error e ∈ itemsFrom src n ls) :
    (∃ m, e = .parse m) ∧ ∃ l ∈ ls, Record.fromBytes l = none := by
  induction ls generalizing n with
  | nil => simp [itemsFrom] at h
  | cons l ls ih =>
    simp only [itemsFrom, List.mem_cons] at h
    rcases h with h | h
    · unfold decodeLine at h
      cases hb : ByteRecord.fromBytes l with
      | some r => rw [hb] at h; simp at h
      | none =>
        rw [hb] at h
        simp only [Except.error.injEq] at h
        refine ⟨⟨_, h⟩, l, by simp, ?_⟩
        unfold ByteRecord.fromBytes at hb
        cases hr : Record.fromBytes l with
        | none => rfl
        | some r => rw [hr] at hb; simp at hb
    · obtain ⟨h1, l', h2, h3⟩ := ih h
      exact ⟨h1, l', by simp [h2], h3⟩

/-- If no error ends the command, it does what the loop over the valid records does. -/
theorem filesLoop_clean {S : Type} {skip : Bool} {body : S → ByteRecord → Step S}
    {files : List (String × Bytes)} {rs : List ByteRecord} (hi : Input files rs) (hc : Clean skip files)
    (s : S) : filesLoop skip id body files s =
      match runSteps body rs s with
      | some s' => .ok s'
      | none => .panic := by
  induction hi generalizing s with
  | nil => rfl
  | @cons name content ls fs rs hl _ ih =>
    have hc' : Clean skip fs := hc.imp id (fun h f hf => h f (by simp [hf]))
    rw [filesLoop]
    have e := okItems_readAll hl (some name)
    have hno : ∀ e, Except.error e ∈ readAll content (some name) → e.skipParse skip = true := by
      intro e he
      rw [readAll_lines hl] at he
      obtain ⟨⟨m, rfl⟩, l, hl', hn⟩ := itemsFrom_error he
      rcases hc with rfl | hv
      · rfl
      · have := hv (name, content) (by simp) ls hl l hl'
        rw [hn] at this; simp at this
    rcases fileLoop_ends (skip := skip) (body := body) (readAll content (some name)) s with ⟨err, s1, he⟩ | he
    · exact absurd he (fileLoop_clean _ s hno err s1)
    · rw [e] at he
      rw [ends_runSteps he]
      cases hf : fileLoop skip id body (readAll content (some name)) s with
      | eof s' => exact ih hc' s'
      | done r =>
        cases r with
        | ok s' => rfl
        | panic => rfl
        | err e' s' => exact absurd hf (fileLoop_clean _ s hno e' s')

theorem runSteps_sel {S : Type} {test : ByteRecord → Option Bool} {act : S → ByteRecord → Step S}
    {rs : List ByteRecord} {s s' : S} (h : runSteps (selBody test act) rs s = some s') :
    runSteps act (chosen test rs) s = some s' := by
  induction rs generalizing s with
  | nil => exact h
  | cons r rs ih =>
    rw [runSteps, selBody] at h
    cases ht : test r with
    | none => rw [ht] at h; simp at h
    | some b =>
      rw [ht] at h
      cases b with
      | false =>
        have : chosen test (r :: rs) = chosen test rs := by simp [chosen, ht]
        rw [this]; exact ih h
      | true =>
        have : chosen test (r :: rs) = r :: chosen test rs := by simp [chosen, ht]
        rw [this, runSteps]
        simp only at h
        cases ha : act s r with
        | next s1 => rw [ha] at h; exact ih h
        | stop s1 => rw [ha] at h; exact h
        | panic => rw [ha] at h; simp at h

theorem runSteps_sel_total {S : Type} {test : ByteRecord → Option Bool} {act : S → ByteRecord → Step S}
    {rs : List ByteRecord} {s : S} (ht : ∀ r ∈ rs, ∃ b, test r = some b) :
    runSteps (selBody test act) rs s = runSteps act (chosen test rs) s := by
  induction rs generalizing s with
  | nil => rfl
  | cons r rs ih =>
    have ih' := fun s => ih (s := s) (fun r hr => ht r (by simp [hr]))
    obtain ⟨b, hb⟩ := ht r (by simp)
    rw [runSteps, selBody, hb]
    cases b with
    | false =>
      have : chosen test (r :: rs) = chosen test rs := by simp [chosen, hb]
      rw [this]; exact ih' s
    | true =>
      have : chosen test (r :: rs) = r :: chosen test rs := by simp [chosen, hb]
      rw [this, runSteps]
      simp only
      cases act s r with
      | next s1 => exact ih' s1
      | stop s1 => rfl
      | panic => rfl

/-- the loop with a limit, as fold over the first records -/
theorem runSteps_limit {S : Type} (limit : Nat) (g : S → ByteRecord → S) :
    ∀ (rs : List ByteRecord) (s : S) (c : Nat), limit = 0 ∨ c < limit →
    runSteps (fun (x : S × Nat) r => limitStep limit (x.2 + 1) (g x.1 r, x.2 + 1)) rs (s, c) =
      some (let l := if limit = 0 then rs else rs.take (limit - c)
            (l.foldl g s, c + l.length)) := by
  intro rs
  induction rs with
  | nil => intro s c _; simp [runSteps]
  | cons r rs ih =>
    intro s c hc
    rw [runSteps]
    unfold limitStep
    by_cases hl : limit = 0
    · subst hl
      have := ih (g s r) (c + 1) (.inl rfl)
      unfold limitStep at this
      simp only [Nat.lt_irrefl, gt_iff_lt, decide_false, Bool.false_and, Bool.false_eq_true, if_false, if_true] at this ⊢
      rw [this]; simp; omega
    · have hc' : c < limit := hc.resolve_left hl
      have hpos : limit > 0 := by omega
      have ed : decide (limit > 0) = true := by simpa using hpos
      rw [ed]
      by_cases hge : c + 1 ≥ limit
      · have e : limit - c = 1 := by omega
        simp [hge, hl, e]
      · have := ih (g s r) (c + 1) (.inr (by omega))
        unfold limitStep at this
        rw [ed] at this
        have e : limit - c = (limit - (c + 1)) + 1 := by omega
        simp only [hge, decide_false, Bool.and_false, Bool.false_eq_true, if_false]
        rw [this]
        simp only [hl, if_false, e, List.take_succ_cons, List.foldl_cons, List.length_cons,
          Option.some.injEq, Prod.mk.injEq, true_and]
        omega

/-- a record loop with selection and limit that ends without error -/
theorem selLimit_ok {S : Type} {skip : Bool} {test : ByteRecord → Option Bool} {limit : Nat}
    {g : S → ByteRecord → S} {files : List (String × Bytes)} {rs : List ByteRecord}
    (hi : Input files rs) {s : S} {st : S × Nat}
    (h : filesLoop skip id (selBody test
      (fun x r => limitStep limit (x.2 + 1) (g x.1 r, x.2 + 1))) files (s, 0) = .ok st) :
    st = ((limited limit (chosen test rs)).foldl g s, (limited limit (chosen test rs)).length) := by
  have h1 := runSteps_sel (filesLoop_ok hi h)
  rw [runSteps_limit limit g _ s 0 (by omega)] at h1
  simp only [Option.some.injEq] at h1
  rw [← h1]; simp [limited]

/-- such a loop ends without error if no line is invalid (or invalid lines are
skipped) and no test panics -/
theorem selLimit_clean {S : Type} {skip : Bool} {test : ByteRecord → Option Bool} {limit : Nat}
    {g : S → ByteRecord → S} {files : List (String × Bytes)} {rs : List ByteRecord}
    (hi : Input files rs) (hc : Clean skip files) (ht : ∀ r ∈ rs, ∃ b, test r = some b) (s : S) :
    ∃ st, filesLoop skip id (selBody test
      (fun x r => limitStep limit (x.2 + 1) (g x.1 r, x.2 + 1))) files (s, 0) = .ok st := by
  rw [filesLoop_clean hi hc, runSteps_sel_total ht, runSteps_limit limit g _ s 0 (by omega)]
  exact ⟨_, rfl⟩

theorem runSteps_fold {S : Type} (g : S → ByteRecord → S) :
    ∀ (rs : List ByteRecord) (s : S),
    runSteps (fun s r => .next (g s r)) rs s = some (rs.foldl g s) := by
  intro rs
  induction rs with
  | nil => intro s; rfl
  | cons r rs ih => intro s; rw [runSteps]; exact ih _

/-- the same without a limit -/
theorem selFold_ok {S : Type} {skip : Bool} {test : ByteRecord → Option Bool}
    {g : S → ByteRecord → S} {files : List (String × Bytes)} {rs : List ByteRecord}
    (hi : Input files rs) {s st : S}
    (h : filesLoop skip id (selBody test (fun s r => .next (g s r))) files s = .ok st) :
    st = (chosen test rs).foldl g s := by
  have h1 := runSteps_sel (filesLoop_ok hi h)
  rw [runSteps_fold] at h1
  exact (Option.some.inj h1).symm

theorem selFold_clean {S : Type} {skip : Bool} {test : ByteRecord → Option Bool}
    {g : S → ByteRecord → S} {files : List (String × Bytes)} {rs : List ByteRecord}
    (hi : Input files rs) (hc : Clean skip files) (ht : ∀ r ∈ rs, ∃ b, test r = some b) (s : S) :
    ∃ st, filesLoop skip id (selBody test (fun s r => .next (g s r))) files s = .ok st := by
  rw [filesLoop_clean hi hc, runSteps_sel_total ht, runSteps_fold]
  exact ⟨_, rfl⟩

theorem input_fromBytes {files : List (String × Bytes)} {rs : List ByteRecord} (h : Input files rs) :
    ∀ r ∈ rs, ∃ l, ByteRecord.fromBytes l = some r := by
  induction h with
  | nil => simp
  | cons _ _ ih =>
    intro r hr
    rcases List.mem_append.1 hr with hr | hr
    · obtain ⟨l, _, hl⟩ := List.mem_filterMap.1 hr
      exact ⟨l, hl⟩
    · exact ih r hr

theorem mem_limited {α : Type} {n : Nat} {l : List α} {a : α} (h : a ∈ limited n l) : a ∈ l := by
  unfold limited at h
  split at h
  · exact h
  · exact List.mem_of_mem_take h

theorem mem_chosen {test : ByteRecord → Option Bool} {rs r} :
    r ∈ chosen test rs ↔ r ∈ rs ∧ test r = some true := by simp [chosen]

theorem foldl_append_flatMap {α β : Type} (f : α → List β) :
    ∀ (l : List α) (s : List β), l.foldl (fun s a => s ++ f a) s = s ++ l.flatMap f := by
  intro l
  induction l with
  | nil => intro s; simp
  | cons a l ih => intro s; simp [ih]

theorem flatMap_congr_mem {α β : Type} {f g : α → List β} {l : List α} (h : ∀ a ∈ l, f a = g a) :
    l.flatMap f = l.flatMap g := by
  induction l with
  | nil => rfl
  | cons a l ih =>
    rw [List.flatMap_cons, List.flatMap_cons, h a (by simp), ih (fun b hb => h b (by simp [hb]))]

/-- the loop with a limit, for a state that contains the count -/
theorem runSteps_limitC {S : Type} (limit : Nat) (cnt : S → Nat) (g : S → ByteRecord → S)
    (hg : ∀ s r, cnt (g s r) = cnt s + 1) :
    ∀ (rs : List ByteRecord) (s : S), limit = 0 ∨ cnt s < limit →
    runSteps (fun s r => limitStep limit (cnt (g s r)) (g s r)) rs s =
      some ((if limit = 0 then rs else rs.take (limit - cnt s)).foldl g s) := by
  intro rs
  induction rs with
  | nil => intro s _; simp [runSteps]
  | cons r rs ih =>
    intro s hc
    rw [runSteps]
    unfold limitStep
    by_cases hl : limit = 0
    · subst hl
      have := ih (g s r) (.inl rfl)
      unfold limitStep at this
      simp only [Nat.lt_irrefl, gt_iff_lt, decide_false, Bool.false_and, Bool.false_eq_true, if_false, if_true] at this ⊢
      rw [this]; simp
    · have hc' : cnt s < limit := hc.resolve_left hl
      have hpos : limit > 0 := by omega
      have ed : decide (limit > 0) = true := by simpa using hpos
      rw [ed, hg]
      by_cases hge : cnt s + 1 ≥ limit
      · have e : limit - cnt s = 1 := by omega
        simp [hge, hl, e]
      · have := ih (g s r) (.inr (by rw [hg]; omega))
        unfold limitStep at this
        rw [ed] at this
        have e : limit - cnt s = (limit - cnt (g s r)) + 1 := by rw [hg]; omega
        simp only [hge, decide_false, Bool.and_false, Bool.false_eq_true, if_false]
        rw [this]
        simp only [hl, if_false, e, List.take_succ_cons, List.foldl_cons]

theorem selLimitC_ok {S : Type} {skip : Bool} {test : ByteRecord → Option Bool} {limit : Nat}
    {cnt : S → Nat} {g : S → ByteRecord → S} (hg : ∀ s r, cnt (g s r) = cnt s + 1)
    {files : List (String × Bytes)} {rs : List ByteRecord}
    (hi : Input files rs) {s st : S} (h0 : cnt s = 0)
    (h : filesLoop skip id (selBody test
      (fun s r => limitStep limit (cnt (g s r)) (g s r))) files s = .ok st) :
    st = (limited limit (chosen test rs)).foldl g s := by
  have h1 := runSteps_sel (filesLoop_ok hi h)
  rw [runSteps_limitC limit cnt g hg _ s (by omega)] at h1
  rw [← Option.some.inj h1, h0]; simp [limited]

theorem selLimitC_clean {S : Type} {skip : Bool} {test : ByteRecord → Option Bool} {limit : Nat}
    {cnt : S → Nat} {g : S → ByteRecord → S} (hg : ∀ s r, cnt (g s r) = cnt s + 1)
    {files : List (String × Bytes)} {rs : List ByteRecord}
    (hi : Input files rs) (hc : Clean skip files) (ht : ∀ r ∈ rs, ∃ b, test r = some b)
    (s : S) (h0 : cnt s = 0) :
    ∃ st, filesLoop skip id (selBody test
      (fun s r => limitStep limit (cnt (g s r)) (g s r))) files s = .ok st := by
  rw [filesLoop_clean hi hc, runSteps_sel_total ht, runSteps_limitC limit cnt g hg _ s (by omega)]
  exact ⟨_, rfl⟩

/-- a record read from a terminated line -/
def LineRecord (r : ByteRecord) : Prop :=
  ∃ t, LF ∉ t ∧ ByteRecord.fromBytes (t ++ [LF]) = some r ∧ r.write = t ++ [LF]

theorem lineRecord_of_line {l : Bytes} {r : ByteRecord} (h : ByteRecord.fromBytes l = some r)
    (hl : LF ∉ l.dropLast) (hne : l ≠ []) : LineRecord r := by
  obtain ⟨h1, h2⟩ := ByteRecord.fromBytes_eq_some.1 h
  have hlast : l = l.dropLast ++ [LF] := by
    apply Classical.byContradiction
    intro hn
    have hx : ∃ x, l = l.dropLast ++ [x] := by
      rcases List.eq_nil_or_concat l with h | ⟨u, b, rfl⟩
      · exact absurd h hne
      · exact ⟨b, by simp⟩
    obtain ⟨x, hx⟩ := hx
    have : LF ∉ l := by
      rw [hx]
      simp only [List.mem_append, List.mem_singleton, not_or]
      exact ⟨hl, fun he => hn (by rw [he]; exact hx)⟩
    rw [fromBytes_no_lf this] at h1
    simp at h1
  refine ⟨l.dropLast, hl, by rw [← hlast]; exact h, ?_⟩
  rw [← hlast, ByteRecord.write, h2]

theorem input_lineRecord {files : List (String × Bytes)} {rs : List ByteRecord} (h : Input files rs) :
    ∀ r ∈ rs, LineRecord r := by
  induction h with
  | nil => simp
  | cons hl _ ih =>
    intro r hr
    rcases List.mem_append.1 hr with hr | hr
    · obtain ⟨l, hm, hb⟩ := List.mem_filterMap.1 hr
      obtain ⟨h1, h2⟩ := lines_mem hl l hm
      exact lineRecord_of_line hb h1 h2
    · exact ih r hr

theorem lines_of_records {rs : List ByteRecord} (h : ∀ r ∈ rs, LineRecord r) :
    Lines (rs.flatMap ByteRecord.write) (rs.map ByteRecord.write) ∧
    (rs.map ByteRecord.write).filterMap ByteRecord.fromBytes = rs := by
  induction rs with
  | nil => exact ⟨.eof, rfl⟩
  | cons r rs ih =>
    obtain ⟨h1, h2⟩ := ih (fun r hr => h r (by simp [hr]))
    obtain ⟨t, ht, hb, hw⟩ := h r (by simp)
    constructor
    · rw [List.flatMap_cons, List.map_cons, hw]
      have := Lines.line t _ _ ht h1
      simpa [LF] using this
    · rw [List.map_cons, List.filterMap_cons, hw, hb, h2]

/-- files made of records that have been read contain these records -/
theorem input_of_records (name : Nat → String) (chunks : List (List ByteRecord)) (n : Nat)
    (h : ∀ c ∈ chunks, ∀ r ∈ c, LineRecord r) :
    Input ((chunks.zipIdx n).map (fun x => (name x.2, x.1.flatMap ByteRecord.write))) chunks.flatten := by
  induction chunks generalizing n with
  | nil => exact .nil
  | cons c cs ih =>
    rw [List.zipIdx_cons, List.map_cons, List.flatten_cons]
    obtain ⟨h1, h2⟩ := lines_of_records (h c (by simp))
    have := Input.cons (name := name n) h1 (ih (n + 1) (fun c hc => h c (by simp [hc])))
    rw [h2] at this
    exact this

/-- such files are entirely valid -/
theorem allValid_of_records (name : Nat → String) (chunks : List (List ByteRecord)) (n : Nat)
    (h : ∀ c ∈ chunks, ∀ r ∈ c, LineRecord r) :
    AllValid ((chunks.zipIdx n).map (fun x => (name x.2, x.1.flatMap ByteRecord.write))) := by
  intro f hf ls hls l hl
  obtain ⟨⟨c, i⟩, hm, rfl⟩ := List.mem_map.1 hf
  have hc : c ∈ chunks := by
    have := List.mem_zipIdx hm
    rw [this.2.2]; exact List.getElem_mem _
  obtain ⟨h1, _⟩ := lines_of_records (h c hc)
  rw [lines_unique hls h1] at hl
  obtain ⟨r, hr, rfl⟩ := List.mem_map.1 hl
  obtain ⟨t, _, hb, hw⟩ := h c hc r hr
  rw [hw]
  have := (ByteRecord.fromBytes_eq_some.1 hb).1
  rw [this]; rfl

/-- number of errors in a list of items -/
def errItems (is : List Item) : Nat :=
  (is.filter (fun i => match i with | .ok _ => false | .error _ => true)).length

/-- an invariant of a file loop, relating the state to the number of skipped
errors and the records seen; `Q` holds when the loop has been left -/
theorem fileLoop_inv {S : Type} {skip : Bool} {onSkip : S → S} {body : S → ByteRecord → Step S}
    (P Q : Nat → List ByteRecord → S → Prop)
    (hskip : ∀ k rs s, P k rs s → P (k + 1) rs (onSkip s))
    (hnext : ∀ k rs s r s', P k rs s → body s r = .next s' → P k (rs ++ [r]) s')
    (hstop : ∀ k rs s r s', P k rs s → body s r = .stop s' → Q k (rs ++ [r]) s') :
    ∀ (is : List Item) (k : Nat) (rs : List ByteRecord) (s : S), P k rs s →
    (∀ s', fileLoop skip onSkip body is s = .eof s' → P (k + errItems is) (rs ++ okItems is) s') ∧
    (∀ s', fileLoop skip onSkip body is s = .done (.ok s') →
      ∃ k' rs', k' ≤ k + errItems is ∧ rs' <+: okItems is ∧ Q k' (rs ++ rs') s') := by
  intro is
  induction is with
  | nil =>
    intro k rs s h
    constructor
    · intro s' he; cases he; simpa [errItems, okItems] using h
    · intro s' he; simp [fileLoop] at he
  | cons i is ih =>
    intro k rs s h
    cases i with
    | error e =>
      have e1 : errItems (.error e :: is) = errItems is + 1 := by simp [errItems]
      have e2 : okItems (.error e :: is) = okItems is := by simp [okItems]
      rw [fileLoop, e1, e2]
      split
      · obtain ⟨h1, h2⟩ := ih _ _ _ (hskip k rs s h)
        constructor
        · intro s' hs
          have := h1 s' hs
          rw [show k + (errItems is + 1) = k + 1 + errItems is by omega]; exact this
        · intro s' hs
          obtain ⟨k', rs', hk, hp⟩ := h2 s' hs
          exact ⟨k', rs', by omega, hp⟩
      · exact ⟨fun s' hs => by simp at hs, fun s' hs => by simp at hs⟩
    | ok r =>
      have e1 : errItems (.ok r :: is) = errItems is := by simp [errItems]
      have e2 : okItems (.ok r :: is) = r :: okItems is := by simp [okItems]
      rw [fileLoop, e1, e2]
      cases hb : body s r with
      | next s1 =>
        obtain ⟨h1, h2⟩ := ih _ _ _ (hnext k rs s r s1 h hb)
        constructor
        · intro s' hs
          have := h1 s' hs
          rw [List.append_assoc] at this; exact this
        · intro s' hs
          obtain ⟨k', rs', hk, hp, hP⟩ := h2 s' hs
          rw [List.append_assoc] at hP
          exact ⟨k', r :: rs', hk, by obtain ⟨t, ht⟩ := hp; exact ⟨t, by rw [← ht]; rfl⟩, hP⟩
      | stop s1 =>
        constructor
        · intro s' hs; simp at hs
        · intro s' hs
          simp only [FileEnd.done.injEq, LoopResult.ok.injEq] at hs
          subst hs
          exact ⟨k, [r], by omega, ⟨okItems is, rfl⟩, hstop k rs s r s1 h hb⟩
      | panic => exact ⟨fun s' hs => by simp at hs, fun s' hs => by simp at hs⟩

/-- the number of invalid lines of the files -/
inductive InvalidCount : List (String × Bytes) → Nat → Prop
  | nil : InvalidCount [] 0
  | cons {name content ls fs n} : Lines content ls → InvalidCount fs n →
      InvalidCount ((name, content) :: fs)
        ((ls.filter (fun l => (Record.fromBytes l).isNone)).length + n)

theorem errItems_readAll {content : Bytes} {ls : List Bytes} (h : Lines content ls) (src : Option String) :
    errItems (readAll content src) = (ls.filter (fun l => (Record.fromBytes l).isNone)).length := by
  rw [readAll_lines h]
  generalize shownSource src = x
  generalize 0 = n
  clear h
  induction ls generalizing n with
  | nil => rfl
  | cons l ls ih =>
    have hb : (ByteRecord.fromBytes l).isNone = (Record.fromBytes l).isNone := by
      unfold ByteRecord.fromBytes; cases Record.fromBytes l <;> rfl
    have ih := ih (n + 1)
    rw [List.filter_cons, ← hb]
    simp only [itemsFrom, decodeLine]
    cases hf : ByteRecord.fromBytes l with
    | none =>
      simp only [errItems] at ih ⊢
      rw [List.filter_cons]
      simp [ih]
    | some r =>
      simp only [errItems] at ih ⊢
      rw [List.filter_cons]
      simp [ih]

/-- the same for all files -/
theorem filesLoop_inv {S : Type} {skip : Bool} {onSkip : S → S} {body : S → ByteRecord → Step S}
    (P Q : Nat → List ByteRecord → S → Prop)
    (hskip : ∀ k rs s, P k rs s → P (k + 1) rs (onSkip s))
    (hnext : ∀ k rs s r s', P k rs s → body s r = .next s' → P k (rs ++ [r]) s')
    (hstop : ∀ k rs s r s', P k rs s → body s r = .stop s' → Q k (rs ++ [r]) s')
    (hPQ : ∀ k rs s, P k rs s → Q k rs s)
    {files rs n} (hi : Input files rs) (hn : InvalidCount files n) :
    ∀ (k : Nat) (done : List ByteRecord) (s s' : S), P k done s →
    filesLoop skip onSkip body files s = .ok s' →
    ∃ k' rs', k' ≤ k + n ∧ rs' <+: rs ∧ Q k' (done ++ rs') s' := by
  induction hi generalizing n with
  | nil =>
    intro k done s s' h hs
    simp only [filesLoop, LoopResult.ok.injEq] at hs
    subst hs
    exact ⟨k, [], by omega, List.prefix_rfl, by simpa using hPQ _ _ _ h⟩
  | @cons name content ls fs rs hl _ ih =>
    intro k done s s' h hs
    cases hn with
    | @cons _ _ ls' _ n' hl' hn' =>
    obtain rfl := lines_unique hl' hl
    rw [filesLoop] at hs
    obtain ⟨h1, h2⟩ := fileLoop_inv (skip := skip) P Q hskip hnext hstop (readAll content (some name)) k done s h
    rw [okItems_readAll hl, errItems_readAll hl] at h1 h2
    cases hf : fileLoop skip onSkip body (readAll content (some name)) s with
    | eof s1 =>
      rw [hf] at hs
      obtain ⟨k', rs', hk, hp, hP⟩ := ih hn' _ _ _ _ (h1 s1 hf) hs
      refine ⟨k', ls'.filterMap ByteRecord.fromBytes ++ rs', by omega, ?_, ?_⟩
      · exact (List.prefix_append_right_inj _).2 hp
      · rw [← List.append_assoc]; exact hP
    | done x =>
      rw [hf] at hs
      subst hs
      obtain ⟨k', rs', hk, hp, hP⟩ := h2 s' hf
      exact ⟨k', rs', by omega, hp.trans (List.prefix_append _ _), hP⟩

/-- what happens with skipped errors is irrelevant if there are none -/
theorem filesLoop_onSkip {S : Type} {skip : Bool} {onSkip : S → S} {body : S → ByteRecord → Step S}
    {files : List (String × Bytes)} (h : skip = false ∨ AllValid files) (s : S) :
    filesLoop skip onSkip body files s = filesLoop skip id body files s := by
  have key : ∀ (is : List Item) (s : S), (∀ e, Except.error e ∈ is → e.skipParse skip = false) →
      fileLoop skip onSkip body is s = fileLoop skip id body is s := by
    intro is
    induction is with
    | nil => intro s _; rfl
    | cons i is ih =>
      intro s hs
      cases i with
      | error e =>
        have := hs e (by simp)
        rw [fileLoop, fileLoop, this]; rfl
      | ok r =>
        rw [fileLoop, fileLoop]
        cases body s r with
        | next s1 => exact ih s1 (fun e he => hs e (by simp [he]))
        | stop s1 => rfl
        | panic => rfl
  induction files generalizing s with
  | nil => rfl
  | cons f fs ih =>
    obtain ⟨name, content⟩ := f
    obtain ⟨ls, hl⟩ := lines_exists content
    have hfs : skip = false ∨ AllValid fs := h.imp id (fun h f hf => h f (by simp [hf]))
    rw [filesLoop, filesLoop, key]
    · cases fileLoop skip id body (readAll content (some name)) s with
      | eof s1 => exact ih hfs s1
      | done r => rfl
    · intro e he
      rw [readAll_lines hl] at he
      obtain ⟨⟨m, rfl⟩, l, hl', hn⟩ := itemsFrom_error he
      rcases h with rfl | hv
      · rfl
      · have := hv (name, content) (by simp) ls hl l hl'
        rw [hn] at this; simp at this

theorem runSteps_result {S X : Type} (limit : Nat) (cnt : S → Nat) (f : ByteRecord → Option X)
    (g : S → X → S) (hg : ∀ s x, cnt (g s x) = cnt s + 1) :
    ∀ (rs : List ByteRecord) (s : S), limit = 0 ∨ cnt s < limit →
    (∀ s', runSteps (resultBody limit cnt f g) rs s = some s' →
      ∃ xs, All2 (fun r x => f r = some x) (if limit = 0 then rs else rs.take (limit - cnt s)) xs ∧
        s' = xs.foldl g s) ∧
    ((∀ r ∈ rs, (f r).isSome) → ∃ s', runSteps (resultBody limit cnt f g) rs s = some s') := by
  intro rs
  induction rs with
  | nil =>
    intro s _
    refine ⟨fun s' h => ⟨[], by simp; exact .nil, ?_⟩, fun _ => ⟨s, rfl⟩⟩
    simp only [runSteps, Option.some.injEq] at h
    exact h.symm
  | cons r rs ih =>
    intro s hc
    rw [runSteps, resultBody]
    cases hf : f r with
    | none =>
      refine ⟨fun s' h => by simp at h, fun h => ?_⟩
      have := h r (by simp)
      rw [hf] at this; simp at this
    | some x =>
      dsimp only
      rw [limitStep, hg]
      by_cases hl : limit > 0 ∧ cnt s + 1 ≥ limit
      · rw [if_pos (by simpa using hl)]
        dsimp only
        refine ⟨fun s' h => ⟨[x], ?_, ?_⟩, fun _ => ⟨_, rfl⟩⟩
        · have e : limit - cnt s = 1 := by omega
          rw [if_neg (by omega), e]
          exact .cons hf .nil
        · simp only [Option.some.injEq] at h; exact h.symm
      · rw [if_neg (by simpa using hl)]
        dsimp only
        obtain ⟨h1, h2⟩ := ih (g s x) (by rw [hg]; omega)
        refine ⟨fun s' h => ?_, fun h => h2 (fun r hr => h r (by simp [hr]))⟩
        obtain ⟨xs, h3, h4⟩ := h1 s' h
        refine ⟨x :: xs, ?_, h4⟩
        rw [hg] at h3
        by_cases h0 : limit = 0
        · rw [if_pos h0] at h3 ⊢; exact .cons hf h3
        · rw [if_neg h0] at h3 ⊢
          rw [show limit - cnt s = (limit - (cnt s + 1)) + 1 by omega, List.take_succ_cons]
          exact .cons hf h3

theorem result_ok {S X : Type} {skip : Bool} {test : ByteRecord → Option Bool} {limit : Nat}
    {cnt : S → Nat} {f : ByteRecord → Option X} {g : S → X → S} (hg : ∀ s x, cnt (g s x) = cnt s + 1)
    {files : List (String × Bytes)} {rs : List ByteRecord}
    (hi : Input files rs) {s st : S} (h0 : cnt s = 0)
    (h : filesLoop skip id (selBody test (resultBody limit cnt f g)) files s = .ok st) :
    ∃ xs, All2 (fun r x => f r = some x) (limited limit (chosen test rs)) xs ∧ st = xs.foldl g s := by
  obtain ⟨xs, h1, h2⟩ := (runSteps_result limit cnt f g hg _ s (by omega)).1 _ (runSteps_sel (filesLoop_ok hi h))
  rw [h0, Nat.sub_zero] at h1
  exact ⟨xs, h1, h2⟩

theorem result_clean {S X : Type} {skip : Bool} {test : ByteRecord → Option Bool} {limit : Nat}
    {cnt : S → Nat} {f : ByteRecord → Option X} {g : S → X → S} (hg : ∀ s x, cnt (g s x) = cnt s + 1)
    {files : List (String × Bytes)} {rs : List ByteRecord}
    (hi : Input files rs) (hc : Clean skip files) (ht : ∀ r ∈ rs, ∃ b, test r = some b)
    (hf : ∀ r ∈ rs, (f r).isSome) (s : S) (h0 : cnt s = 0) :
    ∃ st, filesLoop skip id (selBody test (resultBody limit cnt f g)) files s = .ok st := by
  obtain ⟨s', hs⟩ := (runSteps_result limit cnt f g hg (chosen test rs) s (by omega)).2
    (fun r hr => hf r (mem_chosen.1 hr).1)
  rw [filesLoop_clean hi hc, runSteps_sel_total ht, hs]
  exact ⟨_, rfl⟩

end Pica
