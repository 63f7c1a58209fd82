import Verif.Lemmas.Stream
import Verif.Props.Errors

/-!
# C72: inputs that come in pieces and may fail
-/

namespace Pica.Props
open Pica Pica.Spec

/-- **C72** The sources always bring something: contents and possibly a failure. -/
theorem C72_arrives (srcs : List Source)
    (h : ∀ name es, (name, Except.ok es) ∈ srcs → ∀ b, ReadEvent.data b ∈ es → b ≠ []) :
    ∃ files f, Arrives srcs files f := arrives_exists srcs h

theorem delivers_unique {es : List ReadEvent} {c c' : Bytes} {f f' : Option IoKind} (h : Delivers es c f)
    (h' : Delivers es c' f') : c = c' ∧ f = f' := by
  induction h generalizing c' f' with
  | eof => cases h'; exact ⟨rfl, rfl⟩
  | data b es c f _ _ ih =>
    cases h' with
    | data _ _ c2 _ _ hd => exact ⟨by rw [(ih hd).1], (ih hd).2⟩
  | interrupted es c f _ ih => cases h' with | interrupted _ _ _ hd => exact ih hd
  | fail k es => cases h'; exact ⟨rfl, rfl⟩

theorem whole_unique {w p w' p' : Bytes} (h : w ++ p = w' ++ p') (hw : WholeLines w) (hw' : WholeLines w')
    (hp : LF ∉ p) (hp' : LF ∉ p') : w = w' := by
  have key : ∀ {w p w' p' : Bytes} (a : Bytes), WholeLines w' → LF ∉ p → w' = w ++ a → p = a ++ p' → a = [] := by
    intro w p w' p' a hw' hp h1 h2
    rcases nil_or_snoc' a with rfl | ⟨a', x, rfl⟩
    · rfl
    · rcases hw' with rfl | ⟨t, rfl⟩
      · simp at h1
      · rw [← List.append_assoc] at h1
        have hx := (List.append_inj' h1 rfl).2
        rw [h2, ← hx] at hp
        simp [LF] at hp
  rcases List.append_eq_append_iff.1 h with ⟨a, h1, h2⟩ | ⟨a, h1, h2⟩
  · have := key a hw' hp h1 h2
    rw [h1, this, List.append_nil]
  · have := key a hw hp' h1 h2
    rw [h1, this, List.append_nil]

/-- **C72** What they bring is determined: it does not depend on anything else. -/
theorem C72_arrives_unique {srcs : List Source} {files files' : List (String × Bytes)} {f f' : Option RunError}
    (h : Arrives srcs files f) (h' : Arrives srcs files' f') : files = files' ∧ f = f' := by
  induction h generalizing files' f' with
  | nil => cases h'; exact ⟨rfl, rfl⟩
  | file name es c srcs files f hd _ ih =>
    cases h' with
    | file _ _ c' _ _ _ hd' h2 =>
      obtain ⟨rfl, rfl⟩ := ih h2
      rw [(delivers_unique hd hd').1]; exact ⟨rfl, rfl⟩
    | broken _ _ _ _ _ _ hd' => exact absurd (delivers_unique hd hd').2 (by simp)
  | broken name es w p k srcs hd hw hp =>
    cases h' with
    | file _ _ c' _ _ _ hd' h2 => exact absurd (delivers_unique hd hd').2 (by simp)
    | broken _ _ w' p' k' _ hd' hw' hp' =>
      obtain ⟨h1, h2⟩ := delivers_unique hd hd'
      rw [whole_unique h1 hw hw' hp hp']
      rw [Option.some.injEq] at h2
      rw [h2]; exact ⟨rfl, rfl⟩
  | closed name k srcs => cases h'; exact ⟨rfl, rfl⟩

/-- the record loop of a command on inputs that do not fail -/
def state {S O : Type} (c : CmdLoop S O) (files : List (String × Bytes)) : LoopResult S :=
  filesLoop c.skip c.onSkip c.body files c.init

/-- `Ends c full`: on whatever arrives, the command does what it does with files of
these contents; then a failure ends it with this error, whether or not invalid
records are skipped, unless it has ended before: by an invalid line, by a panic, or
because it needs no more input (`full`) -/
def Ends {S O : Type} (c : CmdLoop S O) (full : S → Prop) : Prop :=
  ∀ srcs files f, Arrives srcs files f →
    (∀ s, state c files = .ok s →
      (f = none ∨ full s → c.runSources srcs = c.finished s) ∧
      (∀ e, f = some e → ¬ full s → c.runSources srcs = .err e (c.part s))) ∧
    (∀ e s, state c files = .err e s → c.runSources srcs = .err (.record e) (c.part s)) ∧
    (state c files = .panic → c.runSources srcs = .panic)

theorem filesEnd_two {S : Type} {skip : Bool} {onSkip : S → S} {body : S → ByteRecord → Step S} (P Q : S → Prop)
    (hskip : ∀ s, P s → P (onSkip s)) (hnext : ∀ s r s', body s r = .next s' → P s → P s')
    (hstop : ∀ s r s', body s r = .stop s' → Q s') :
    ∀ (files : List (String × Bytes)) (s : S), P s →
      (∀ s', filesEnd skip onSkip body files s = .eof s' → P s') ∧
      (∀ s', filesEnd skip onSkip body files s = .done (.ok s') → Q s') := by
  have one : ∀ (is : List Item) (s : S), P s →
      (∀ s', fileLoop skip onSkip body is s = .eof s' → P s') ∧
      (∀ s', fileLoop skip onSkip body is s = .done (.ok s') → Q s') := by
    intro is
    induction is with
    | nil => intro s h; exact ⟨fun s' e => by cases e; exact h, fun s' e => by cases e⟩
    | cons i is ih =>
      intro s h
      cases i with
      | error e =>
        simp only [fileLoop]
        split
        · exact ih _ (hskip s h)
        · exact ⟨fun s' e => (by cases e), fun s' e => by cases e⟩
      | ok r =>
        simp only [fileLoop]
        cases hb : body s r with
        | next s1 => exact ih s1 (hnext s r s1 hb h)
        | stop s1 => exact ⟨fun s' e => (by cases e), fun s' e => by cases e; exact hstop s r _ hb⟩
        | panic => exact ⟨fun s' e => (by cases e), fun s' e => by cases e⟩
  intro files
  induction files with
  | nil => intro s h; exact ⟨fun s' e => by cases e; exact h, fun s' e => by cases e⟩
  | cons x files ih =>
    intro s h
    obtain ⟨name, content⟩ := x
    rw [filesEnd]
    obtain ⟨h1, h2⟩ := one (readAll content (some name)) s h
    cases hf : fileLoop skip onSkip body (readAll content (some name)) s with
    | eof s1 => exact ih s1 (h1 s1 hf)
    | done r => exact ⟨fun s' e => (by cases e), fun s' e => by cases e; exact h2 _ hf⟩

theorem ends_of {S O : Type} (c : CmdLoop S O) (full : S → Prop)
    (hskip : ∀ s, ¬ full s → ¬ full (c.onSkip s)) (hnext : ∀ s r s', c.body s r = .next s' → ¬ full s → ¬ full s')
    (hstop : ∀ s r s', c.body s r = .stop s' → full s') (h0 : ¬ full c.init) : Ends c full := by
  intro srcs files f h
  have key := sources_arrive c h c.init
  obtain ⟨hf1, hf2⟩ := filesEnd_two (skip := c.skip) (fun s => ¬ full s) full hskip hnext hstop files c.init h0
  unfold state
  rw [filesLoop_end]
  unfold CmdLoop.runSources
  cases he : filesEnd c.skip c.onSkip c.body files c.init with
  | eof s1 =>
    rw [he] at key
    refine ⟨fun s hs => ?_, fun e s hs => (by cases hs), fun hs => by cases hs⟩
    cases hs
    refine ⟨fun h' => ?_, fun e h1 _ => ?_⟩
    · rcases h' with h' | h'
      · rw [key, h']; rfl
      · exact absurd h' (hf1 _ he)
    · rw [key, h1]; rfl
  | done r =>
    rw [he] at key
    refine ⟨fun s hs => ?_, fun e s hs => ?_, fun hs => ?_⟩
    · simp only at hs
      subst hs
      exact ⟨fun _ => key, fun e _ hn => absurd (hf2 _ he) hn⟩
    · simp only at hs
      subst hs
      exact key
    · simp only at hs
      subst hs
      exact key

/-- the limit has been reached -/
def Reached (limit count : Nat) : Prop := limit > 0 ∧ count ≥ limit

theorem limitStep_reached {S : Type} {limit n : Nat} {s s' : S} :
    (limitStep limit n s = .next s' → s' = s ∧ ¬ Reached limit n) ∧
    (limitStep limit n s = .stop s' → s' = s ∧ Reached limit n) := by
  unfold limitStep Reached
  split
  · rename_i h
    simp only [Bool.and_eq_true, decide_eq_true_eq] at h
    exact ⟨fun e => (by cases e), fun e => by cases e; exact ⟨rfl, h⟩⟩
  · rename_i h
    simp only [Bool.and_eq_true, decide_eq_true_eq] at h
    exact ⟨fun e => by cases e; exact ⟨rfl, h⟩, fun e => by cases e⟩

theorem selBody_reached {S : Type} {test : ByteRecord → Option Bool} {act : S → ByteRecord → Step S} {full : S → Prop}
    (h : ∀ s r s', (act s r = .next s' → ¬ full s → ¬ full s') ∧ (act s r = .stop s' → full s')) (s : S)
    (r : ByteRecord) (s' : S) :
    (selBody test act s r = .next s' → ¬ full s → ¬ full s') ∧ (selBody test act s r = .stop s' → full s') := by
  unfold selBody
  split
  · exact ⟨fun e => (by cases e), fun e => by cases e⟩
  · exact ⟨fun e => by cases e; exact id, fun e => by cases e⟩
  · exact h s r s'

/-- a limit on the number of records -/
theorem limit_full {S : Type} (limit : Nat) (cnt : S → Nat) (g : S → ByteRecord → S) (s : S) (r : ByteRecord) (s' : S) :
    (limitStep limit (cnt (g s r)) (g s r) = .next s' → ¬ Reached limit (cnt s) → ¬ Reached limit (cnt s')) ∧
    (limitStep limit (cnt (g s r)) (g s r) = .stop s' → Reached limit (cnt s')) := by
  refine ⟨fun e _ => ?_, fun e => ?_⟩
  · obtain ⟨rfl, h⟩ := limitStep_reached.1 e; exact h
  · obtain ⟨rfl, h⟩ := limitStep_reached.2 e; exact h

theorem result_full {S X : Type} (limit : Nat) (cnt : S → Nat) (f : ByteRecord → Option X) (g : S → X → S) (s : S)
    (r : ByteRecord) (s' : S) :
    (resultBody limit cnt f g s r = .next s' → ¬ Reached limit (cnt s) → ¬ Reached limit (cnt s')) ∧
    (resultBody limit cnt f g s r = .stop s' → Reached limit (cnt s')) := by
  unfold resultBody
  cases f r with
  | none => exact ⟨fun e => (by cases e), fun e => by cases e⟩
  | some x =>
    refine ⟨fun e _ => ?_, fun e => ?_⟩
    · obtain ⟨rfl, h⟩ := limitStep_reached.1 e; exact h
    · obtain ⟨rfl, h⟩ := limitStep_reached.2 e; exact h

theorem not_reached_zero (limit : Nat) : ¬ Reached limit 0 := by
  rintro ⟨h1, h2⟩
  omega

theorem ends_sel {S O : Type} {c : CmdLoop S O} {full : S → Prop} (hid : c.onSkip = id)
    (h : ∀ s r s', (c.body s r = .next s' → ¬ full s → ¬ full s') ∧ (c.body s r = .stop s' → full s'))
    (h0 : ¬ full c.init) : Ends c full :=
  ends_of c full (fun s hs => by rw [hid]; exact hs) (fun s r s' => (h s r s').1) (fun s r s' => (h s r s').2) h0

/-- **C72** filter -/
theorem C72_filter (c : FilterCmd) :
    (∀ files, c.cmd.run files = c.run files) ∧ Ends c.cmd (fun x => Reached c.limit x.2) := by
  refine ⟨fun files => ?_, ends_sel rfl (selBody_reached fun s r s' => ?_) (not_reached_zero _)⟩
  · unfold CmdLoop.run FilterCmd.run FilterCmd.cmd
    cases filesLoop _ _ _ files _ <;> rfl
  · exact limit_full c.limit Prod.snd (fun x r => (c.emit x.1 r, x.2 + 1)) s r s'

/-- **C72** concat -/
theorem C72_concat (c : ConcatCmd) :
    (∀ files, c.cmd.run files = c.run files) ∧ Ends c.cmd (fun _ => False) := by
  refine ⟨fun files => ?_, ends_sel rfl (fun s r s' => ⟨fun _ h => h, fun e => ?_⟩) id⟩
  · unfold CmdLoop.run ConcatCmd.run ConcatCmd.cmd
    cases filesLoop _ _ _ files _ <;> rfl
  · change c.body s r = .stop s' at e
    unfold ConcatCmd.body at e
    split at e
    · split at e
      · cases e
      · split at e <;> cases e
    · cases e

theorem each_full {c : ExplodeCmd} : ∀ (xs : List Record) (s s' : Bytes × Nat),
    (c.each xs s = .next s' → ¬ Reached c.limit s.2 → ¬ Reached c.limit s'.2) ∧
    (c.each xs s = .stop s' → Reached c.limit s'.2) := by
  intro xs
  induction xs with
  | nil => intro s s'; exact ⟨fun e => by cases e; exact id, fun e => by cases e⟩
  | cons x xs ih =>
    intro s s'
    rw [ExplodeCmd.each]
    have one := fun (r : ByteRecord) (s1 : Bytes × Nat) => selBody_reached (test := c.sel.test)
      (full := fun x => Reached c.limit x.2)
      (limit_full c.limit Prod.snd (fun (x : Bytes × Nat) (r : ByteRecord) => (x.1 ++ (c.reduce r).write, x.2 + 1))) s r s1
    split
    · exact ⟨fun e => (by cases e), fun e => by cases e⟩
    · rename_i r _
      split
      · rename_i s1 h1
        exact ⟨fun e hn => (ih s1 s').1 e ((one r s1).1 h1 hn), fun e => (ih s1 s').2 e⟩
      · rename_i s1 h1
        exact ⟨fun e => (by cases e), fun e => by cases e; exact (one r _).2 h1⟩
      · exact ⟨fun e => (by cases e), fun e => by cases e⟩

/-- **C72** explode -/
theorem C72_explode (c : ExplodeCmd) :
    (∀ files, c.cmd.run files = c.run files) ∧ Ends c.cmd (fun x => Reached c.limit x.2) := by
  refine ⟨fun files => ?_, ends_sel rfl (fun s r s' => ?_) (not_reached_zero _)⟩
  · unfold CmdLoop.run ExplodeCmd.run ExplodeCmd.cmd
    cases filesLoop _ _ _ files _ <;> rfl
  · change (c.body s r = _ → _) ∧ (c.body s r = _ → _)
    unfold ExplodeCmd.body
    split
    · exact ⟨fun e => (by cases e), fun e => by cases e⟩
    · exact each_full _ _ _

/-- **C72** split -/
theorem C72_split (c : SplitCmd) :
    (∀ files, c.cmd.run files = c.run files) ∧ Ends c.cmd (fun s => Reached c.limit s.count) := by
  refine ⟨fun files => ?_, ends_sel rfl (selBody_reached (limit_full c.limit SplitState.count c.step))
    (not_reached_zero _)⟩
  unfold CmdLoop.run SplitCmd.run SplitCmd.cmd
  cases filesLoop _ _ _ files _ <;> rfl

theorem puts_full {c : PartitionCmd} (r : ByteRecord) : ∀ (vs : List Bytes) (s s' : PartitionState),
    (c.puts r vs s = .next s' → ¬ Reached c.limit s.count → ¬ Reached c.limit s'.count) ∧
    (c.puts r vs s = .stop s' → Reached c.limit s'.count) := by
  intro vs
  induction vs with
  | nil => intro s s'; exact ⟨fun e => by cases e; exact id, fun e => by cases e⟩
  | cons v vs ih =>
    intro s s'
    rw [PartitionCmd.puts]
    split
    · rename_i h
      simp only [Bool.and_eq_true, decide_eq_true_eq] at h
      exact ⟨fun e => (by cases e), fun e => by cases e; exact h⟩
    · rename_i h
      simp only [Bool.and_eq_true, decide_eq_true_eq] at h
      exact ⟨fun e _ => (ih _ s').1 e h, fun e => (ih _ s').2 e⟩

/-- **C72** partition -/
theorem C72_partition (c : PartitionCmd) :
    (∀ files, c.cmd.run files = c.run files) ∧ Ends c.cmd (fun s => Reached c.limit s.count) := by
  refine ⟨fun files => ?_, ends_sel rfl (selBody_reached fun s r s' => ?_) (not_reached_zero _)⟩
  · unfold CmdLoop.run PartitionCmd.run PartitionCmd.cmd
    cases filesLoop _ _ _ files _ <;> rfl
  · unfold PartitionCmd.body
    split
    · exact ⟨fun e => (by cases e), fun e => by cases e⟩
    · exact puts_full r _ _ _

/-- **C72** print -/
theorem C72_print (c : PrintCmd) :
    (∀ files, c.cmd.run files = c.run files) ∧ Ends c.cmd (fun s => Reached c.limit s.count) := by
  refine ⟨fun files => ?_, ends_sel rfl (selBody_reached (result_full c.limit PrintState.count _ _))
    (not_reached_zero _)⟩
  unfold CmdLoop.run PrintCmd.run PrintCmd.cmd
  cases filesLoop _ _ _ files _ <;> rfl

/-- **C72** hash -/
theorem C72_hash (c : HashCmd) :
    (∀ files, c.cmd.run files = c.run files) ∧ Ends c.cmd (fun s => Reached c.limit s.count) := by
  refine ⟨fun files => ?_, ends_sel rfl (selBody_reached (result_full c.limit HashState.count _ _))
    (not_reached_zero _)⟩
  unfold CmdLoop.run HashCmd.run HashCmd.cmd
  cases filesLoop _ _ _ files _ <;> rfl

/-- **C72** select -/
theorem C72_select (c : SelectCmd) :
    (∀ files, c.cmd.run files = c.run files) ∧ Ends c.cmd (fun s => Reached c.limit s.count) := by
  refine ⟨fun files => ?_, ends_sel rfl (selBody_reached (result_full c.limit SelectState.count _ _))
    (not_reached_zero _)⟩
  unfold CmdLoop.run SelectCmd.run SelectCmd.cmd
  cases filesLoop _ _ _ files _ <;> rfl

/-- **C72** count, which writes nothing if an input fails -/
theorem C72_count (c : CountCmd) :
    (∀ files, c.cmd.run files = c.run files) ∧ Ends c.cmd (fun _ => False) ∧ ∀ s, c.cmd.part s = [] := by
  refine ⟨fun files => ?_, ends_sel rfl (selBody_reached fun s r s' => ⟨fun _ h => h, fun e => by cases e⟩) id,
    fun _ => rfl⟩
  unfold CmdLoop.run CountCmd.run CountCmd.loop CountCmd.cmd
  cases filesLoop _ _ _ files _ <;> rfl

/-- **C72** describe -/
theorem C72_describe (c : DescribeCmd) :
    (∀ files, c.cmd.run files = c.run files) ∧ Ends c.cmd (fun s => Reached c.limit s.count) ∧
    ∀ s, c.cmd.part s = ⟨[], []⟩ := by
  refine ⟨fun files => ?_, ends_sel rfl (selBody_reached (limit_full c.limit DescribeState.count c.step))
    (not_reached_zero _), fun _ => rfl⟩
  unfold CmdLoop.run DescribeCmd.run DescribeCmd.loop DescribeCmd.cmd
  cases filesLoop _ _ _ files _ <;> rfl

/-- **C72** frequency -/
theorem C72_frequency (c : FreqCmd) :
    (∀ files, c.cmd.run files = c.run files) ∧ Ends c.cmd (fun s => Reached c.limit s.count) ∧
    ∀ s, c.cmd.part s = [] := by
  refine ⟨fun files => ?_, ends_sel rfl (selBody_reached (result_full c.limit FreqState.count _ _))
    (not_reached_zero _), fun _ => rfl⟩
  unfold CmdLoop.run FreqCmd.run FreqCmd.loop FreqCmd.cmd
  cases filesLoop _ _ _ files _ <;> rfl

/-- **C72** sample -/
theorem C72_sample (c : SampleCmd) :
    (∀ files, c.cmd.run files = c.run files) ∧ Ends c.cmd (fun s => Reached c.limit s.count) ∧
    ∀ s, c.cmd.part s = [] := by
  refine ⟨fun files => ?_, ends_sel rfl (selBody_reached (limit_full c.limit SampleState.count c.step))
    (not_reached_zero _), fun _ => rfl⟩
  unfold CmdLoop.run SampleCmd.run SampleCmd.loop SampleCmd.cmd
  cases filesLoop _ _ _ files _ with
  | ok s => cases h : SampleCmd.output s.reservoir <;> simp [h]
  | err e s => rfl
  | panic => rfl

/-- **C72** convert -/
theorem C72_convert (c : ConvertCmd) :
    (∀ files, c.cmd.run files = c.run files) ∧ Ends c.cmd (fun _ => False) := by
  refine ⟨fun files => ?_, ends_sel rfl (fun s r s' => ⟨fun _ h => h, fun e => ?_⟩) id⟩
  · unfold CmdLoop.run ConvertCmd.run ConvertCmd.cmd
    cases filesLoop _ _ _ files _ <;> rfl
  · change c.step s r = .stop s' at e
    unfold ConvertCmd.step at e
    split at e <;> cases e

/-- **C72** check -/
theorem C72_check (c : CheckCmd) :
    (∀ files, c.cmd.run files = c.run files) ∧ Ends c.cmd (fun s => Reached c.limit s.count) := by
  refine ⟨fun files => ?_, ends_sel rfl (selBody_reached fun s r s' => ?_) (not_reached_zero _)⟩
  · unfold CmdLoop.run CheckCmd.run CheckCmd.cmd
    cases filesLoop _ _ _ files _ <;> rfl
  · unfold CheckCmd.body
    split
    · exact ⟨fun e => (by cases e), fun e => by cases e⟩
    · refine ⟨fun e _ => ?_, fun e => ?_⟩
      · obtain ⟨rfl, h⟩ := limitStep_reached.1 e; exact h
      · obtain ⟨rfl, h⟩ := limitStep_reached.2 e; exact h

theorem slice_act {c : SliceCmd} (s : SliceState) (r : ByteRecord) (s' : SliceState) :
    (c.act s r = .next s' → ¬ Reached c.limit s.count → ¬ Reached c.limit s'.count) ∧
    (c.act s r = .stop s' → Reached c.limit s'.count ∨ s'.rangeEnd ≤ s'.i) := by
  unfold SliceCmd.act
  split
  · simp only
    split
    · rename_i h
      simp only [Bool.and_eq_true, decide_eq_true_eq] at h
      exact ⟨fun e => (by cases e), fun e => by cases e; exact .inl h⟩
    · rename_i h
      simp only [Bool.and_eq_true, decide_eq_true_eq] at h
      exact ⟨fun e _ => by cases e; exact h, fun e => by cases e⟩
  · rename_i h
    simp only [Bool.and_eq_true, decide_eq_true_eq] at h
    split
    · exact ⟨fun e => by cases e; exact id, fun e => by cases e⟩
    · exact ⟨fun e => (by cases e), fun e => by cases e; exact .inr (by omega)⟩

/-- **C72** slice: as the other commands, with the end of the range as a second reason
to need no more input; if the input fails where the range ends, the failure may or
may not be noticed. -/
theorem C72_slice (c : SliceCmd) :
    (∀ files, c.cmd.run files = c.run files) ∧
    ∀ srcs files f, Arrives srcs files f →
      (∀ s, state c.cmd files = .ok s →
        (f = none ∨ Reached c.limit s.count → c.cmd.runSources srcs = .ok s) ∧
        (∀ e, f = some e → ¬ Reached c.limit s.count → s.i < s.rangeEnd → c.cmd.runSources srcs = .err e s) ∧
        (∀ e, f = some e → c.cmd.runSources srcs = .ok s ∨ c.cmd.runSources srcs = .err e s)) ∧
      (∀ e s, state c.cmd files = .err e s → c.cmd.runSources srcs = .err (.record e) s) ∧
      (state c.cmd files = .panic → c.cmd.runSources srcs = .panic) := by
  constructor
  · intro files
    unfold CmdLoop.run SliceCmd.run SliceCmd.cmd
    cases filesLoop _ _ _ files _ <;> rfl
  intro srcs files f h
  have key := sources_arrive c.cmd h c.cmd.init
  obtain ⟨hf1, hf2⟩ := filesEnd_two (skip := c.skip) (onSkip := c.onSkip) (body := selBody c.sel.test c.act)
    (fun s => ¬ Reached c.limit s.count) (fun s => Reached c.limit s.count ∨ s.rangeEnd ≤ s.i)
    (fun s hs => by
      unfold SliceCmd.onSkip
      split <;> exact hs)
    (fun s r s' e hs => by
      unfold selBody at e
      split at e
      · cases e
      · cases e; exact hs
      · exact (slice_act s r s').1 e hs)
    (fun s r s' e => by
      unfold selBody at e
      split at e
      · cases e
      · cases e
      · exact (slice_act s r s').2 e) files c.cmd.init (not_reached_zero _)
  unfold state
  rw [filesLoop_end]
  unfold CmdLoop.runSources
  change c.cmd.sources srcs c.cmd.init =
    c.cmd.endOf f (filesEnd c.skip c.onSkip (selBody c.sel.test c.act) files c.cmd.init) at key
  change _ ∧ _ ∧ _
  simp only [show c.cmd.skip = c.skip from rfl, show c.cmd.onSkip = c.onSkip from rfl,
    show c.cmd.body = selBody c.sel.test c.act from rfl]
  cases he : filesEnd c.skip c.onSkip (selBody c.sel.test c.act) files c.cmd.init with
  | eof s1 =>
    rw [he] at key
    refine ⟨fun s hs => ?_, fun e s hs => (by cases hs), fun hs => by cases hs⟩
    cases hs
    refine ⟨fun h' => ?_, fun e h1 _ _ => by rw [key, h1]; rfl, fun e h1 => .inr (by rw [key, h1]; rfl)⟩
    rcases h' with h' | h'
    · rw [key, h']; rfl
    · exact absurd h' (hf1 _ he)
  | done r =>
    rw [he] at key
    refine ⟨fun s hs => ?_, fun e s hs => ?_, fun hs => ?_⟩
    · simp only at hs
      subst hs
      refine ⟨fun _ => key, fun e _ hn hi => ?_, fun e _ => .inl key⟩
      rcases hf2 _ he with h' | h'
      · exact absurd h' hn
      · omega
    · simp only at hs
      subst hs
      exact key
    · simp only at hs
      subst hs
      exact key

/-! ### invalid -/

theorem wholeLines_rest {t rest : Bytes} (hw : WholeLines (t ++ 0x0A :: rest)) : WholeLines rest := by
  rcases hw with hw | ⟨t', hw⟩
  · simp at hw
  · rcases nil_or_snoc' rest with rfl | ⟨r', x, rfl⟩
    · exact .inl rfl
    · refine .inr ⟨r', ?_⟩
      have : (t ++ 0x0A :: r') ++ [x] = t' ++ [0x0A] := by simpa using hw
      rw [(List.append_inj' this rfl).2]

theorem invalidSource_lines {w : Bytes} {ls : List Bytes} (hl : Lines w ls) (f : Option IoKind) (p : Bytes)
    (hf : f = none ∧ p = [] ∨ (∃ k, f = some k) ∧ WholeLines w ∧ LF ∉ p) :
    ∀ (fuel : Nat) (b : BufSource) (out : Bytes), At b (w ++ p) f → b.size < fuel →
      invalidSource fuel b out = (f, out ++ (ls.filter (fun l => decide (¬ ValidLine l))).flatten) := by
  induction hl with
  | eof =>
    intro fuel b out hb hn
    obtain ⟨m, rfl⟩ : ∃ k, fuel = k + 1 := ⟨fuel - 1, by omega⟩
    obtain ⟨c, hd, hc⟩ := hb
    rcases hf with ⟨rfl, rfl⟩ | ⟨⟨k, rfl⟩, -, hp⟩
    · have hc' := List.append_eq_nil_iff.1 hc.symm
      have := (readUntilFrom_last hd (buf := b.buf) (acc := []) (by simp [hc'.1]) (by simp [hc'.2])).1 rfl
      rw [invalidSource, this, hc'.1, hc'.2]
      simp
    · rw [List.nil_append] at hc
      rw [hc, List.mem_append, not_or] at hp
      have := (readUntilFrom_last hd (buf := b.buf) (acc := []) hp.1 hp.2).2 k rfl
      rw [invalidSource]
      generalize readUntilFrom b.buf [] b.events = x at this
      obtain ⟨x1, x2⟩ := x
      simp only at this
      subst this
      simp
  | last t h0 ht =>
    intro fuel b out hb hn
    obtain ⟨m, rfl⟩ : ∃ k, fuel = k + 1 := ⟨fuel - 1, by omega⟩
    rcases hf with ⟨rfl, rfl⟩ | ⟨-, hw, -⟩
    · rw [List.append_nil] at hb
      have hs := (nextByte_source_last hb h0 ht 0 none).2
      have hpos := List.length_pos_iff.2 h0
      obtain ⟨m, rfl⟩ : ∃ k, m = k + 1 := ⟨m - 1, by omega⟩
      obtain ⟨c, hd, hc⟩ := hb
      have ht' := ht
      rw [hc, List.mem_append, not_or] at ht'
      have := (readUntilFrom_last hd (buf := b.buf) (acc := []) ht'.1 ht'.2).1 rfl
      rw [List.nil_append, ← hc] at this
      rw [invalidSource, this]
      have hne : t.isEmpty = false := by cases t <;> simp_all
      have hend : ∀ out, invalidSource (m + 1) ⟨[], []⟩ out = (none, out) := fun out => by
        simp [invalidSource, readUntilFrom]
      simp only [hne, Bool.false_eq_true, if_false, fromBytes_isSome, hend]
      rw [fromBytes_no_lf ht]
      have : ¬ ValidLine t := by rw [validLine_iff, fromBytes_no_lf ht]; simp
      simp [this]
    · rcases hw with hw | ⟨t', hw⟩
      · exact absurd hw h0
      · exact absurd (by rw [hw]; simp) ht
  | line t rest ls ht _ ih =>
    intro fuel b out hb hn
    obtain ⟨m, rfl⟩ : ∃ k, fuel = k + 1 := ⟨fuel - 1, by omega⟩
    have hf' : f = none ∧ p = [] ∨ (∃ k, f = some k) ∧ WholeLines rest ∧ LF ∉ p := by
      rcases hf with hf | ⟨h1, hw, h2⟩
      · exact .inl hf
      · exact .inr ⟨h1, wholeLines_rest hw, h2⟩
    have hb' : At b (t ++ LF :: (rest ++ p)) f := by
      have : t ++ LF :: (rest ++ p) = t ++ 0x0A :: rest ++ p := by simp [LF]
      rw [this]; exact hb
    obtain ⟨c, hd, hc⟩ := hb'
    obtain ⟨b', h1, h2⟩ := readUntilFrom_line hd (buf := b.buf) (acc := []) ht hc.symm
    have hs := readUntilFrom_size _ _ _ _ _ h1
    have hsz : b'.size < m := by
      simp only [List.length_append, List.length_nil, List.length_singleton] at hs
      rw [show (⟨b.buf, b.events⟩ : BufSource) = b from rfl] at hs
      omega
    rw [invalidSource, h1, List.nil_append]
    have hne : (t ++ [LF]).isEmpty = false := by simp
    simp only [hne, Bool.false_eq_true, if_false, fromBytes_isSome]
    rw [ih hf' m b' _ h2 hsz, ih hf' m b' _ h2 hsz]
    have hv := validLine_iff (l := t ++ [LF])
    rw [show (t ++ [0x0A] : Bytes) = t ++ [LF] from rfl]
    by_cases h : (Record.fromBytes (t ++ [LF])).isSome = true
    · have : ValidLine (t ++ [LF]) := by rw [hv]; exact h
      simp [h, this]
    · have : ¬ ValidLine (t ++ [LF]) := by rw [hv]; exact h
      simp [h, this]

/-- **C72** invalid writes the invalid lines of what arrives; a failure ends it with an
I/O error. -/
theorem C72_invalid {srcs : List Source} {files : List (String × Bytes)} {f : Option RunError}
    (h : Arrives srcs files f) : ∀ out,
    (f = none → invalidSources srcs out = .ok (invalidRun files out)) ∧
    (∀ k, f = some (.read k) ∨ f = some (.io k) → invalidSources srcs out = .err (.io k) (invalidRun files out)) ∧
    (∀ e, f ≠ some (.record e)) := by
  induction h with
  | nil => intro out; exact ⟨fun _ => rfl, fun k h => by simp at h, fun e => by simp⟩
  | file name es c srcs files f hd _ ih =>
    intro out
    obtain ⟨ls, hl⟩ := lines_exists c
    rw [invalidSources, invalidRun, invalidLoop_lines hl _ _ (by omega),
      invalidSource_lines hl none [] (.inl ⟨rfl, rfl⟩) _ ⟨[], es⟩ out ⟨c, hd, by simp⟩ (by omega)]
    exact ih _
  | broken name es w p k srcs hd hw hp =>
    intro out
    obtain ⟨ls, hl⟩ := lines_exists w
    rw [invalidSources, invalidRun, invalidLoop_lines hl _ _ (by omega),
      invalidSource_lines hl (some k) p (.inr ⟨⟨k, rfl⟩, hw, hp⟩) _ ⟨[], es⟩ out ⟨w ++ p, hd, by simp⟩ (by omega)]
    refine ⟨fun h => by simp at h, fun k' h => ?_, fun e => by simp⟩
    have : k = k' := by simpa using h
    rw [this]; rfl
  | closed name k srcs =>
    intro out
    refine ⟨fun h => by simp at h, fun k' h => ?_, fun e => by simp⟩
    have : k = k' := by simpa using h
    rw [this]; rfl

/-! ### pieces and the exit status -/

/-- **C72** The size of the pieces, the interruptions and what would come after a
failure make no difference to any command. -/
theorem C72_pieces {S O : Type} (c : CmdLoop S O) {srcs srcs' : List Source} {files : List (String × Bytes)}
    {f : Option RunError} (h : Arrives srcs files f) (h' : Arrives srcs' files f) :
    c.runSources srcs = c.runSources srcs' := by
  unfold CmdLoop.runSources
  rw [sources_arrive c h, sources_arrive c h']

/-- the exit status of a command -/
def runStatus {O : Type} : RunResult O → Option Nat
  | .ok _ => some (exitStatus (.ok ()))
  | .err e _ => some (exitStatus (.error e.toCli))
  | .panic => none

/-- **C72** An input that fails while it is read gives exit status 2, even for a broken
pipe; one that cannot be opened gives 2 unless opening reports a broken pipe. -/
theorem C72_exit {O : Type} (e : RunError) (o : O) :
    (runStatus (.err e o) = some 0 ↔ e = .io .brokenPipe) ∧ (runStatus (.err e o) = some 2 ↔ e ≠ .io .brokenPipe) := by
  cases e with
  | record e => simp [runStatus, exitStatus, RunError.toCli]
  | read k => simp [runStatus, exitStatus, RunError.toCli]
  | io k => cases k <;> simp [runStatus, exitStatus, RunError.toCli]

/-! ### A file that is damaged in its second record -/

/-- a record in two pieces with an interruption, the start of another one, a failure -/
def damaged : List ReadEvent :=
  [.data (sampleBytes.take 3), .interrupted, .data (sampleBytes.drop 3 ++ bs "00"), .data (bs "3"), .fail .other,
    .data sampleBytes]

theorem damaged_arrives : Arrives [("f", .ok [.data sampleBytes]), ("g", .ok damaged), ("h", .ok [.data sampleBytes])]
    [("f", sampleBytes), ("g", sampleBytes)] (some (.read .other)) := by
  have h0 : sampleBytes ≠ [] := by decide +kernel
  refine .file "f" _ sampleBytes _ _ _ ?_ (.broken "g" _ sampleBytes (bs "003") .other _ ?_ ?_ (by decide +kernel))
  · have := Delivers.data sampleBytes [] [] none h0 .eof
    rwa [List.append_nil] at this
  · have := Delivers.data (sampleBytes.take 3) _ _ _ (by decide +kernel) (.interrupted _ _ _
      (.data (sampleBytes.drop 3 ++ bs "00") _ _ _ (by decide +kernel)
        (.data (bs "3") _ _ _ (by decide +kernel) (.fail .other [.data sampleBytes]))))
    have e : sampleBytes.take 3 ++ ((sampleBytes.drop 3 ++ bs "00") ++ (bs "3" ++ [])) = sampleBytes ++ bs "003" := by
      decide +kernel
    rw [e] at this
    exact this
  · exact .inr ⟨sampleBytes.dropLast, by decide +kernel⟩

example : (concatSample false .idn).cmd.runSources
    [("f", .ok [.data sampleBytes]), ("g", .ok damaged), ("h", .ok [.data sampleBytes])] =
    .err (.read .other) ⟨sampleBytes ++ sampleBytes, none, []⟩ := by decide +kernel
example : (concatSample false .idn).cmd.runSources [("f", .ok [.data sampleBytes]), ("g", .error .other)] =
    .err (.io .other) ⟨sampleBytes, none, []⟩ := by decide +kernel

end Pica.Props
