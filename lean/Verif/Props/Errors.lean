import Verif.Lemmas.Errors
import Verif.Model.Exit
import Verif.Props.Filter
import Verif.Props.Count
import Verif.Props.Concat
import Verif.Props.Explode
import Verif.Props.Split
import Verif.Props.Slice
import Verif.Props.Partition
import Verif.Props.Convert
import Verif.Props.Describe
import Verif.Props.Frequency
import Verif.Props.Sample
import Verif.Props.Select
import Verif.Props.Print
import Verif.Props.Checks
import Verif.Lemmas.RuleNames

/-!
# C66: invalid lines and the exit status
-/

namespace Pica.Props
open Pica Pica.Spec

/-- **C66** either all lines are valid records, or there is a first invalid line. -/
theorem C66_first (files : List (String × Bytes)) :
    AllValid files ∨ ∃ cut n name, FirstBad files cut n name := firstBad_exists files

/-- **C66** filter writes the records before the first invalid line and then reports
the line, unless it has stopped before because of its limit. -/
theorem C66_filter (c : FilterCmd) (hs : c.skip = false) (files cut : List (String × Bytes)) (n : Nat) (name : String)
    (h : FirstBad files cut n name) :
    Broken (.parse (badLine n name)) (c.run files) (c.run cut) ∧
    (c.limit = 0 → Reported (.parse (badLine n name)) (c.run files) (c.run cut)) := by
  unfold FilterCmd.run
  rw [hs]
  obtain ⟨h1, h2⟩ := filesLoop_broken h _
  exact ⟨h1, fun hl => h2 (selBody_next fun s r s' => by rw [hl]; exact limitStep_zero _ _ _)⟩

/-- **C66** the same for concat, which has no limit. -/
theorem C66_concat (c : ConcatCmd) (hs : c.skip = false) (files cut : List (String × Bytes)) (n : Nat) (name : String)
    (h : FirstBad files cut n name) :
    Reported (.parse (badLine n name)) (c.run files) (c.run cut) := by
  unfold ConcatCmd.run
  rw [hs]
  refine (filesLoop_broken h _).2 fun s r s' => ?_
  unfold ConcatCmd.body
  split
  · split
    · simp
    · split <;> simp
  · simp

theorem each_next {c : ExplodeCmd} (hl : c.limit = 0) : ∀ (xs : List Record) (s s' : Bytes × Nat), c.each xs s ≠ .stop s' := by
  intro xs
  induction xs with
  | nil => intro s s'; simp [ExplodeCmd.each]
  | cons x xs ih =>
    intro s s'
    rw [ExplodeCmd.each]
    split
    · simp
    · split
      · exact ih _ _
      · rename_i r _ _ s1 h1
        exact absurd h1 (selBody_next (fun s r s' => by rw [hl]; exact limitStep_zero _ _ _) _ _ _)
      · simp

/-- **C66** explode -/
theorem C66_explode (c : ExplodeCmd) (hs : c.skip = false) (files cut : List (String × Bytes)) (n : Nat) (name : String)
    (h : FirstBad files cut n name) :
    Broken (.parse (badLine n name)) (c.run files) (c.run cut) ∧
    (c.limit = 0 → Reported (.parse (badLine n name)) (c.run files) (c.run cut)) := by
  unfold ExplodeCmd.run
  rw [hs]
  obtain ⟨h1, h2⟩ := filesLoop_broken (onSkip := id) (body := c.body) h ([], 0)
  refine ⟨h1, fun hl => h2 fun s r s' => ?_⟩
  unfold ExplodeCmd.body
  split
  · simp
  · exact each_next hl _ _ _

/-- **C66** split -/
theorem C66_split (c : SplitCmd) (hs : c.skip = false) (files cut : List (String × Bytes)) (n : Nat) (name : String)
    (h : FirstBad files cut n name) :
    Broken (.parse (badLine n name)) (c.run files) (c.run cut) ∧
    (c.limit = 0 → Reported (.parse (badLine n name)) (c.run files) (c.run cut)) := by
  unfold SplitCmd.run
  rw [hs]
  obtain ⟨h1, h2⟩ := filesLoop_broken h _
  exact ⟨h1, fun hl => h2 (selBody_next fun s r s' => by rw [hl]; exact limitStep_zero _ _ _)⟩

/-- **C66** slice, which may also stop at the end of its range -/
theorem C66_slice (c : SliceCmd) (hs : c.skip = false) (files cut : List (String × Bytes)) (n : Nat) (name : String)
    (h : FirstBad files cut n name) :
    Broken (.parse (badLine n name)) (c.run files) (c.run cut) := by
  unfold SliceCmd.run
  rw [hs]
  exact (filesLoop_broken h _).1

theorem puts_next {c : PartitionCmd} (hl : c.limit = 0) (r : ByteRecord) :
    ∀ (vs : List Bytes) (s s' : PartitionState), c.puts r vs s ≠ .stop s' := by
  intro vs
  induction vs with
  | nil => intro s s'; simp [PartitionCmd.puts]
  | cons v vs ih =>
    intro s s'
    rw [PartitionCmd.puts]
    simp only [hl, Nat.lt_irrefl, decide_false, Bool.false_and, Bool.false_eq_true, if_false, gt_iff_lt]
    exact ih _ _

/-- **C66** partition -/
theorem C66_partition (c : PartitionCmd) (hs : c.skip = false) (files cut : List (String × Bytes)) (n : Nat)
    (name : String) (h : FirstBad files cut n name) :
    Broken (.parse (badLine n name)) (c.run files) (c.run cut) ∧
    (c.limit = 0 → Reported (.parse (badLine n name)) (c.run files) (c.run cut)) := by
  unfold PartitionCmd.run
  rw [hs]
  obtain ⟨h1, h2⟩ := filesLoop_broken (onSkip := id) (body := selBody c.sel.test c.body) h ⟨[], 0⟩
  refine ⟨h1, fun hl => h2 (selBody_next fun s r s' => ?_)⟩
  unfold PartitionCmd.body
  split
  · simp
  · exact puts_next hl _ _ _ _

/-- **C66** print -/
theorem C66_print (c : PrintCmd) (hs : c.skip = false) (files cut : List (String × Bytes)) (n : Nat)
    (name : String) (h : FirstBad files cut n name) :
    Broken (.parse (badLine n name)) (c.run files) (c.run cut) ∧
    (c.limit = 0 → Reported (.parse (badLine n name)) (c.run files) (c.run cut)) := by
  unfold PrintCmd.run
  rw [hs]
  obtain ⟨h1, h2⟩ := filesLoop_broken h _
  exact ⟨h1, fun hl => h2 (selBody_next fun s r s' => by rw [hl]; exact resultBody_next _ _ _)⟩

/-- **C66** hash -/
theorem C66_hash (c : HashCmd) (hs : c.skip = false) (files cut : List (String × Bytes)) (n : Nat)
    (name : String) (h : FirstBad files cut n name) :
    Broken (.parse (badLine n name)) (c.run files) (c.run cut) ∧
    (c.limit = 0 → Reported (.parse (badLine n name)) (c.run files) (c.run cut)) := by
  unfold HashCmd.run
  rw [hs]
  obtain ⟨h1, h2⟩ := filesLoop_broken h _
  exact ⟨h1, fun hl => h2 (selBody_next fun s r s' => by rw [hl]; exact resultBody_next _ _ _)⟩

/-- **C66** select -/
theorem C66_select (c : SelectCmd) (hs : c.skip = false) (files cut : List (String × Bytes)) (n : Nat)
    (name : String) (h : FirstBad files cut n name) :
    Broken (.parse (badLine n name)) (c.run files) (c.run cut) ∧
    (c.limit = 0 → Reported (.parse (badLine n name)) (c.run files) (c.run cut)) := by
  unfold SelectCmd.run
  rw [hs]
  obtain ⟨h1, h2⟩ := filesLoop_broken h _
  exact ⟨h1, fun hl => h2 (selBody_next fun s r s' => by rw [hl]; exact resultBody_next _ _ _)⟩

/-- a command that writes at its end only: nothing is written if the line is reported -/
def Withheld {S : Type} (e : ReadErr) (nothing : S) (full cut : LoopResult S) : Prop :=
  (∃ s, cut = .ok s) ∧ full = .err e nothing ∨ cut = .panic ∧ full = .panic

/-- **C66** count reports an invalid line and prints no number. -/
theorem C66_count (c : CountCmd) (hs : c.skip = false) (files cut : List (String × Bytes)) (n : Nat)
    (name : String) (h : FirstBad files cut n name) :
    Withheld (.parse (badLine n name)) [] (c.run files) (c.run cut) := by
  unfold CountCmd.run CountCmd.loop
  rw [hs]
  rcases (filesLoop_broken (onSkip := id)
    (body := selBody c.sel.test (fun s r => .next (CountCmd.step s r))) h ⟨0, 0, 0⟩).2
    (selBody_next fun s r s' => by simp) with ⟨s, h1, h2⟩ | ⟨h1, h2⟩
  · rw [h1, h2]; exact .inl ⟨⟨_, rfl⟩, rfl⟩
  · rw [h1, h2]; exact .inr ⟨rfl, rfl⟩

/-- **C66** describe; with a limit it may have stopped before -/
theorem C66_describe (c : DescribeCmd) (hs : c.skip = false) (files cut : List (String × Bytes)) (n : Nat)
    (name : String) (h : FirstBad files cut n name) :
    (Withheld (.parse (badLine n name)) ⟨[], []⟩ (c.run files) (c.run cut) ∨ c.run files = c.run cut) ∧
    (c.limit = 0 → Withheld (.parse (badLine n name)) ⟨[], []⟩ (c.run files) (c.run cut)) := by
  unfold DescribeCmd.run DescribeCmd.loop
  rw [hs]
  obtain ⟨h1, h2⟩ := filesLoop_broken (onSkip := id) (body := selBody c.sel.test
    (fun s r => limitStep c.limit (DescribeState.count (c.step s r)) (c.step s r))) h ⟨[], 0⟩
  constructor
  · rcases h1 with ⟨s, h3, h4 | h4⟩ | ⟨h3, h4⟩
    · rw [h3, h4]; exact .inl (.inl ⟨⟨_, rfl⟩, rfl⟩)
    · rw [h3, h4]; exact .inr rfl
    · rw [h3, h4]; exact .inr rfl
  · intro hl
    rcases h2 (selBody_next fun s r s' => by rw [hl]; exact limitStep_zero _ _ _) with ⟨s, h3, h4⟩ | ⟨h3, h4⟩
    · rw [h3, h4]; exact .inl ⟨⟨_, rfl⟩, rfl⟩
    · rw [h3, h4]; exact .inr ⟨rfl, rfl⟩

/-- **C66** frequency -/
theorem C66_frequency (c : FreqCmd) (hs : c.skip = false) (files cut : List (String × Bytes)) (n : Nat)
    (name : String) (h : FirstBad files cut n name) :
    (Withheld (.parse (badLine n name)) [] (c.run files) (c.run cut) ∨ c.run files = c.run cut) ∧
    (c.limit = 0 → Withheld (.parse (badLine n name)) [] (c.run files) (c.run cut)) := by
  unfold FreqCmd.run FreqCmd.loop
  rw [hs]
  obtain ⟨h1, h2⟩ := filesLoop_broken (onSkip := id) (body := selBody c.sel.test
    (resultBody c.limit FreqState.count (fun r => c.query.run c.E c.qo r.record) c.step)) h ⟨[], 0⟩
  constructor
  · rcases h1 with ⟨s, h3, h4 | h4⟩ | ⟨h3, h4⟩
    · rw [h3, h4]; exact .inl (.inl ⟨⟨_, rfl⟩, rfl⟩)
    · rw [h3, h4]; exact .inr rfl
    · rw [h3, h4]; exact .inr rfl
  · intro hl
    rcases h2 (selBody_next fun s r s' => by rw [hl]; exact resultBody_next _ _ _) with ⟨s, h3, h4⟩ | ⟨h3, h4⟩
    · rw [h3, h4]; exact .inl ⟨⟨_, rfl⟩, rfl⟩
    · rw [h3, h4]; exact .inr ⟨rfl, rfl⟩

/-- **C66** sample: no record is written if a line is reported. -/
theorem C66_sample (c : SampleCmd) (hs : c.skip = false) (files cut : List (String × Bytes)) (n : Nat)
    (name : String) (h : FirstBad files cut n name) :
    (c.run files = .err (.parse (badLine n name)) [] ∨ c.run files = c.run cut) ∧
    (c.limit = 0 → c.run files = .err (.parse (badLine n name)) [] ∨ c.run cut = .panic ∧ c.run files = .panic) := by
  unfold SampleCmd.run SampleCmd.loop
  rw [hs]
  obtain ⟨h1, h2⟩ := filesLoop_broken (onSkip := id) (body := selBody c.sel.test
    (fun s r => limitStep c.limit (c.step s r).count (c.step s r))) h ⟨[], 0⟩
  constructor
  · rcases h1 with ⟨s, h3, h4 | h4⟩ | ⟨h3, h4⟩
    · rw [h3, h4]; exact .inl rfl
    · rw [h3, h4]; exact .inr rfl
    · rw [h3, h4]; exact .inr rfl
  · intro hl
    rcases h2 (selBody_next fun s r s' => by rw [hl]; exact limitStep_zero _ _ _) with ⟨s, h3, h4⟩ | ⟨h3, h4⟩
    · rw [h3, h4]; exact .inl rfl
    · rw [h3, h4]; exact .inr ⟨rfl, rfl⟩

/-- **C66** convert writes the records before the line, without the end of the document. -/
theorem C66_convert (c : ConvertCmd) (hs : c.skip = false) (files cut : List (String × Bytes)) (n : Nat)
    (name : String) (h : FirstBad files cut n name) :
    (∃ out, c.run cut = .ok (out ++ (match c.to with
        | .json => bs "]"
        | .xml => c.xmlTail
        | _ => [])) ∧ c.run files = .err (.parse (badLine n name)) out) ∨
    (c.run cut = .panic ∧ c.run files = .panic) := by
  have ht : c.tail = match c.to with
      | .json => bs "]"
      | .xml => c.xmlTail
      | _ => [] := by
    unfold ConvertCmd.tail
    have hb : bs "]" = [0x5D] := by decide +kernel
    rw [hb]
    cases c.to <;> rfl
  rw [← ht]
  unfold ConvertCmd.run
  rw [hs]
  rcases (filesLoop_broken (onSkip := id) (body := c.step) h ⟨c.head, 0⟩).2 (by
      intro s r s'
      unfold ConvertCmd.step
      split <;> simp) with ⟨s, h1, h2⟩ | ⟨h1, h2⟩
  · rw [h1, h2]; exact .inl ⟨_, rfl, rfl⟩
  · rw [h1, h2]; exact .inr ⟨rfl, rfl⟩

/-- **C66** check writes the reports of the records before the line, without the
reports at the end; these are the reports of the link rules. -/
theorem C66_check (c : CheckCmd) (hs : c.skip = false) (files cut : List (String × Bytes)) (n : Nat)
    (name : String) (h : FirstBad files cut n name) :
    ((∃ out rest, c.run cut = .ok (out ++ rest) ∧ c.run files = .err (.parse (badLine n name)) out ∧
        (∀ rep ∈ out, SetNames c.rulesets false rep.rule) ∧ ∀ rep ∈ rest, SetNames c.rulesets true rep.rule) ∨
      c.run files = c.run cut) ∧
    (c.limit = 0 → (∃ out rest, c.run cut = .ok (out ++ rest) ∧ c.run files = .err (.parse (badLine n name)) out ∧
        (∀ rep ∈ out, SetNames c.rulesets false rep.rule) ∧ ∀ rep ∈ rest, SetNames c.rulesets true rep.rule) ∨
      (c.run cut = .panic ∧ c.run files = .panic)) := by
  have hn := names_loop c false cut
  unfold CheckCmd.run
  rw [hs]
  obtain ⟨h1, h2⟩ := filesLoop_broken (onSkip := id) (body := selBody c.sel.test c.body) h ⟨c.prepared, [], 0⟩
  constructor
  · rcases h1 with ⟨s, h3, h4 | h4⟩ | ⟨h3, h4⟩
    · rw [h3, h4]; exact .inl ⟨_, _, rfl, rfl, (hn _ h3).2,
        fun rep hr => (hn _ h3).1 _ _ (names_finish hr)⟩
    · rw [h3, h4]; exact .inr rfl
    · rw [h3, h4]; exact .inr rfl
  · intro hl
    rcases h2 (selBody_next fun s r s' => by
      unfold CheckCmd.body
      split
      · simp
      · rw [hl]; exact limitStep_zero _ _ _) with ⟨s, h3, h4⟩ | ⟨h3, h4⟩
    · rw [h3, h4]; exact .inl ⟨_, _, rfl, rfl, (hn _ h3).2,
        fun rep hr => (hn _ h3).1 _ _ (names_finish hr)⟩
    · rw [h3, h4]; exact .inr ⟨rfl, rfl⟩

/-- the command does not end with an error -/
def NoError {S : Type} (r : LoopResult S) : Prop := ∀ e s, r ≠ .err e s

/-- **C66** with `--skip-invalid`, or if all lines are valid, no command reports a line. -/
theorem C66_quiet (files : List (String × Bytes)) :
    (∀ c : FilterCmd, c.skip = true ∨ AllValid files → NoError (c.run files)) ∧
    (∀ c : ConcatCmd, c.skip = true ∨ AllValid files → NoError (c.run files)) ∧
    (∀ c : ExplodeCmd, c.skip = true ∨ AllValid files → NoError (c.run files)) ∧
    (∀ c : SplitCmd, c.skip = true ∨ AllValid files → NoError (c.run files)) ∧
    (∀ c : SliceCmd, c.skip = true ∨ AllValid files → NoError (c.run files)) ∧
    (∀ c : PartitionCmd, c.skip = true ∨ AllValid files → NoError (c.run files)) ∧
    (∀ c : PrintCmd, c.skip = true ∨ AllValid files → NoError (c.run files)) ∧
    (∀ c : HashCmd, c.skip = true ∨ AllValid files → NoError (c.run files)) ∧
    (∀ c : SelectCmd, c.skip = true ∨ AllValid files → NoError (c.run files)) ∧
    (∀ c : CountCmd, c.skip = true ∨ AllValid files → NoError (c.run files)) ∧
    (∀ c : DescribeCmd, c.skip = true ∨ AllValid files → NoError (c.run files)) ∧
    (∀ c : FreqCmd, c.skip = true ∨ AllValid files → NoError (c.run files)) ∧
    (∀ c : SampleCmd, c.skip = true ∨ AllValid files → NoError (c.run files)) ∧
    (∀ c : ConvertCmd, c.skip = true ∨ AllValid files → NoError (c.run files)) ∧
    (∀ c : CheckCmd, c.skip = true ∨ AllValid files → NoError (c.run files)) := by
  refine ⟨fun c h => ?_, fun c h => ?_, fun c h => ?_, fun c h => ?_, fun c h => ?_, fun c h => ?_, fun c h => ?_,
    fun c h => ?_, fun c h => ?_, fun c h => ?_, fun c h => ?_, fun c h => ?_, fun c h => ?_, fun c h => ?_,
    fun c h => ?_⟩ <;> intro e s
  · exact filesLoop_noErr h _ e s
  · exact filesLoop_noErr h _ e s
  · exact filesLoop_noErr h _ e s
  · exact filesLoop_noErr h _ e s
  · exact filesLoop_noErr h _ e s
  · exact filesLoop_noErr h _ e s
  · exact filesLoop_noErr h _ e s
  · exact filesLoop_noErr h _ e s
  · exact filesLoop_noErr h _ e s
  · unfold CountCmd.run CountCmd.loop
    split
    · simp
    · rename_i h'; exact absurd h' (filesLoop_noErr h _ _ _)
    · simp
  · unfold DescribeCmd.run DescribeCmd.loop
    split
    · simp
    · rename_i h'; exact absurd h' (filesLoop_noErr h _ _ _)
    · simp
  · unfold FreqCmd.run FreqCmd.loop
    split
    · simp
    · rename_i h'; exact absurd h' (filesLoop_noErr h _ _ _)
    · simp
  · unfold SampleCmd.run SampleCmd.loop
    split
    · split <;> simp
    · rename_i h'; exact absurd h' (filesLoop_noErr h _ _ _)
    · simp
  · unfold ConvertCmd.run
    split
    · simp
    · rename_i h'; exact absurd h' (filesLoop_noErr h _ _ _)
    · simp
  · unfold CheckCmd.run
    split
    · simp
    · rename_i h'; exact absurd h' (filesLoop_noErr h _ _ _)
    · simp

/-! ### The exit status -/

/-- the error comes from a broken pipe -/
def FromPipe : CliError → Prop
  | .readPica k | .check k | .csv k => k = some .brokenPipe
  | .io k => k = .brokenPipe
  | _ => False

/-- The claim is that a command exits with 0 iff it has succeeded or its output pipe
has been closed, and with 2 otherwise; this is false, see `C66_pipe_false`. **C66**
What holds: success exits with 0; any error that is not caused by a broken pipe
exits with 2, in particular an invalid line; there is no other status.  A panic has no status. -/
theorem C66_exit_partial :
    exitStatus (.ok ()) = 0 ∧ (∀ e, ¬ FromPipe e → exitStatus (.error e) = 2) ∧
    (∀ e, exitStatus (.error e) = 0 → FromPipe e) ∧ (∀ x, exitStatus x = 0 ∨ exitStatus x = 2) ∧
    (∀ {S : Type} (x : LoopResult S), (loopStatus x = some 0 ↔ ∃ s, x = .ok s) ∧
      (loopStatus x = some 2 ↔ ∃ e s, x = .err e s)) := by
  refine ⟨rfl, fun e h => ?_, fun e h => ?_, fun x => ?_, fun x => by
    cases x <;> simp [loopStatus, exitStatus]⟩
  · cases e with
    | io k =>
      cases k with
      | brokenPipe => exact absurd rfl h
      | other => rfl
    | _ => rfl
  · cases e with
    | io k =>
      cases k with
      | brokenPipe => rfl
      | other => simp [exitStatus] at h
    | _ => simp [exitStatus] at h
  · cases x with
    | ok _ => exact .inl rfl
    | error e =>
      cases e with
      | io k =>
        cases k with
        | brokenPipe => exact .inl rfl
        | other => exact .inr rfl
      | _ => exact .inr rfl

/-- **C66** a pipe that is closed while CSV rows are written is reported as an error. -/
theorem C66_pipe_false : ¬ ∀ e, FromPipe e → exitStatus (.error e) = 0 := by
  intro h
  have := h (.csv (some .brokenPipe)) rfl
  simp [exitStatus] at this

/-! ### An input with an invalid line -/

/-- a valid line, an invalid one and a valid one -/
def badSample : Bytes := sampleBytes ++ (bs "xyz" ++ [0x0A] ++ sampleBytes)

theorem sample_line : ∃ t, (0x0A : Byte) ∉ t ∧ sampleBytes = t ++ [0x0A] :=
  ⟨sampleBytes.dropLast, by decide +kernel, by decide +kernel⟩

theorem sample_lines (rest : Bytes) (ls : List Bytes) (h : Lines rest ls) :
    Lines (sampleBytes ++ rest) (sampleBytes :: ls) := by
  obtain ⟨t, ht, e⟩ := sample_line
  rw [e, List.append_assoc]
  exact .line t rest ls ht h

/-- line 2 of standard input is the first invalid line -/
theorem badSample_first : FirstBad [("f", sampleBytes), ("-", badSample), ("g", sampleBytes)]
    [("f", sampleBytes), ("-", sampleBytes)] 2 "-" := by
  have h1 : Lines sampleBytes [sampleBytes] := by
    have := sample_lines [] [] .eof
    rwa [List.append_nil] at this
  have h2 : Lines badSample ([sampleBytes] ++ (bs "xyz" ++ [0x0A]) :: [sampleBytes]) := by
    refine sample_lines _ _ ?_
    rw [List.append_assoc]
    exact .line (bs "xyz") sampleBytes [sampleBytes] (by decide +kernel) h1
  have h3 : (Record.fromBytes sampleBytes).isSome = true := by decide +kernel
  have := FirstBad.intro [("f", sampleBytes)] "-" badSample [("g", sampleBytes)] [sampleBytes] _ _ (by
      intro f hf ls hl l hm
      simp only [List.mem_singleton] at hf
      subst hf
      rw [lines_unique hl h1, List.mem_singleton] at hm
      rw [hm]; exact h3) h2 (by simpa using h3) (by decide +kernel)
  rw [List.flatten_cons, List.flatten_nil, List.append_nil] at this
  exact this

example : (⟨false, false, .idn, false, toyEnv, ⟨false⟩, id, id⟩ : ConcatCmd).run
    [("f", sampleBytes), ("-", badSample), ("g", sampleBytes)] =
    .err (.parse "invalid record on line 2 (<stdin>).") ⟨sampleBytes ++ sampleBytes, none, []⟩ := by
  decide +kernel

/-- the three files of the example -/
def badFiles : List (String × Bytes) := [("f", sampleBytes), ("-", badSample), ("g", sampleBytes)]

/-- the loop ends with this error -/
def endsWithErr {S : Type} (e : ReadErr) : LoopResult S → Bool
  | .err e' _ => decide (e' = e)
  | _ => false

/-- a link rule: every value of 012A/01.a is an IDN of the input -/
def badLink : CheckRule :=
  ⟨bs "L", none, .error, .link toyEnv ⟨false⟩ ⟨.tag (bs "012A"), .exact (bs "01"), none, [[0x61]], bs "012A/01.a"⟩ Path.ppnPath none ⟨[], []⟩⟩

/-- every command without `--skip-invalid` reports the line -/
example :
    let e := ReadErr.parse (badLine 2 "-")
    endsWithErr e (({ countSample .plain with skip := false } : CountCmd).run badFiles) ∧
    endsWithErr e ({ describeSample with skip := false }.run badFiles) ∧
    endsWithErr e ({ printSample with skip := false }.run badFiles) ∧
    endsWithErr e ({ hashSample with skip := false, limit := 0 }.run badFiles) ∧
    endsWithErr e ({ sampleSample 1 (fun _ => 0) with skip := false }.run badFiles) ∧
    endsWithErr e ((sliceSample false 1 9 0).run badFiles) ∧
    endsWithErr e ((splitSample "{}.dat").run badFiles) ∧
    endsWithErr e ({ partitionSample "{}.dat" 0 with skip := false }.run badFiles) ∧
    (freqSample false false 0 0).map (fun c => endsWithErr e ({ c with skip := false }.run badFiles)) = some true ∧
    (selectSample false false (fun _ => 0)).map (fun c => endsWithErr e ({ c with skip := false }.run badFiles)) = some true ∧
    (filterSample false 0).map (fun c => endsWithErr e ({ c with skip := false }.run badFiles)) = some true ∧
    endsWithErr e ({ convertSample .json with skip := false }.run badFiles) ∧
    endsWithErr e ({ checkSample false [badLink] with skip := false }.run badFiles) := by
  decide +kernel

/-- with a limit of one, hash has stopped before -/
example : ({ hashSample with skip := false, limit := 1 }.run badFiles) =
    ({ hashSample with skip := false, limit := 1 }.run [("f", sampleBytes), ("-", sampleBytes)]) ∧
    (match { hashSample with skip := false, limit := 1 }.run badFiles with | .ok s => s.count == 1 | _ => false) = true := by
  decide +kernel

/-- the report of the link rule is missing, that of the other rule is there -/
example : { checkSample false [failRule "A", badLink] with skip := false }.run badFiles =
      .err (.parse (badLine 2 "-")) [⟨some (bs "123456789X"), bs "A", .error, none⟩, ⟨some (bs "123456789X"), bs "A", .error, none⟩] ∧
    { checkSample false [failRule "A", badLink] with skip := false }.run [("f", sampleBytes), ("-", sampleBytes)] =
      .ok [⟨some (bs "123456789X"), bs "A", .error, none⟩, ⟨some (bs "123456789X"), bs "A", .error, none⟩,
        ⟨some (bs "123456789X"), bs "L", .error, some (bs "1, 1")⟩] := by
  decide +kernel

end Pica.Props
