import Verif.Props.InvalidTwice

/-! # C04: several files and one file with their contents -/

namespace Pica.Spec
open Pica

/-- two ends of a record loop that differ in the message of an error only -/
inductive SameEnd {S : Type} : LoopResult S → LoopResult S → Prop
  | ok (s : S) : SameEnd (.ok s) (.ok s)
  | err (e e' : ReadErr) (s : S) : SameEnd (.err e s) (.err e' s)
  | panic : SameEnd .panic .panic

end Pica.Spec

namespace Pica.Props
open Pica Spec

theorem sameEnd_symm {S : Type} {a b : LoopResult S} (h : SameEnd a b) : SameEnd b a := by
  cases h <;> constructor

theorem sameEnd_trans {S : Type} {a b c : LoopResult S} (h : SameEnd a b) (h' : SameEnd b c) : SameEnd a c := by
  cases h <;> cases h' <;> constructor

/-- the record loop over lines; all errors are the same -/
def linesLoop {S : Type} (d : ReadErr) (skip : Bool) (onSkip : S → S) (body : S → ByteRecord → Step S) :
    List Bytes → S → LoopResult S
  | [], s => .ok s
  | l :: ls, s =>
    match ByteRecord.fromBytes l with
    | none => if skip then linesLoop d skip onSkip body ls (onSkip s) else .err d s
    | some r =>
      match body s r with
      | .next s' => linesLoop d skip onSkip body ls s'
      | .stop s' => .ok s'
      | .panic => .panic

theorem fileLoop_linesLoop {S : Type} {d : ReadErr} {skip : Bool} {onSkip : S → S} {body : S → ByteRecord → Step S}
    {src : Option String} {rest : List Bytes} {k : S → LoopResult S}
    (hk : ∀ s, SameEnd (k s) (linesLoop d skip onSkip body rest s)) (ls : List Bytes) : ∀ (n : Nat) (s : S),
    SameEnd (match fileLoop skip onSkip body (itemsFrom src n ls) s with
      | .eof s' => k s'
      | .done r => r) (linesLoop d skip onSkip body (ls ++ rest) s) := by
  induction ls with
  | nil => exact fun _ s => hk s
  | cons l ls ih =>
    intro n s
    rw [List.cons_append, linesLoop, itemsFrom, decodeLine]
    cases ByteRecord.fromBytes l with
    | none =>
      simp only [fileLoop, ReadErr.skipParse, Bool.true_and]
      cases skip with
      | true => exact ih _ _
      | false => exact .err _ _ _
    | some r =>
      simp only [fileLoop]
      cases body s r with
      | next s' => exact ih _ _
      | stop s' => exact .ok _
      | panic => exact .panic

theorem filesLoop_linesLoop {S : Type} (d : ReadErr) (skip : Bool) (onSkip : S → S) (body : S → ByteRecord → Step S)
    {files : List (String × Bytes)} {ls : List Bytes} (h : AllLines files ls) :
    ∀ s, SameEnd (filesLoop skip onSkip body files s) (linesLoop d skip onSkip body ls s) := by
  induction h with
  | nil => exact fun s => .ok s
  | cons hl _ ih =>
    intro s
    rw [filesLoop, readAll_lines hl]
    exact fileLoop_linesLoop ih _ _ _

theorem lines_append {la lb : List Bytes} {b : Bytes} (h : ∀ l ∈ la, ∃ t, LF ∉ t ∧ l = t ++ [LF]) (hb : Lines b lb) :
    Lines (la.flatten ++ b) (la ++ lb) := by
  induction la with
  | nil => exact hb
  | cons l la ih =>
    obtain ⟨t, ht, rfl⟩ := h l (by simp)
    rw [List.flatten_cons, List.append_assoc, List.append_assoc]
    exact .line t _ _ ht (ih (fun x hx => h x (by simp [hx])))

theorem lines_joined {files : List (String × Bytes)} {ls : List Bytes} (h : AllLines files ls)
    (ht : Terminated files.dropLast) : Lines (files.map (·.2)).flatten ls := by
  induction h with
  | nil => exact .eof
  | @cons name content l fs ls' hl h' ih =>
    cases fs with
    | nil =>
      cases h'
      simpa using hl
    | cons g gs =>
      rw [List.dropLast_cons_cons] at ht
      have h1 := terminated_lines hl (ht _ List.mem_cons_self)
      have h2 := lines_append h1 (ih (fun f hf => ht f (List.mem_cons_of_mem _ hf)))
      rw [lines_flatten hl] at h2
      exact h2

/-- **C04** `pica cmd a b` does what `cat a b | pica cmd` does, if every file but the last ends with a line feed: the
loop of every command ends in the same state and in the same way, up to the message of an error. -/
theorem C04_joined {S : Type} (skip : Bool) (onSkip : S → S) (body : S → ByteRecord → Step S)
    (files : List (String × Bytes)) (ht : Terminated files.dropLast) (name : String) (s : S) :
    SameEnd (filesLoop skip onSkip body files s)
      (filesLoop skip onSkip body [(name, (files.map (·.2)).flatten)] s) := by
  obtain ⟨ls, h⟩ := allLines_exists files
  have h1 := AllLines.cons (name := name) (lines_joined h ht) .nil
  rw [List.append_nil] at h1
  have d : ReadErr := .parse default
  exact sameEnd_trans (filesLoop_linesLoop d skip onSkip body h s)
    (sameEnd_symm (filesLoop_linesLoop d skip onSkip body h1 s))

/-- **C44** the same for `invalid`. -/
theorem C44_joined (files : List (String × Bytes)) (ht : Terminated files.dropLast) (name : String) :
    invalidRun [(name, (files.map (·.2)).flatten)] [] = invalidRun files [] := by
  obtain ⟨ls, h⟩ := allLines_exists files
  have h1 := AllLines.cons (name := name) (lines_joined h ht) .nil
  rw [List.append_nil] at h1
  rw [invalidRun_lines h, invalidRun_lines h1]

/-- the bytes that `concat` has written -/
def concatOut : LoopResult ConcatState → Option Bytes
  | .ok s => some s.out
  | _ => none

/-- **C04** where the condition fails, the parts of a record are read as one. -/
theorem C04_parts :
    let files := [("a", bs "003@ " ++ [0x1F]), ("b", bs "01" ++ [0x1E, 0x0A])]
    concatOut ((concatSample false .idn).run files) = some [] ∧
    concatOut ((concatSample false .idn).run [("c", (files.map (·.2)).flatten)]) = some (recLine "1") := by
  decide +kernel

/-- two files, the second without a line feed at its end, and a line that is no record -/
def joinSample : List (String × Bytes) := [("a", recLine "1" ++ bs "x\n"), ("b", recLine "2" ++ bs "y")]

example : Terminated joinSample.dropLast ∧
    concatOut ((concatSample false .idn).run joinSample) = some (recLine "1" ++ recLine "2") := by
  refine ⟨?_, by decide +kernel⟩
  intro f hf
  simp only [joinSample, List.dropLast_cons_cons, List.dropLast_singleton, List.mem_cons, List.not_mem_nil,
    or_false] at hf
  subst hf
  exact .inr (by decide +kernel)

end Pica.Props
