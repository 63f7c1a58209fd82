import Verif.Lemmas.Command

/-! The records and the validity of concrete files, for the examples beside the property theorems. -/

namespace Pica
open Spec

/-- the lines of a text -/
def cutLines : Bytes → List Bytes
  | [] => []
  | b :: r =>
    if b = LF then [b] :: cutLines r
    else match cutLines r with
      | [] => [[b]]
      | l :: ls => (b :: l) :: ls

theorem cutLines_spec : ∀ b : Bytes, Lines b (cutLines b)
  | [] => .eof
  | b :: r => by
    have ih := cutLines_spec r
    rw [cutLines]
    split
    · rename_i h
      subst h
      exact .line [] r _ (by simp) ih
    · rename_i h
      cases hr : cutLines r with
      | nil =>
        rw [hr] at ih
        cases ih
        exact .last [b] (by simp) (by simp only [List.mem_singleton]; exact Ne.symm h)
      | cons l ls =>
        rw [hr] at ih
        cases ih with
        | last _ h1 h2 => exact .last _ (by simp) (by simp only [List.mem_cons, not_or]; exact ⟨Ne.symm h, h2⟩)
        | line t rest _ h1 h2 =>
          exact .line (b :: t) rest ls (by simp only [List.mem_cons, not_or]; exact ⟨Ne.symm h, h1⟩) h2

/-- the records of files -/
def inputOf (files : List (String × Bytes)) : List ByteRecord :=
  files.flatMap (fun f => (cutLines f.2).filterMap ByteRecord.fromBytes)

theorem input_of : ∀ files, Input files (inputOf files)
  | [] => .nil
  | (name, b) :: fs => .cons (name := name) (cutLines_spec b) (input_of fs)

theorem input_is {files : List (String × Bytes)} {rs : List ByteRecord} (h : inputOf files = rs) : Input files rs :=
  h ▸ input_of files

/-- whether each line of the files is a record -/
def allValidOf (files : List (String × Bytes)) : Bool :=
  files.all (fun f => (cutLines f.2).all (fun l => (Record.fromBytes l).isSome))

theorem allValid_of {files : List (String × Bytes)} (h : allValidOf files = true) : AllValid files := by
  intro f hf ls hl l hm
  rw [lines_unique hl (cutLines_spec f.2)] at hm
  rw [allValidOf, List.all_eq_true] at h
  have := h f hf
  rw [List.all_eq_true] at this
  exact this l hm

theorem isRecord_of {b : Bytes} {r : Record} (h : Record.fromBytes b = some r) : IsRecord r :=
  (Record.fromBytes_eq_some.1 h).2.1

end Pica
