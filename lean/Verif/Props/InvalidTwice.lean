import Verif.Props.ConcatStages

/-! # C44: the lines that `invalid` and `concat` have written -/

namespace Pica.Props
open Pica Spec

/-- every file is empty or ends with a line feed -/
def Terminated (files : List (String × Bytes)) : Prop := ∀ f ∈ files, f.2 = [] ∨ f.2.getLast? = some LF

theorem terminated_lines {b : Bytes} {ls : List Bytes} (h : Lines b ls) (ht : b = [] ∨ b.getLast? = some LF) :
    ∀ l ∈ ls, ∃ t, LF ∉ t ∧ l = t ++ [LF] := by
  induction h with
  | eof => simp
  | last t hne hl =>
    rcases ht with ht | ht
    · exact absurd ht hne
    · exact absurd (List.mem_of_getLast? ht) hl
  | line t rest ls hl _ ih =>
    intro l hm
    rcases List.mem_cons.1 hm with rfl | hm
    · exact ⟨t, hl, rfl⟩
    · refine ih ?_ l hm
      cases rest with
      | nil => exact .inl rfl
      | cons x rest =>
        right
        rcases ht with ht | ht
        · simp at ht
        · rw [List.getLast?_append_of_ne_nil _ (by simp), List.getLast?_cons_cons] at ht
          exact ht

theorem lines_again {ls : List Bytes} (h : ∀ l ∈ ls, ∃ t, LF ∉ t ∧ l = t ++ [LF]) : Lines ls.flatten ls := by
  induction ls with
  | nil => exact .eof
  | cons l ls ih =>
    obtain ⟨t, ht, rfl⟩ := h l (by simp)
    rw [List.flatten_cons, List.append_assoc]
    exact .line t _ _ ht (ih (fun x hx => h x (by simp [hx])))

theorem allLines_terminated {files : List (String × Bytes)} {ls : List Bytes} (h : AllLines files ls)
    (ht : Terminated files) : ∀ l ∈ ls, ∃ t, LF ∉ t ∧ l = t ++ [LF] := by
  induction h with
  | nil => simp
  | cons hl _ ih =>
    intro l hm
    rcases List.mem_append.1 hm with hm | hm
    · exact terminated_lines hl (ht _ List.mem_cons_self) l hm
    · exact ih (fun f hf => ht f (by simp [hf])) l hm

/-- **C44** `invalid | invalid` is `invalid`, if every file ends with a line feed. -/
theorem C44_twice (files : List (String × Bytes)) (ht : Terminated files) (name : String) :
    invalidRun [(name, invalidRun files [])] [] = invalidRun files [] := by
  obtain ⟨ls, h⟩ := allLines_exists files
  have e := invalidRun_lines h []
  rw [List.nil_append] at e
  rw [e]
  have h1 := lines_again (ls := ls.filter (fun l => decide (¬ ValidLine l)))
    (fun l hl => allLines_terminated h ht l (List.mem_filter.1 hl).1)
  have h2 := invalidRun_lines (AllLines.cons (name := name) h1 .nil) []
  rw [h2, List.nil_append, List.append_nil, List.filter_filter]
  simp

/-- **C44** without that condition it is false: the last line of a file without a line feed and the first line of the next file
become one line, which may be a record. -/
theorem C44_merged :
    let files := [("a", bs "003@ " ++ [0x1F]), ("b", bs "01" ++ [0x1E, 0x0A])]
    invalidRun files [] = recLine "1" ∧ invalidRun [("c", recLine "1")] [] = [] := by decide +kernel

/-- **C44** `concat --skip-invalid | invalid` is empty, and `invalid | concat --skip-invalid`, too, if every file ends
with a line feed. -/
theorem C44_nothing_left (c : ConcatCmd) (hs : c.skip = true) (files : List (String × Bytes)) (name : String) :
    (∀ s, c.run files = .ok s → invalidRun [(name, s.out)] [] = []) ∧
    (Terminated files → ∃ t, c.run [(name, invalidRun files [])] = .ok t ∧ t.out = []) := by
  constructor
  · intro s h
    obtain ⟨rs, hi⟩ := input_exists files
    obtain ⟨kept, h1, h2, -⟩ := concat_kept c rs _ s (filesLoop_ok hi h)
    rw [List.nil_append] at h2
    obtain ⟨hl, hr⟩ := lines_of_records (fun r hr => input_lineRecord hi r (h1.mem hr))
    rw [h2, invalidRun_lines (AllLines.cons (name := name) hl .nil) [], List.nil_append, List.append_nil]
    rw [List.filter_eq_nil_iff.2, List.flatten_nil]
    intro l hm
    obtain ⟨r, hr, rfl⟩ := List.mem_map.1 hm
    obtain ⟨t, ht, h3, h4⟩ := input_lineRecord hi r (h1.mem hr)
    simp only [decide_not, Bool.not_eq_true', decide_eq_false_iff_not, not_not]
    rw [validLine_iff, ← fromBytes_isSome, h4, h3]
    rfl
  · intro ht
    obtain ⟨ls, h⟩ := allLines_exists files
    have e := invalidRun_lines h []
    rw [List.nil_append] at e
    rw [e]
    have h1 := lines_again (ls := ls.filter (fun l => decide (¬ ValidLine l)))
      (fun l hl => allLines_terminated h ht l (List.mem_filter.1 hl).1)
    have hi := allLines_input (AllLines.cons (name := name) h1 .nil)
    have hn : (ls.filter (fun l => decide (¬ ValidLine l)) ++ []).filterMap ByteRecord.fromBytes = [] := by
      rw [List.append_nil, List.filterMap_eq_nil_iff]
      intro l hl
      have := (List.mem_filter.1 hl).2
      simp only [decide_not, Bool.not_eq_true', decide_eq_false_iff_not] at this
      rw [validLine_iff, ← fromBytes_isSome] at this
      simpa using this
    rw [hn] at hi
    refine ⟨_, filesLoop_clean hi (.inl hs) .., rfl⟩

/-- a valid line between two that are not -/
example : Terminated [("a", bs "x\n" ++ recLine "1" ++ bs "y\n"), ("b", [])] ∧
    invalidRun [("a", bs "x\n" ++ recLine "1" ++ bs "y\n"), ("b", [])] [] = bs "x\ny\n" := by
  refine ⟨?_, by decide +kernel⟩
  intro f hf
  simp only [List.mem_cons, List.not_mem_nil, or_false] at hf
  rcases hf with rfl | rfl
  · exact .inr (by decide +kernel)
  · exact .inl rfl

end Pica.Props
