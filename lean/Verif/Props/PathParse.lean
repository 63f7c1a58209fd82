import Verif.Lemmas.PathRun
import Verif.Props.Path
import Verif.Props.Query
import Verif.Props.FormatParse
import Verif.Props.MatcherParse

/-! C63: which paths and queries are accepted. -/

namespace Pica.Props
open Pica Pica.Spec Parser

/-- **C63** every path `tag/occurrence.codes` and `tag/occurrence{ codes | filter }`,
with white space around it, is accepted, leaves the nesting levels as they were and
yields the addressed values. -/
theorem C63_path (rx : Bytes → Bool) (E : Env) (o : Opts) (hr : RegexOk rx E o) (w t : Bytes) (sel : Field → Prop)
    (v : Den (List Subfield)) (css : List Bytes) (hw : Ws w) (h : PathBody rx E o t sel v css)
    (s : Levels) (hs : s.sub = 0) :
    ∃ p, Path.new rx s (w ++ t) = (some p, s) ∧ ∀ r, p.values E o r = some (addressed sel v css r) := by
  obtain ⟨-, -, h3⟩ := pathBody_run rx h hs
  obtain ⟨p, ⟨rfl, rfl, hp⟩, hrun⟩ := h3 w hw []
  rw [List.append_nil] at hrun
  have hnew : Path.new rx s (w ++ t) = (some p, s) := TParser.parseAll_eq_some.2 hrun
  refine ⟨p, hnew, fun r => ?_⟩
  rw [← sameCodes_addressed hp]
  unfold Path.values
  rw [filterP_of_total, Option.map_some, addressed_eq]
  intro f _
  exact fieldTest_total.2 (fun _ => pathText_total hr (path_new_sound rx E o hnew).1 _)

/-- **C63** every sequence of paths, strings and formats separated by commas is
accepted as query, leaves the nesting levels as they were and yields the product of
the rows of its fragments. -/
theorem C63_query (rx : Bytes → Bool) (E : FmtEnv) (o : QueryOpts) (hr : RegexOk rx E.toEnv o.opts) (d : Nat)
    (t : Bytes) (ms : List (Nat × (Record → List (List Bytes)))) (h : QueryBody rx E o d t ms)
    (s : Levels) (hd : s.fmt + d ≤ 31) (hs : s.sub = 0) :
    ∃ q, Query.new rx s t = (some q, s) ∧ ∀ r, q.run E o r = some (product (ms.map (fun m =>
      if o.merge then merged o.separator m.1 (m.2 r) else m.2 r))) := by
  obtain ⟨q, hq, h2⟩ := queryBody_run rx E hd hs h
  refine ⟨q, hq, fun r => ?_⟩
  obtain ⟨hne, -, -⟩ := query_new_sound rx E o hq
  obtain ⟨rows, hrows, hrest⟩ := C24_parsed rx s s t q hq E o hr r
  clear hrest
  obtain ⟨parts, h3, rfl⟩ := run_product hne hrows
  rw [hrows]
  congr 2
  clear hrows h hne hq
  unfold FragsMean at h2
  generalize q.fragments = frs at h2 h3
  induction h2 generalizing parts with
  | nil => cases h3; rfl
  | @cons fr m frs ms h4 _ ih =>
    cases h3 with
    | @cons _ part _ parts h5 h6 =>
      rw [List.map_cons, ih _ h6]
      congr 1
      unfold Query.part at h5
      have hrun := h4.2 hr r
      rw [hrun] at h5
      simp only at h5
      by_cases hm : o.merge = true
      · rw [if_pos hm, merge_spec (run_rect hrun), Option.some.injEq] at h5
        rw [if_pos hm, ← h5, h4.1]
      · rw [if_neg hm, Option.some.injEq] at h5
        rw [if_neg hm, h5]

/-! ## cases -/

theorem exTag012A : IsTag (bs "012A") := by
  refine ⟨0x30, 0x31, 0x32, 0x41, by decide +kernel, ?_, ?_, ?_, ?_⟩ <;> decide

theorem exCodesOf {c : Byte} (hc : IsCode c) : CodesOf [c] [c] := by
  have := CodesText.one c hc
  unfold CodesOf
  simpa using this

/-- `012A{(a, b) | c? }` -/
theorem exPathBody (rx : Bytes → Bool) (E : Env) (o : Opts) :
    ∃ sel v, PathBody rx E o (bs "012A{(a, b) | c? }") sel v [[0x61], [0x62]] := by
  obtain ⟨ha, hb, hc, -⟩ := exCodes
  obtain ⟨h1, h2, h3, -⟩ := exSeq_ok (P := SubOperand rx E o) (exOperand_ok rx E o hc)
  have hf := FilterBody.some (w := [0x20]) (by simp [Ws]) (SubBody.mk (rx := rx) (E := E) (o := o) (Nat.zero_le 2) h1 h2 .zero)
  have hcodes := CodesBody.parens (w0 := []) (w1 := []) (w2 := [0x20]) (by simp [Ws])
    (ItemsText.more (R := CodesOf) (exCodesOf ha) ⟨[], [0x20], rfl, by simp [Ws], by simp [Ws]⟩ (.one (exCodesOf hb)))
    (by simp [Ws]) (by simp [Ws])
  have := PathBody.braces (rx := rx) (E := E) (o := o) (w0 := []) (w1 := []) (w2 := []) (exSelects _ exTag012A)
    (by simp [Ws]) (by simp [Ws]) hcodes hf (by simp [Ws])
  have fin : ∀ t sel v, PathBody rx E o t sel v [[0x61], [0x62]] → t = bs "012A{(a, b) | c? }" →
      ∃ sel v, PathBody rx E o (bs "012A{(a, b) | c? }") sel v [[0x61], [0x62]] := by
    rintro t _ _ h rfl; exact ⟨_, _, h⟩
  refine fin _ _ _ this ?_
  rw [h3]
  simp only [exOperand]
  decide +kernel

/-- `'x', 012A.a, 012A{a <*> b }` -/
example (rx : Bytes → Bool) (E : FmtEnv) (o : QueryOpts) :
    ∃ ms, QueryBody rx E o 0 (bs "'x', 012A.a, 012A{a <*> b }") ms ∧ ms.length = 3 := by
  obtain ⟨ha, hb, -⟩ := exCodes
  have f1 := FragBody.literal (rx := rx) (E := E) (o := o) (d := 0) (exString (c := 0x78) (by decide))
  have f2 := FragBody.path (rx := rx) (E := E) (o := o) (d := 0)
    (PathBody.dot (w := []) (exSelects _ exTag012A) (exCodesOf ha) (by simp [Ws]))
  have f3 := FragBody.format (rx := rx) (E := E) (o := o) (d := 0) (w0 := []) (w1 := []) (w2 := [])
    (s := ⟨⟨_, []⟩, [(bs "<*>", [0x20], ⟨_, []⟩)]⟩) (exSelects _ exTag012A) (by simp [Ws]) (by simp [Ws])
    ⟨by simp [Seq.signs, Ws], ⟨by simp [Seq.signs], exFmtVal E _ ha, by simp⟩, by
      intro x hx
      rw [List.mem_singleton] at hx
      subst hx
      exact ⟨by simp [Seq.signs], exFmtVal E _ hb, by simp⟩⟩
    (by simp only [FmtSeq.txt, FmtAnd.txt, Seq.text, List.map_cons, List.map_nil]; decide +kernel) .none (by simp [Ws])
  have hsep : Sep (bs ", ") := ⟨[], [0x20], by decide +kernel, by simp [Ws], by simp [Ws]⟩
  have := QueryBody.more f1 hsep (QueryBody.more f2 hsep (.one f3))
  have fin : ∀ t ms, QueryBody rx E o 0 t ms → t = bs "'x', 012A.a, 012A{a <*> b }" → ms.length = 3 →
      ∃ ms, QueryBody rx E o 0 (bs "'x', 012A.a, 012A{a <*> b }") ms ∧ ms.length = 3 := by
    rintro t _ h rfl hl; exact ⟨_, h, hl⟩
  refine fin _ _ this ?_ rfl
  simp only [FmtSeq.txt, FmtAnd.txt, Seq.text, List.map_cons, List.map_nil]
  decide +kernel

/-- a format of codes only is read as a path -/
example : (Query.new (fun _ => true) Levels.zero (bs "012A{a}")).1.map (fun q => q.fragments.map (fun f =>
    match f with | .path _ => true | _ => false)) = some [true] := by decide +kernel

end Pica.Props
