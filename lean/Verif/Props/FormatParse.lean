import Verif.Lemmas.FormatDepth
import Verif.Props.Format
import Verif.Props.Precedence

/-! C27: which formats are accepted. -/

namespace Pica.Props
open Pica Pica.Spec Parser

/-- **C27** every text built from values, groups, `<$>` and `<*>` as described by
`FormatBody`, with groups nested at most 31 deep, is accepted, leaves the nesting
levels as they were and yields the non-empty renderings of the selected fields. -/
theorem C27_accept (rx : Bytes → Bool) (E : FmtEnv) (o : FmtOpts) (hr : RegexOk rx E.toEnv o.opts)
    (d : Nat) (text : Bytes) (sel : Field → Prop) (v : Den (List Subfield)) (g : Field → Bytes)
    (h : FormatBody rx E o d text sel v g) (s : Levels) (hs : s.fmt + d ≤ 31) (hsub : s.sub = 0) :
    ∃ fm, Format.new rx s text = (some fm, s) ∧ ∀ r, fm.run E o r = some (rendered sel v g r) := by
  obtain ⟨fm, h1, rfl, rfl, h2⟩ := formatBody_run (rx := rx) E o h hs hsub
  obtain ⟨g', h3, -⟩ := format_new_sound E o rx h1
  exact ⟨fm, h1, fun r => format_run h2 (fun f _ => fieldTest_total.2 (fun _ => formatText_total hr h3 _))⟩

/-- **C27** no accepted format has groups nested deeper than 31. -/
theorem C27_depth (rx : Bytes → Bool) (s s' : Levels) (text : Bytes) (fm : Format)
    (h : Format.new rx s text = (some fm, s')) : fm.fragments.depth ≤ 31 := by
  have := format_depth rx h
  unfold DepthOk at this
  omega

/-- a value without modifier, prefix and suffix -/
theorem exFmtVal (E : FmtEnv) (o : FmtOpts) {c : Byte} (hc : IsCode c) :
    FmtVal E o ⟨[c, 0x20], fun f => taken o.strip [c] 1 [] [] f⟩ := by
  have h1 : CodesOf [c] [c] := by
    have := CodesText.one c hc
    unfold CodesOf
    simpa using this
  have h2 : c ≠ 0x3F := by rintro rfl; revert hc; simp [IsCode]; try decide
  have := FmtVal.mk (E := E) (o := o) (w := [0x20]) (.none (by simpa using h2)) .none h1 .none .none (by simp [Ws])
  simpa using this

/-- a concrete case: `a <*> (?u b <$> 'x'c)..2` -/
example (rx : Bytes → Bool) (E : FmtEnv) (o : FmtOpts) :
    ∃ sel v g, FormatBody rx E o 1 (bs "012A{a <*> (?u b <$> 'x'c )..2}") sel v g := by
  obtain ⟨ha, hb, hc, -⟩ := exCodes
  have t1 : IsTag (bs "012A") := by
    refine ⟨0x30, 0x31, 0x32, 0x41, by decide +kernel, ?_, ?_, ?_, ?_⟩ <;> decide
  have v1 := exFmtVal E o ha
  have v2 := exFmtVal E o hb
  have hcs : CodesOf [0x63] [0x63] := by
    have := CodesText.one 0x63 hc
    unfold CodesOf
    simpa using this
  have v3 := FmtVal.mk (E := E) (o := o) (tm := []) (c := [0x63]) (w := [0x20]) (.none (by simp))
    (.some (w := []) (exString (c := 0x78) (by decide)) (by simp [Ws])) hcs .none .none (by simp [Ws])
  have g1 := FmtGroup.mk (E := E) (o := o) (P := FmtPart E o 0) (w0 := []) (w1 := []) (w2 := [])
    (s := ⟨⟨_, [(bs "<$>", [0x20], _)]⟩, []⟩) (tm := bs "?" ++ [0x75] ++ [0x20]) (by simp [Ws])
    (.some (by simp) (by decide +kernel) (by simp [Ws]) (by simp))
    ⟨by simp [Seq.signs], ⟨by simp [Seq.signs, Ws], v2, by simpa [FmtPart] using v3⟩, by simp⟩
    (.inl (.inr (by simp [Seq.many]))) (by simp [Ws])
    (.num (ds := [0x32]) (by simp) (by simp) (by decide)) (by simp [Ws])
  have := FormatBody.mk (rx := rx) (E := E) (o := o) (d := 1) (w0 := []) (w1 := []) (w2 := [])
    (s := ⟨⟨_, []⟩, [(bs "<*>", [0x20], ⟨_, []⟩)]⟩) (exSelects _ t1) (by simp [Ws]) (by simp [Ws])
    ⟨by simp [Seq.signs, Ws], ⟨by simp [Seq.signs], .inl v1, by simp⟩, by
      intro x hx
      rw [List.mem_singleton] at hx
      subst hx
      exact ⟨by simp [Seq.signs], .inr g1, by simp⟩⟩ .none (by simp [Ws])
  have fin : ∀ t sel v g, FormatBody rx E o 1 t sel v g → t = bs "012A{a <*> (?u b <$> 'x'c )..2}" →
      ∃ sel v g, FormatBody rx E o 1 (bs "012A{a <*> (?u b <$> 'x'c )..2}") sel v g := by
    rintro t _ _ _ h rfl; exact ⟨_, _, _, h⟩
  refine fin _ _ _ _ this ?_
  simp only [FmtSeq.txt, FmtAnd.txt, Seq.text, List.map_cons, List.map_nil]
  decide +kernel

/-- `n` groups around two values -/
def exNest : Nat → Bytes
  | 0 => bs "a <*> b"
  | n + 1 => bs "(a <$> " ++ exNest n ++ bs ")"

example : (Format.new (fun _ => true) Levels.zero (bs "012A{" ++ exNest 3 ++ bs "}")).1.map
    (fun fm => fm.fragments.depth) = some 3 := by decide +kernel

end Pica.Props
