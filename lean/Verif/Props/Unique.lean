import Verif.Lemmas.UniqueFormat
import Verif.Props.Display
import Verif.Props.MatcherParse

/-! C16, C20, C23, C27, C54: a text has one meaning.

The grammars of Spec/Expr, Spec/Atoms, Spec/Path and Spec/Format relate texts to
meanings.  Here it is proved that no text has two meanings.  So everything that is
accepted, at any time, has the meaning the grammar gives it, and printed matchers keep
their meaning. -/

namespace Pica.Props
open Spec

/-- **C16** (subfields) An expression has at most one meaning by precedence and
parentheses. -/
theorem C16_sub_unique (rx : Bytes → Bool) (E : Env) (o : Opts) (t : Bytes) (v v' : Den (List Subfield))
    (h : SubExprText rx E o t v) (h' : SubExprText rx E o t v') : v = v' :=
  (subExpr_det t v t v' [] [] h h' (.inl rfl) (.inl rfl) rfl).1

/-- **C16** (fields and records) -/
theorem C16_field_unique (rx : Bytes → Bool) (E : Env) (o : Opts) (t : Bytes) (v v' : Den (List Field))
    (h : FldExprText rx E o t v) (h' : FldExprText rx E o t v') : v = v' :=
  (fldExpr_det t v t v' [] [] h h' (.inl rfl) (.inl rfl) rfl).1

/-- **C20** (subfields) Whenever a text is accepted, after whatever earlier calls, it
means the same.  What earlier calls can change is whether it is accepted. -/
theorem C20_sub_meaning (rx : Bytes → Bool) (E : Env) (o : Opts) (s s₁ s₂ s₃ : Levels) (t : Bytes)
    (m m' : SubMatcher) (h : SubMatcher.new rx s t = (some m, s₁))
    (h' : SubMatcher.new rx s₂ t = (some m', s₃)) (sf : List Subfield) : m.eval E o sf = m'.eval E o sf := by
  rw [C16_sub_unique rx E o t _ _ (subMatcher_new_sound E o h) (subMatcher_new_sound E o h')]

/-- **C20** (fields and records) -/
theorem C20_field_meaning (rx : Bytes → Bool) (E : Env) (o : Opts) (s s₁ s₂ s₃ : Levels) (t : Bytes)
    (m m' : FieldMatcher) (h : FieldMatcher.new rx s t = (some m, s₁))
    (h' : FieldMatcher.new rx s₂ t = (some m', s₃)) (fs : List Field) : m.eval E o fs = m'.eval E o fs := by
  rw [C16_field_unique rx E o t _ _ (fieldMatcher_new_sound E o h) (fieldMatcher_new_sound E o h')]

/-- **C54** (subfields) If the printed text is accepted, it means the same as the
matcher. -/
theorem C54_sub_meaning (rx : Bytes → Bool) (E : Env) (o : Opts) (m m' : SubMatcher) (hm : SubBuilt rx m)
    (s s' : Levels) (h : SubMatcher.new rx s m.display = (some m', s')) (sf : List Subfield) :
    m'.eval E o sf = m.eval E o sf := by
  rw [C16_sub_unique rx E o _ _ _ (subMatcher_new_sound E o h) (C54_sub_partial rx E o m hm)]

/-- **C54** (fields and records) -/
theorem C54_field_meaning (rx : Bytes → Bool) (E : Env) (o : Opts) (m m' : FieldMatcher) (hm : FldBuilt rx m)
    (s s' : Levels) (h : FieldMatcher.new rx s m.display = (some m', s')) (fs : List Field) :
    m'.eval E o fs = m.eval E o fs := by
  rw [C16_field_unique rx E o _ _ _ (fieldMatcher_new_sound E o h) (C54_field_partial rx E o m hm)]

/-- **C23** A path addresses the same values under every reading of its text. -/
theorem C23_unique (rx : Bytes → Bool) (E : Env) (o : Opts) (t : Bytes) (sel sel' : Field → Prop)
    (v v' : Den (List Subfield)) (css css' : List Bytes) (h : PathText rx E o t sel v css)
    (h' : PathText rx E o t sel' v' css') (r : Record) : addressed sel v css r = addressed sel' v' css' r := by
  obtain ⟨rfl, rfl, h3⟩ := pathText_unique h h'
  exact sameCodes_addressed h3 r

/-- **C27** A format renders the same under every reading of its text. -/
theorem C27_unique (rx : Bytes → Bool) (E : FmtEnv) (o : FmtOpts) (t : Bytes) (sel sel' : Field → Prop)
    (v v' : Den (List Subfield)) (g g' : Field → Bytes) (h : FormatText rx E o t sel v g)
    (h' : FormatText rx E o t sel' v' g') : sel = sel' ∧ v = v' ∧ g = g' :=
  formatText_unique h h'

/-- **C20** (paths) Whenever a path is accepted, after whatever earlier calls, it yields
the same values. -/
theorem C20_path_meaning (rx : Bytes → Bool) (E : Env) (o : Opts) (hr : RegexOk rx E o) (s s₁ s₂ s₃ : Levels)
    (t : Bytes) (p p' : Path) (h : Path.new rx s t = (some p, s₁)) (h' : Path.new rx s₂ t = (some p', s₃))
    (r : Record) : p.values E o r = p'.values E o r := by
  obtain ⟨sel, v, h1, h2⟩ := C23_text rx s s₁ t p h E o hr
  obtain ⟨sel', v', h1', h2'⟩ := C23_text rx s₂ s₃ t p' h' E o hr
  rw [h2, h2', C23_unique rx E o t sel sel' v v' _ _ h1 h1']

/-- **C20** (formats) Whenever a format is accepted, after whatever earlier calls, it
renders the same. -/
theorem C20_format_meaning (rx : Bytes → Bool) (E : FmtEnv) (o : FmtOpts) (hr : RegexOk rx E.toEnv o.opts)
    (s s₁ s₂ s₃ : Levels) (t : Bytes) (fm fm' : Format) (h : Format.new rx s t = (some fm, s₁))
    (h' : Format.new rx s₂ t = (some fm', s₃)) (r : Record) : fm.run E o r = fm'.run E o r := by
  obtain ⟨sel, v, g, h1, h2⟩ := C27_text rx s s₁ t fm h E o hr
  obtain ⟨sel', v', g', h1', h2'⟩ := C27_text rx s₂ s₃ t fm' h' E o hr
  obtain ⟨rfl, rfl, rfl⟩ := formatText_unique h1 h1'
  rw [h2, h2']

/-! Examples. -/

/-- accepted on a new thread and after calls that changed the counters -/
example : (SubMatcher.new (fun _ => true) Levels.zero (bs "!a? && b == 'x' || (c? ^ d?)")).1.isSome = true ∧
    (SubMatcher.new (fun _ => true) ⟨1, 7, 9⟩ (bs "!a? && b == 'x' || (c? ^ d?)")).1.isSome = true := by
  decide +kernel
example : (FieldMatcher.new (fun _ => true) Levels.zero (bs "012A? && (013A.a? || #014A > 2)")).1.isSome = true ∧
    (FieldMatcher.new (fun _ => true) ⟨3, 200, 9⟩ (bs "012A? && (013A.a? || #014A > 2)")).1.isSome = true := by
  decide +kernel
example : (Path.new (fun _ => true) Levels.zero (bs "012A/*{ (a, [bc]) | (d?) }")).1.isSome = true ∧
    (Path.new (fun _ => true) ⟨1, 200, 9⟩ (bs "012A/*{ (a, [bc]) | (d?) }")).1.isSome = true := by
  decide +kernel
example : (Format.new (fun _ => true) Levels.zero (bs "028A{ a <*> (?u ', ' d <$> c) }")).1.isSome = true ∧
    (Format.new (fun _ => true) ⟨1, 200, 9⟩ (bs "028A{ a <*> (?u ', ' d <$> c) }")).1.isSome = true := by
  decide +kernel

/-- a printed text that is accepted -/
example : (subM "a == 'x' || b?").bind (fun a => (subM " c  in ['1','2'] ").bind (fun b =>
      (SubMatcher.new (fun _ => true) Levels.zero (a.bitand b).bitnot.display).1.map (fun m =>
        m.eval toyEnv ⟨false⟩ [⟨0x61, bs "x"⟩]))) = some (some true) := by decide +kernel

end Pica.Props
