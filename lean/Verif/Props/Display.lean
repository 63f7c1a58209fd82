import Verif.Lemmas.DisplayRead
import Verif.Props.Format
import Verif.Props.Matcher
import Verif.Props.MatcherParse
import Verif.Props.Precedence
import Verif.Props.Query

/-! C54: printed matchers, paths, queries and formats. -/

namespace Pica.Props
open Pica Pica.Spec Parser

/-- the subfield matchers a program can build: parsed from a text and combined
with the overloaded operators -/
inductive SubBuilt (rx : Bytes → Bool) : SubMatcher → Prop
  | parsed {s s' t m} : SubMatcher.new rx s t = (some m, s') → SubBuilt rx m
  | and {a b} : SubBuilt rx a → SubBuilt rx b → SubBuilt rx (a.bitand b)
  | or {a b} : SubBuilt rx a → SubBuilt rx b → SubBuilt rx (a.bitor b)
  | xor {a b} : SubBuilt rx a → SubBuilt rx b → SubBuilt rx (a.bitxor b)
  | not {a} : SubBuilt rx a → SubBuilt rx a.bitnot
  | andAssign {a b} : SubBuilt rx a → SubBuilt rx b → SubBuilt rx (a.bitandAssign b)
  | orAssign {a b} : SubBuilt rx a → SubBuilt rx b → SubBuilt rx (a.bitorAssign b)
  | xorAssign {a b} : SubBuilt rx a → SubBuilt rx b → SubBuilt rx (a.bitxorAssign b)

/-- the field and record matchers a program can build -/
inductive FldBuilt (rx : Bytes → Bool) : FieldMatcher → Prop
  | parsed {s s' t m} : FieldMatcher.new rx s t = (some m, s') → FldBuilt rx m
  | and {a b} : FldBuilt rx a → FldBuilt rx b → FldBuilt rx (a.bitand b)
  | or {a b} : FldBuilt rx a → FldBuilt rx b → FldBuilt rx (a.bitor b)
  | xor {a b} : FldBuilt rx a → FldBuilt rx b → FldBuilt rx (a.bitxor b)
  | not {a} : FldBuilt rx a → FldBuilt rx a.bitnot
  | andAssign {a b} : FldBuilt rx a → FldBuilt rx b → FldBuilt rx (a.bitandAssign b)
  | orAssign {a b} : FldBuilt rx a → FldBuilt rx b → FldBuilt rx (a.bitorAssign b)
  | xorAssign {a b} : FldBuilt rx a → FldBuilt rx b → FldBuilt rx (a.bitxorAssign b)

/-- **C54** (subfields) The printed text of a subfield matcher is an expression of
the language whose meaning, by precedence and parentheses, is the meaning of the
matcher. -/
theorem C54_sub_partial (rx : Bytes → Bool) (E : Env) (o : Opts) (m : SubMatcher) (h : SubBuilt rx m) :
    SubExprText rx E o m.display (m.eval E o) := by
  suffices SubOk rx E o m from this.toOr
  induction h with
  | parsed h => exact subMatcher_new_ok E o h
  | and _ _ ha hb => exact ha.bitand hb
  | or _ _ ha hb => exact ha.bitor hb
  | xor _ _ ha hb => exact ha.bitxor hb
  | not _ ha => exact ha.bitnot
  | andAssign _ _ ha hb => exact ha.bitand hb
  | orAssign _ _ ha hb => exact ha.bitor hb
  | xorAssign _ _ ha hb => exact ha.bitxor hb

/-- **C54** (fields and records) -/
theorem C54_field_partial (rx : Bytes → Bool) (E : Env) (o : Opts) (m : FieldMatcher) (h : FldBuilt rx m) :
    FldExprText rx E o m.display (m.eval E o) := by
  suffices FldOk rx E o m from this.toOr
  induction h with
  | parsed h => exact fieldMatcher_new_ok E o h
  | and _ _ ha hb => exact ha.bitand hb
  | or _ _ ha hb => exact ha.bitor hb
  | xor _ _ ha hb => exact ha.bitxor hb
  | not _ ha => exact ha.bitnot
  | andAssign _ _ ha hb => exact ha.bitand hb
  | orAssign _ _ ha hb => exact ha.bitor hb
  | xorAssign _ _ ha hb => exact ha.bitxor hb

theorem builderLoop_built {rx : Bytes → Bool} {f : FieldMatcher → FieldMatcher → FieldMatcher}
    (hf : ∀ a b, FldBuilt rx a → FldBuilt rx b → FldBuilt rx (f a b)) (ts : List Bytes) (s s' : Levels)
    (m m' : FieldMatcher) (hm : FldBuilt rx m) (h : builderLoop rx f ts s m = (some m', s')) :
    FldBuilt rx m' := by
  induction ts generalizing s m with
  | nil => rw [builderLoop_nil] at h; cases h; exact hm
  | cons t ts ih =>
    rw [builderLoop_cons] at h
    split at h
    · rename_i p s1 hp
      exact ih _ _ (hf _ _ hm (.parsed hp)) h
    · simp at h

theorem builderCalls_built {rx : Bytes → Bool} (cs : List BuilderCall) (s s' : Levels)
    (m m' : FieldMatcher) (hm : FldBuilt rx m) (h : builderCalls rx cs s m = (some m', s')) :
    FldBuilt rx m' := by
  induction cs generalizing s m with
  | nil => simp only [builderCalls, Prod.mk.injEq, Option.some.injEq] at h; rw [← h.1]; exact hm
  | cons c cs ih =>
    simp only [builderCalls] at h
    split at h
    · rename_i p s1 hp
      refine ih _ _ ?_ h
      cases c with
      | and ps => exact builderLoop_built (fun _ _ ha hb => .andAssign ha hb) _ _ _ _ _ hm hp
      | or ps => exact builderLoop_built (fun _ _ ha hb => .orAssign ha hb) _ _ _ _ _ hm hp
      | not ps => exact builderLoop_built (fun _ _ ha hb => .andAssign ha (.not hb)) _ _ _ _ _ hm hp
    · simp at h

/-- **C54** (builder) The same for the matcher assembled from the command line options
`--and`, `--or` and `--not`. -/
theorem C54_builder_partial (rx : Bytes → Bool) (E : Env) (o : Opts) (s s' : Levels) (base : Bytes)
    (cs : List BuilderCall) (m : FieldMatcher) (h : RecordMatcher.build rx s base cs = (some m, s')) :
    FldExprText rx E o m.display (m.eval E o) := by
  refine C54_field_partial rx E o m ?_
  unfold RecordMatcher.build at h
  split at h
  · rename_i b s1 hb
    exact builderCalls_built _ _ _ _ _ (.parsed hb) h
  · simp at h

/-- **C54** (tags) A tag matcher prints the text it was read from, so it is read back. -/
theorem C54_tag (t : Bytes) (m : TagMatcher) (h : TagMatcher.new t = some m) :
    m.display = t ∧ TagMatcher.new m.display = some m := by
  have e := tag_display h
  exact ⟨e, by rw [e]; exact h⟩

/-- **C54** (occurrences) An occurrence matcher is read back from its printed text, which is
the text it was read from, except that `/00` is printed as the empty text. -/
theorem C54_occ (t : Bytes) (m : OccMatcher) (h : OccMatcher.new t = some m) :
    (m.display = t ∨ t = bs "/00" ∧ m.display = []) ∧ OccMatcher.new m.display = some m := by
  obtain ⟨h1, h2⟩ := occ_display h
  refine ⟨h1.imp id ?_, h2⟩
  rintro ⟨rfl, rfl⟩
  exact ⟨rfl, rfl⟩

theorem parsed_raw {α β : Type} {f : α × Bytes → β} {q : TParser α} {s s' : Levels} {text : Bytes} {m : β}
    (h : (TParser.map f (TParser.withTaken q)).parseAll s text = (some m, s')) : ∃ x, m = f (x, text) :=
  traw_of_taken (TParser.parseAll_eq_some.1 h) (List.append_nil _).symm

/-- **C54** (paths) A path prints the text it was read from. -/
theorem C54_path (rx : Bytes → Bool) (s s' : Levels) (text : Bytes) (p : Path)
    (h : Path.new rx s text = (some p, s')) :
    p.display = text ∧ Path.new rx s p.display = (some p, s') := by
  suffices p.display = text from ⟨this, by rw [this]; exact h⟩
  unfold Path.new at h
  have h := TParser.parseAll_eq_some.1 h
  unfold pPath TParser.alt at h
  cases hx : TParser.lift pPathSimple s text with
  | mk a s1 =>
    rw [hx] at h
    cases a with
    | none =>
      simp only at h
      unfold pPathCurly at h
      obtain ⟨x, rfl⟩ := traw_of_taken h (List.append_nil _).symm
      rfl
    | some y =>
      simp only at h
      obtain ⟨h, rfl⟩ := Prod.mk.inj h
      rw [← hx, TParser.lift] at h
      unfold pPathSimple at h
      obtain ⟨x, rfl⟩ := raw_of_taken (Prod.mk.inj h).1 (List.append_nil _).symm
      rfl

/-- **C54** (queries) A query prints the text it was read from. -/
theorem C54_query (rx : Bytes → Bool) (s s' : Levels) (text : Bytes) (q : Query)
    (h : Query.new rx s text = (some q, s')) :
    q.display = text ∧ Query.new rx s q.display = (some q, s') := by
  suffices q.display = text from ⟨this, by rw [this]; exact h⟩
  obtain ⟨x, rfl⟩ := parsed_raw h
  rfl

/-- **C54** (formats) A format prints the text it was read from without white space at
the end, and this text is a format with the meaning of the original. -/
theorem C54_format_partial (rx : Bytes → Bool) (s s' : Levels) (text : Bytes) (fm : Format)
    (h : Format.new rx s text = (some fm, s')) (E : FmtEnv) (o : FmtOpts) (hr : RegexOk rx E.toEnv o.opts) :
    (∃ w, text = fm.display ++ w ∧ Ws w) ∧
    ∃ sel v g, FormatText rx E o fm.display sel v g ∧ ∀ r, fm.run E o r = some (rendered sel v g r) := by
  have hraw : fm.display = trimAscii text := by
    have h := TParser.parseAll_eq_some.1 h
    unfold pFormat at h
    obtain ⟨x, rfl⟩ := traw_of_taken h (List.append_nil _).symm
    rfl
  obtain ⟨sel, v, g, h1, h2⟩ := C27_text rx s s' text fm h E o hr
  rw [hraw]
  cases h1 with
  | @mk t to _ tl tg _ tf _ tr g1 g2 g3 g4 g5 =>
    obtain ⟨u, w, rfl, hw, hu, hs⟩ := padded_right (by
      rintro _ rfl; exact ⟨[], 0x7D, by rw [← bs_rbrace]; rfl, by decide⟩) g5
    have e : trimAscii (t ++ to ++ (tl ++ (tg ++ tf) ++ (u ++ w))) = t ++ to ++ (tl ++ (tg ++ tf) ++ u) := by
      have hn : NoWs (t ++ (to ++ (tl ++ (tg ++ tf) ++ u))) := by
        obtain ⟨m, om, h3, -⟩ := g1
        exact (tagText_noWs h3 _).1
      have := trim_solid (w := []) (w' := w) (t := t ++ (to ++ (tl ++ (tg ++ tf) ++ u))) ws_nil hn
        (by have := hs.append (t ++ (to ++ (tl ++ (tg ++ tf)))); simpa using this) hw
      simpa using this
    rw [e]
    exact ⟨⟨w, by simp, hw⟩, sel, v, g, .mk g1 g2 g3 g4 hu, h2⟩

/-- Matchers put together with the operators from matchers that print as simple
operands.  `d` bounds the depth of groups.  Excluded are `(a & b) ^ c` as an operand
of `|` and the negations printed without parentheses. -/
inductive FldMade (rx : Bytes → Bool) (E : Env) (o : Opts) (br : Bool) : Nat → FieldMatcher → Prop
  | leaf {d m} : FieldOperand rx E o br ⟨m.display, m.eval E o⟩ → FldMade rx E o br d m
  | and {d a b} : FldMade rx E o br d a → FldMade rx E o br d b → FldMade rx E o br (d + 1) (a.bitand b)
  | xor {d a b} : FldMade rx E o br d a → FldMade rx E o br d b → FldMade rx E o br (d + 1) (a.bitxor b)
  | or {d a b} : FldMade rx E o br d a → FldMade rx E o br d b → ¬ a.mixed → ¬ b.mixed →
      FldMade rx E o br d (a.bitor b)
  | not {d a} : FldMade rx E o br d a → a.bitnot = .not (.group a) → FldMade rx E o br (d + 1) a.bitnot

/-- **C54** (fields and records) Reading the printed text of such a matcher back gives a
matcher with the same meaning. -/
theorem C54_reread_partial (rx : Bytes → Bool) (E : Env) (o : Opts) (s : Levels) (br : Bool)
    (hs : br = true → s.sub = 0) (d : Nat) (hd : s.fld + d < 256) (m : FieldMatcher)
    (h : FldMade rx E o br d m) :
    ∃ m', FieldMatcher.new rx s m.display = (some m', fldReset s) ∧ m'.eval E o = m.eval E o := by
  have key : Printable rx E o br d .disj m := by
    clear hd
    induction h with
    | leaf h => exact .excl (.conj (.one (.leaf h)))
    | and _ _ ha hb => exact .excl (.conj (.and ha.groupOrXor hb.groupOrXor))
    | xor _ _ ha hb => exact .excl (.xor ha.groupOr hb.groupOr)
    | or _ _ h1 h2 ha hb => exact .or ha hb h1 h2
    | not _ h1 ha => rw [h1]; exact .excl (.conj (.one (.not (n := 0) ha)))
  obtain ⟨a, h1, h2, h3, h4, -⟩ := printable_seq key
  obtain ⟨m', h5, h6⟩ := C21_field rx E o s br hs d hd a h1 h4
  exact ⟨m', by rw [← h2]; exact h5, by rw [h6, h3]⟩

/-- **C54** is false as stated: the texts printed for `((a & b) ^ c) | d` and for the
negation of a matcher with a quantifier followed by a space are not accepted. -/
theorem C54_false :
    ((fldM "012A?").bind (fun a => (fldM "013A?").bind (fun b => (fldM "014A?").bind (fun c =>
      (fldM "015A?").map (fun d => (((a.bitand b).bitxor c).bitor d).display)))) =
        some (bs "012A? && 013A? ^ 014A? || 015A?") ∧
      fldM "012A? && 013A? ^ 014A? || 015A?" = none) ∧
    (fldM "ALL 012A.a?").map (fun a => a.bitnot.display) = some (bs "!ALL 012A.a?") ∧
      fldM "!ALL 012A.a?" = none := by
  decide +kernel

/-! Examples. -/

/-- `!( .. )` around what is not existence, parentheses around `|` below `&` -/
example : (subM "a == 'x' || b?").bind (fun a => (subM " c  in ['1','2'] ").map (fun b =>
      ((a.bitand b).bitnot.display, (b.bitxor a).display, a.bitnot.display))) =
    some (bs "!((a == 'x' || b?) &&  c  in ['1','2'] )", bs " c  in ['1','2']  ^ (a == 'x' || b?)",
      bs "!(a == 'x' || b?)") := by decide +kernel

/-- the builder of the command line options -/
example : ((RecordMatcher.build (fun _ => true) Levels.zero (bs "002@.0 =^ 'O' || 003@?")
      [.and [bs "012A{ a? && b == 'x'}"], .not [bs "#013A > 2"], .or [bs "014A/*.a?"]]).1.map FieldMatcher.display) =
    some (bs "(002@.0 =^ 'O' || 003@?) && 012A{ a? && b == 'x'} && !(#013A > 2) || 014A/*.a?") := by
  decide +kernel

example : (TagMatcher.new (bs "0[1-3]3[A@]")).map TagMatcher.display = some (bs "0[1-3]3[A@]") := by
  decide +kernel
example : (OccMatcher.new (bs "/01-03")).map OccMatcher.display = some (bs "/01-03") ∧
    (OccMatcher.new (bs "/00")).map OccMatcher.display = some [] ∧
    (OccMatcher.new (bs "/*")).map OccMatcher.display = some (bs "/*") := by
  decide +kernel
example : (pathM " 045E/*{ (e, [f-g]) | E == 'm' } ").map Path.display =
    some (bs " 045E/*{ (e, [f-g]) | E == 'm' } ") := by decide +kernel
example : (queryM "003@.0, 'x' , 012A{a, b}").map Query.display = some (bs "003@.0, 'x' , 012A{a, b}") := by
  decide +kernel
example : (fmtM "028[A@]{ a <*> (', ' d <*> ' ' c) } ").map Format.display =
    some (bs "028[A@]{ a <*> (', ' d <*> ' ' c) }") := by decide +kernel

/-- `(003@? || 004@?) && 005@?` put together and read back -/
example (rx : Bytes → Bool) (E : Env) (o : Opts) :
    let l := fun t => FieldMatcher.single (.exists (.tag t) .none)
    let m := ((l (bs "003@")).bitor (l (bs "004@"))).bitand (l (bs "005@"))
    FldMade rx E o false 1 m ∧ m.display = bs "(003@? || 004@?) && 005@?" := by
  have leaf : ∀ t, TagMatcher.new t = some (.tag t) →
      FieldOperand rx E o false ⟨(FieldMatcher.single (.exists (.tag t) .none)).display,
        (FieldMatcher.single (.exists (.tag t) .none)).eval E o⟩ := fun t ht => by
    have := FieldOperand.exists (rx := rx) (E := E) (o := o) (br := false) (t := t) (to := []) (w := []) (w' := [])
      (selects_intro ht (om := .none) rfl) ws_nil ws_nil
    have e : FieldMatcher.eval E o (.single (.exists (.tag t) .none)) =
        fun fs => truth (∃ f ∈ fs, fieldSel (.tag t) .none f = true) := by
      rw [FieldMatcher.eval_single]; exact any_sel_truth E o _ _
    rw [e]
    simpa [FieldMatcher.display, FieldSingle.display, TagMatcher.display, OccMatcher.display] using this
  refine ⟨.and (.or (.leaf (leaf _ (by decide +kernel))) (.leaf (leaf _ (by decide +kernel))) ?_ ?_)
    (.leaf (leaf _ (by decide +kernel))), by decide +kernel⟩
  · rintro ⟨h, -⟩; cases h
  · rintro ⟨h, -⟩; cases h

end Pica.Props
