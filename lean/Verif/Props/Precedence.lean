import Verif.Lemmas.FieldGroup
import Verif.Lemmas.Total

/-! C16: precedence of `&&`, `^` and `||`. -/

namespace Pica.Props
open Pica Pica.Spec

theorem sub_new_of_composite {rx : Bytes → Bool} {s : Levels} {t : Bytes} {m : SubMatcher}
    (h : pSubComposite rx (t.length + 1) s t = (some (m, []), s)) :
    SubMatcher.new rx s t = (some m, subReset s) := by
  unfold SubMatcher.new TParser.parseAll pSubMatcher
  simp only [TParser.alt_left h]

theorem sub_new_of_rest {rx : Bytes → Bool} {s : Levels} {t : Bytes} {m : SubMatcher} {b r}
    (h : pSubComposite rx (t.length + 1) s t = (some (m, b :: r), s)) :
    (SubMatcher.new rx s t).1 = none := by
  unfold SubMatcher.new TParser.parseAll pSubMatcher
  simp only [TParser.alt_left h]

/-- **C16** (subfields) A sequence of at least two operands and operators, in
any order and of any length, is accepted and has the meaning given by the
precedence rules, unless it contains `||` and `a && b ^ ..` as an operand of it
(see `C16_sub_reject` for those). -/
theorem C16_sub_partial (rx : Bytes → Bool) (E : Env) (o : Opts) (s : Levels)
    (a : OrSeq (List Subfield)) (h : a.ok (SubOperand rx E o)) (hl : a.long) (hp : a.plain) :
    ∃ m, SubMatcher.new rx s a.txt = (some m, subReset s) ∧ m.eval E o = a.val := by
  obtain ⟨h1, h2, -, -⟩ := orSeq_composite (S := subSyn)
    (den := SubMatcher.eval E o) (s := s)
    (atoms := subAtoms rx (pSubGroup rx (a.txt.length + 1)) (pSubNot rx (a.txt.length + 1)))
    (SubMatcher.eval_bitand E o) (SubMatcher.eval_bitxor E o)
    (SubMatcher.eval_bitor E o) (fun x hx => by
      obtain ⟨m, h1, h2⟩ := subOperand_run rx hx.1
      exact ⟨m, (h2 _ _ (Nat.le_succ_of_le hx.2)).atom, h1⟩) subSyn_runs a (OrSeq.ok_short h (Nat.le_refl _))
  by_cases hm : a.many
  · obtain ⟨m, hd, hc⟩ := h1 hm (hp hm)
    replace hc := hc [] (.inl rfl)
    rw [List.append_nil] at hc
    exact ⟨m, sub_new_of_composite hc, hd⟩
  · obtain ⟨m, hd, hc⟩ := h2 hm (hl.resolve_left hm)
    replace hc := hc [] (.inl rfl)
    rw [List.append_nil] at hc
    exact ⟨m, sub_new_of_composite hc, hd⟩

/-- **C16** (subfields) The excepted sequences are rejected. -/
theorem C16_sub_reject (rx : Bytes → Bool) (E : Env) (o : Opts) (s : Levels)
    (a : OrSeq (List Subfield)) (h : a.ok (SubOperand rx E o)) (hp : ¬ a.plain) :
    (SubMatcher.new rx s a.txt).1 = none := by
  obtain ⟨-, -, -, h4⟩ := orSeq_composite (S := subSyn)
    (den := SubMatcher.eval E o) (s := s)
    (atoms := subAtoms rx (pSubGroup rx (a.txt.length + 1)) (pSubNot rx (a.txt.length + 1)))
    (SubMatcher.eval_bitand E o) (SubMatcher.eval_bitxor E o)
    (SubMatcher.eval_bitor E o) (fun x hx => by
      obtain ⟨m, h1, h2⟩ := subOperand_run rx hx.1
      exact ⟨m, (h2 _ _ (Nat.le_succ_of_le hx.2)).atom, h1⟩) subSyn_runs a (OrSeq.ok_short h (Nat.le_refl _))
  have hm : a.many := Classical.byContradiction fun hm => hp fun hm' => absurd hm' hm
  have hall : ¬ a.all (fun x => ¬ x.mixed) := fun hall => hp fun _ => hall
  obtain ⟨m, b, r', _, hc⟩ := h4 hm hall [] (.inl rfl)
  rw [List.append_nil] at hc
  exact sub_new_of_rest hc

/-- **C16** (subfields) Whatever text is accepted, the matcher has the meaning
the grammar with the usual precedence gives to the text. -/
theorem C16_sub_sound (rx : Bytes → Bool) (E : Env) (o : Opts) (s s' : Levels) (t : Bytes)
    (m : SubMatcher) (h : SubMatcher.new rx s t = (some m, s')) :
    SubExprText rx E o t (m.eval E o) := subMatcher_new_sound E o h

theorem field_new_of {rx : Bytes → Bool} {s : Levels} {t : Bytes} {m : FieldMatcher}
    (h : TParser.alt (pFieldComposite rx (t.length + 1)) (TParser.alt (pFieldGroup rx (t.length + 1))
      (TParser.alt (pFieldNot rx (t.length + 1)) (TParser.alt (pFieldSingleM rx) (pFieldCardM rx))))
        s (dws t) = (some (m, r), s)) (hr : dws r = []) :
    FieldMatcher.new rx s t = (some m, fldReset s) := by
  unfold FieldMatcher.new TParser.parseAll pFieldMatcher
  simp only [tws_run h, hr]

theorem field_new_of_rest {rx : Bytes → Bool} {s : Levels} {t : Bytes} {m : FieldMatcher} {b r}
    (h : TParser.alt (pFieldComposite rx (t.length + 1)) (TParser.alt (pFieldGroup rx (t.length + 1))
      (TParser.alt (pFieldNot rx (t.length + 1)) (TParser.alt (pFieldSingleM rx) (pFieldCardM rx))))
        s (dws t) = (some (m, b :: r), s)) (hr : NoWs (b :: r)) :
    (FieldMatcher.new rx s t).1 = none := by
  unfold FieldMatcher.new TParser.parseAll pFieldMatcher
  simp only [tws_run h, dws_of_noWs hr]

/-- a sequence of field operands is read -/
theorem field_accept (rx : Bytes → Bool) (E : Env) (o : Opts) (s : Levels) (br : Bool)
    (hs : br = true → s.sub = 0) (d : Nat) (hd : s.fld + d < 256)
    (a : OrSeq (List Field)) (h : a.ok (FieldNest rx E o br d)) (hp : a.plain) :
    ∃ m, FieldMatcher.new rx s a.txt = (some m, fldReset s) ∧ m.eval E o = a.val := by
  obtain ⟨hnw, hne, m, hm, hrun⟩ := fldSeq_run (rx := rx) (E := E) (o := o) (s := s)
    (k := a.txt.length + 1) (fun x hx => fieldNest_run rx E o br d x hx.1 s _ hs hd (Nat.le_succ_of_le hx.2))
    (OrSeq.ok_short h (Nat.le_refl _)) hp
  refine ⟨m, ?_, hm⟩
  have := hrun [] (.inl rfl)
  rw [List.append_nil] at this
  rcases this with hc | ⟨hc, hf⟩
  · refine field_new_of (r := []) ?_ rfl
    rw [dws_of_noWs hnw]
    exact TParser.alt_left hc
  · obtain ⟨r', h1, h2⟩ := hf.top (rest := []) follow_nil
    rw [List.append_nil] at h2
    refine field_new_of (r := r') ?_ h1
    rw [dws_of_noWs hnw, TParser.alt_right hc, h2]

/-- **C16** (fields and records) A sequence of operands and operators, in any
order and of any length, is accepted and has the meaning given by the
precedence rules, unless it contains `||` and `a && b ^ ..` as an operand of
it.  Operands are all simple field matchers, their negations, and (with
`br = true`) those with expressions in braces, which need the subfield counter
of the thread to be 0. -/
theorem C16_field_partial (rx : Bytes → Bool) (E : Env) (o : Opts) (s : Levels) (br : Bool)
    (hs : br = true → s.sub = 0) (hf : s.fld < 256)
    (a : OrSeq (List Field)) (h : a.ok (FieldOperand rx E o br)) (hp : a.plain) :
    ∃ m, FieldMatcher.new rx s a.txt = (some m, fldReset s) ∧ m.eval E o = a.val :=
  field_accept rx E o s br hs 0 hf a h hp

/-- **C16** (fields and records) The excepted sequences are rejected. -/
theorem C16_field_reject (rx : Bytes → Bool) (E : Env) (o : Opts) (s : Levels) (br : Bool)
    (hs : br = true → s.sub = 0)
    (a : OrSeq (List Field)) (h : a.ok (FieldOperand rx E o br)) (hp : ¬ a.plain) :
    (FieldMatcher.new rx s a.txt).1 = none := by
  have hok := OrSeq.ok_short h (Nat.le_refl _)
  have hP : ∀ x, FieldOperand rx E o br x ∧ x.text.length ≤ a.txt.length →
      ∃ m : FieldMatcher, m.eval E o = x.den ∧ FldRun rx s (a.txt.length + 1) x.text m := fun x hx => by
    obtain ⟨m, h1, h2⟩ := fieldOperand_run rx hx.1
    exact ⟨m, h1, h2 s _ hs (Nat.le_succ_of_le hx.2)⟩
  obtain ⟨-, -, -, h4⟩ := orSeq_composite (S := fieldSyn)
    (den := FieldMatcher.eval E o) (s := s)
    (atoms := fieldAtoms rx (pFieldGroup rx (a.txt.length + 1)) (pFieldNot rx (a.txt.length + 1)))
    (FieldMatcher.eval_bitand E o) (FieldMatcher.eval_bitxor E o)
    (FieldMatcher.eval_bitor E o) (fun x hx => by
      obtain ⟨m, h1, h2⟩ := hP x hx
      exact ⟨m, h2.atom, h1⟩) fieldSyn_runs a hok
  obtain ⟨m0, -, hm0⟩ := hP _ hok.2.1.2.1.2.1
  have hnw : NoWs a.txt := by
    obtain ⟨r0, hpre⟩ : ∃ r, a.txt = a.head.head.head.text ++ r := by
      simp only [OrSeq.txt, Seq.text, XorSeq.txt, AndSeq.txt, List.append_assoc]
      exact ⟨_, rfl⟩
    rw [hpre]; exact noWs_append hm0.noWs.2 hm0.noWs.1
  have hm : a.many := Classical.byContradiction fun hm => hp fun hm' => absurd hm' hm
  have hall : ¬ a.all (fun x => ¬ x.mixed) := fun hall => hp fun _ => hall
  obtain ⟨m, b, r', hb', hc⟩ := h4 hm hall [] (.inl rfl)
  rw [List.append_nil] at hc
  refine field_new_of_rest (m := m) ?_ hb'
  rw [dws_of_noWs hnw]
  exact TParser.alt_left hc

/-- **C16** (fields and records) Whatever text is accepted, the matcher has the
meaning the grammar with the usual precedence gives to the text. -/
theorem C16_field_sound (rx : Bytes → Bool) (E : Env) (o : Opts) (s s' : Levels) (t : Bytes)
    (m : FieldMatcher) (h : FieldMatcher.new rx s t = (some m, s')) :
    FldExprText rx E o t (m.eval E o) := fieldMatcher_new_sound E o h

/-- **C16** is false as stated: `a? && b? ^ c? || d?` is not accepted. -/
theorem C16_false :
    (SubMatcher.new (fun _ => true) Levels.zero (bs "a? && b? ^ c? || d?")).1 = none ∧
    (SubMatcher.new (fun _ => true) Levels.zero (bs "a? || b? && c? ^ d?")).1 = none ∧
    (FieldMatcher.new (fun _ => true) Levels.zero (bs "012A? && 013A? ^ 014A? || 015A?")).1 = none := by
  decide +kernel

/-! Examples: `a? || b?&& c? ^d?` and, rejected, `a? && b? ^c?|| d?`. -/

/-- the operand `c?`, for a code `c`, followed by a space -/
noncomputable def exOperand (c : Byte) : Operand (List Subfield) :=
  ⟨[c] ++ bs "?" ++ [0x20], fun sf => truth (∃ s ∈ sf, s.code = c)⟩

theorem exOperand_ok (rx : Bytes → Bool) (E : Env) (o : Opts) {c : Byte} (h : IsCode c) :
    SubOperand rx E o (exOperand c) := by
  refine .simple (.exists (.one c h)) ?_ (by simp [Ws])
  intro b hb hw
  rw [← bs_qm] at hb
  simp at hb
  subst hb
  rcases h with h | h | h <;> rcases hw with rfl | rfl | rfl | rfl <;> revert h <;> decide

/-- one operand as a conjunction -/
noncomputable def exOne (c : Byte) : AndSeq (List Subfield) := ⟨exOperand c, []⟩

/-- `a? ^ b? && c? || d?` -/
noncomputable def exAccepted : OrSeq (List Subfield) :=
  ⟨⟨exOne 0x61, [(bs "^", [0x20], ⟨exOperand 0x62, [(bs "&&", [0x20], exOperand 0x63)]⟩)]⟩,
    [(bs "||", [0x20], ⟨exOne 0x64, []⟩)]⟩

/-- `a? && b? ^ c? || d?` -/
noncomputable def exRejected : OrSeq (List Subfield) :=
  ⟨⟨⟨exOperand 0x61, [(bs "&&", [0x20], exOperand 0x62)]⟩, [(bs "^", [0x20], exOne 0x63)]⟩,
    [(bs "||", [0x20], ⟨exOne 0x64, []⟩)]⟩

example : exAccepted.txt = bs "a? ^ b? && c? || d? " := by decide +kernel
example : exRejected.txt = bs "a? && b? ^ c? || d? " := by decide +kernel

theorem exCodes : IsCode 0x61 ∧ IsCode 0x62 ∧ IsCode 0x63 ∧ IsCode 0x64 := by
  unfold IsCode; decide

theorem exOne_ok (rx : Bytes → Bool) (E : Env) (o : Opts) {c : Byte} (h : IsCode c) :
    AndSeq.ok (SubOperand rx E o) (exOne c) := ⟨by simp [Seq.signs, exOne], exOperand_ok rx E o h, by simp [exOne]⟩

theorem exTwo_ok (rx : Bytes → Bool) (E : Env) (o : Opts) {c d : Byte} (h : IsCode c) (h' : IsCode d) :
    AndSeq.ok (SubOperand rx E o) ⟨exOperand c, [(bs "&&", [0x20], exOperand d)]⟩ := by
  refine ⟨?_, exOperand_ok rx E o h, ?_⟩
  · intro x hx
    rw [List.mem_singleton] at hx
    subst hx
    simp [Ws]
  · intro x hx
    rw [List.mem_singleton] at hx
    subst hx
    exact exOperand_ok rx E o h'

theorem exAccepted_ok (rx : Bytes → Bool) (E : Env) (o : Opts) : exAccepted.ok (SubOperand rx E o) := by
  obtain ⟨ha, hb, hc, hd⟩ := exCodes
  simp [exAccepted, OrSeq.ok, XorSeq.ok, Seq.signs, Seq.all, Ws, XorSign,
    exOne_ok, exTwo_ok, ha, hb, hc, hd]

theorem exRejected_ok (rx : Bytes → Bool) (E : Env) (o : Opts) : exRejected.ok (SubOperand rx E o) := by
  obtain ⟨ha, hb, hc, hd⟩ := exCodes
  simp [exRejected, OrSeq.ok, XorSeq.ok, Seq.signs, Seq.all, Ws, XorSign,
    exOne_ok, exTwo_ok, ha, hb, hc, hd]

example (rx : Bytes → Bool) (E : Env) (o : Opts) : exAccepted.ok (SubOperand rx E o) ∧ exAccepted.long ∧ exAccepted.plain :=
  ⟨exAccepted_ok rx E o, by simp [exAccepted, OrSeq.long, Seq.many],
    by simp [exAccepted, OrSeq.plain, Seq.many, Seq.all, XorSeq.mixed, exOne]⟩

example (rx : Bytes → Bool) (E : Env) (o : Opts) : exRejected.ok (SubOperand rx E o) ∧ ¬ exRejected.plain :=
  ⟨exRejected_ok rx E o, by simp [exRejected, OrSeq.plain, Seq.many, Seq.all, XorSeq.mixed]⟩

/-- what the precedence means: `a ^ (b && c) || d` -/
example (sf : List Subfield) : exAccepted.val sf =
    dOr (dXor (exOperand 0x61).den (dAnd (exOperand 0x62).den (exOperand 0x63).den))
      (exOperand 0x64).den sf := rfl

example : (SubMatcher.new (fun _ => true) Levels.zero (bs "a? ^ b? && c? || d? ")).1.isSome = true := by
  decide +kernel

theorem exSingle {X : Type} {P : Operand X → Prop} {x : Operand X} (h : P x) :
    AndSeq.ok P ⟨x, []⟩ := ⟨by simp [Seq.signs], h, by simp⟩

/-- the selector of a tag without occurrence -/
theorem exSelects (t : Bytes) (h : IsTag t) :
    Selects t [] (fun f => TagMatcher.isMatch (.tag t) f.tag = true ∧ OccMatcher.isMatch .none f.occ = true) := by
  refine ⟨.tag t, .none, ?_, rfl, rfl⟩
  have := pTag_eq_some (t := t) (i := t) (r := []) |>.2 ⟨h, by simp⟩
  exact Parser.parseAll_eq_some.2 (Parser.alt_left (Parser.map_run this))

theorem exString {c : Byte} (h : c ≠ 0x27 ∧ c ≠ 0x5C ∧ c < 0x80) : StringText [0x27, c, 0x27] [c] := by
  refine .mk (q := 0x27) (t := [c]) (.inl rfl) (.lit h.1 h.2.1 .nil) ⟨[Char.ofNat c.toNat], ?_⟩
  obtain ⟨-, -, h⟩ := h
  have key : ∀ n : Fin 128, ([Char.ofNat n.val].map String.utf8EncodeChar).flatten = [UInt8.ofNat n.val] := by
    decide +kernel
  have := key ⟨c.toNat, UInt8.lt_iff_toNat_lt.1 h⟩
  simpa using this.symm

/-- `x && y` -/
def exAnd {X : Type} (x y : Operand X) : OrSeq X := ⟨⟨⟨x, [(bs "&&", [0x20], y)]⟩, []⟩, []⟩

theorem exAnd_ok {X : Type} {P : Operand X → Prop} {x y : Operand X} (hx : P x) (hy : P y) :
    (exAnd x y).ok P ∧ (exAnd x y).plain ∧ (exAnd x y).txt = x.text ++ (bs "&&" ++ ([0x20] ++ y.text)) := by
  simp [exAnd, OrSeq.ok, XorSeq.ok, AndSeq.ok, Seq.signs, Seq.all, OrSeq.plain, Seq.many, hx, hy, Ws,
    OrSeq.txt, XorSeq.txt, AndSeq.txt, Seq.text]

/-- `x ^ y || z` -/
def exXorOr {X : Type} (x y z : Operand X) : OrSeq X :=
  ⟨⟨⟨x, []⟩, [(bs "^", [0x20], ⟨y, []⟩)]⟩, [(bs "||", [0x20], ⟨⟨z, []⟩, []⟩)]⟩

theorem exXorOr_ok {X : Type} {P : Operand X → Prop} {x y z : Operand X} (hx : P x) (hy : P y) (hz : P z) :
    (exXorOr x y z).ok P ∧ (exXorOr x y z).plain ∧ (exXorOr x y z).txt =
      x.text ++ (bs "^" ++ ([0x20] ++ (y.text ++ (bs "||" ++ ([0x20] ++ z.text))))) := by
  simp [exXorOr, OrSeq.ok, XorSeq.ok, AndSeq.ok, Seq.signs, Seq.all, OrSeq.plain, Seq.many, hx, hy, hz, Ws,
    OrSeq.txt, XorSeq.txt, AndSeq.txt, Seq.text, XorSign, XorSeq.mixed]

/-- the operands `a =~ 'x'`, `#b > 3` and their conjunction -/
theorem exBody (rx : Bytes → Bool) (hx : rx [0x78] = true) (E : Env) (o : Opts) :
    ∃ v, SubBody rx E o (bs "(a =~ 'x' && #b > 3 )") v := by
  obtain ⟨ha, hb, -, -⟩ := exCodes
  have e1 : bs "a =~ 'x' " = ([] ++ [0x61] ++ ([0x20] ++ bs "=~" ++ [0x20]) ++ [0x27, 0x78, 0x27]) ++ [0x20] := by
    decide +kernel
  have e2 : bs "#b > 3 " = ([0x23] ++ [0x62] ++ ([0x20] ++ relSign .gt ++ [0x20]) ++ [0x33]) ++ [0x20] := by
    decide +kernel
  have p0 : ∀ {P : Bytes → Prop} {t : Bytes}, P t → Padded P t := fun {P t} h =>
    ⟨[], t, [], by simp, by simp [Ws], h, by simp [Ws]⟩
  have p1 : ∀ {P : Bytes → Prop} {t : Bytes}, P t → Padded P ([0x20] ++ t ++ [0x20]) := fun {P t} h =>
    ⟨[0x20], t, [0x20], rfl, by simp [Ws], h, by simp [Ws]⟩
  have o1 := SubOperand.simple (w := [0x20]) (SubText.regex (rx := rx) (E := E) (o := o) (inv := false) .none
    (p0 (P := fun x => CodesText x _) (.one 0x61 ha)) (p1 (P := fun t => t = bs "=~") rfl)
    ⟨exString (c := 0x78) (by decide), hx⟩) (by intro b hb; simp at hb; subst hb; simp [IsWs]) (by simp [Ws])
  have o2 := SubOperand.simple (w := [0x20]) (SubText.card (rx := rx) (E := E) (o := o) (op := .gt) (ds := [0x33])
    (p0 (P := fun t => t = bs "#") (by rw [← bs_hash]))
    (p0 (P := fun x => CodesText x _) (.one 0x62 hb)) (p1 (P := fun t => t = relSign .gt) rfl)
    (by simp [NumOp]) (by simp) (by simp) (by decide))
    (by intro b hb; simp at hb; subst hb; simp [IsWs]) (by simp [Ws])
  rw [← e1] at o1
  rw [← e2] at o2
  obtain ⟨h1, h2, h3⟩ := exAnd_ok o1 o2
  refine ⟨_, .mk (d := 1) (by decide) h1 h2 ?_⟩
  rw [h3]
  have := Parens.succ (w := []) (w' := []) (t := bs "a =~ 'x' && #b > 3 ") (by simp [Ws]) (by simp [Ws]) .zero
  have e3 : bs "(" ++ [] ++ bs "a =~ 'x' && #b > 3 " ++ bs ")" ++ [] = bs "(a =~ 'x' && #b > 3 )" := by
    decide +kernel
  have e4 : bs "a =~ 'x' && #b > 3 " = bs "a =~ 'x' " ++ (bs "&&" ++ ([0x20] ++ bs "#b > 3 ")) := by
    decide +kernel
  rw [e3, e4] at this
  exact this

/-- regular expressions, cardinalities, quantifiers, braces and negations as
operands -/
example (rx : Bytes → Bool) (hx : rx [0x78] = true) (E : Env) (o : Opts) : ∃ a : OrSeq (List Field),
    a.txt = bs "ALL 012A{(a =~ 'x' && #b > 3 )} ^ #013A{ (a =~ 'x' && #b > 3 )} >= 2 || !!012A?" ∧
    a.ok (FieldOperand rx E o true) ∧ a.plain := by
  have t1 : IsTag (bs "012A") := by
    refine ⟨0x30, 0x31, 0x32, 0x41, by decide +kernel, ?_, ?_, ?_, ?_⟩ <;> decide
  have t2 : IsTag (bs "013A") := by
    refine ⟨0x30, 0x31, 0x33, 0x41, by decide +kernel, ?_, ?_, ?_, ?_⟩ <;> decide
  obtain ⟨v, hv⟩ := exBody rx hx E o
  have q := QuantText.all (sp := false) (w := []) (w' := [0x20]) (by simp [Ws]) (by simp [Ws]) (by simp)
  have o1 := FieldOperand.braces (br := true) (w := [0x20]) rfl q
    (by rw [bs_ALL]; intro b hb; simp at hb; subst hb; simp [IsWs]) (exSelects _ t1)
    ⟨[], _, [], rfl, by simp [Ws], rfl, by simp [Ws]⟩ hv (by simp [Ws])
  have o2 := FieldOperand.cardSub (br := true) (w0 := []) (w1 := []) (w3 := [0x20]) (w := [0x20]) (op := .ge)
    (ds := [0x32]) rfl (by simp [Ws]) (exSelects _ t2) (by simp [Ws])
    ⟨[], _, [0x20], rfl, by simp [Ws], rfl, by simp [Ws]⟩ hv (by simp [Ws])
    ⟨[], _, [0x20], rfl, by simp [Ws], rfl, by simp [Ws]⟩ (by simp [NumOp]) (by simp) (by simp) (by decide)
    (by simp [Ws])
  have o3 := FieldOperand.negExists (rx := rx) (E := E) (o := o) (br := true) (w := []) (w' := [])
    (.succ (w := []) (by simp [Ws]) (.succ (w := []) (by simp [Ws]) .zero))
    (exSelects _ t1) (by simp [Ws]) (by simp [Ws])
  obtain ⟨h1, h2, h3⟩ := exXorOr_ok o1 o2 o3
  refine ⟨_, ?_, h1, h2⟩
  rw [h3]
  simp only
  decide +kernel

end Pica.Props
