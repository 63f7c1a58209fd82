import Verif.Lemmas.Group
import Verif.Lemmas.IndepFmt
import Verif.Props.Precedence

/-! C20, C21: the group counters and parentheses. -/

namespace Pica.Props
open Pica Pica.Spec

/-! ## C20: parsing depends only on the text -/

/-- parsing an expression on the current thread -/
inductive ParseCall where
  | sub (t : Bytes)
  | fld (t : Bytes)
  | path (t : Bytes)
  | fmt (t : Bytes)
  | query (t : Bytes)

/-- the text -/
def ParseCall.text : ParseCall → Bytes
  | .sub t => t
  | .fld t => t
  | .path t => t
  | .fmt t => t
  | .query t => t

/-- the counters after the call -/
def ParseCall.after (rx : Bytes → Bool) (s : Levels) : ParseCall → Levels
  | .sub t => (SubMatcher.new rx s t).2
  | .fld t => (FieldMatcher.new rx s t).2
  | .path t => (Path.new rx s t).2
  | .fmt t => (Format.new rx s t).2
  | .query t => (Query.new rx s t).2

/-- `t` has the same result for the counters `s` and `s'`, whatever it is parsed as -/
def SameResults (rx : Bytes → Bool) (s s' : Levels) (t : Bytes) : Prop :=
  (SubMatcher.new rx s t).1 = (SubMatcher.new rx s' t).1 ∧
  (FieldMatcher.new rx s t).1 = (FieldMatcher.new rx s' t).1 ∧
  (Path.new rx s t).1 = (Path.new rx s' t).1 ∧
  (Format.new rx s t).1 = (Format.new rx s' t).1 ∧
  (Query.new rx s t).1 = (Query.new rx s' t).1

/-- the counters after earlier calls on a new thread -/
def history (rx : Bytes → Bool) (cs : List ParseCall) : Levels :=
  cs.foldl (ParseCall.after rx) Levels.zero

attribute [local irreducible] SubMatcher.new FieldMatcher.new Path.new Format.new Query.new in
/-- **C20** Texts without opening parenthesis have the same result after every
history, of successful and failing calls.  Missing: texts with parentheses
after histories that are not clean, see below. -/
theorem C20_partial (rx : Bytes → Bool) (cs : List ParseCall) (t : Bytes) (h : 0x28 ∉ t) :
    SameResults rx (history rx cs) Levels.zero t := by
  have H : FmtSteps (fun _ _ => True) NoParen :=
    fmtSteps_noParen (fun _ _ _ => trivial) (fun _ _ _ => trivial) (fun _ _ _ => trivial)
      (fun _ _ _ => trivial)
  exact ⟨(H.toSubSteps.new rx h trivial).1, (H.toSteps.new rx h trivial).1,
    (H.newPath rx h trivial).1, (H.newFormat rx h trivial).1,
    (H.newQuery rx h trivial).1⟩

/-- a call that leaves the counters clean: no parenthesis in the text, or a
subfield matcher that was accepted -/
def CleanCall (rx : Bytes → Bool) (s : Levels) (c : ParseCall) : Prop :=
  0x28 ∉ c.text ∨ ∃ t, c = .sub t ∧ (SubMatcher.new rx s t).1.isSome = true

/-- every call of the history is clean -/
def CleanHistory (rx : Bytes → Bool) (cs : List ParseCall) : Prop :=
  ∀ pre c post, cs = pre ++ c :: post → CleanCall rx (history rx pre) c

attribute [local irreducible] SubMatcher.new FieldMatcher.new Path.new Format.new Query.new in
/-- **C20** After accepted subfield matchers and any texts without parentheses,
every text has the same result as on a new thread. -/
theorem C20_clean_partial (rx : Bytes → Bool) (cs : List ParseCall) (hc : CleanHistory rx cs) (t : Bytes) :
    SameResults rx (history rx cs) Levels.zero t := by
  have inv : history rx cs = Levels.zero := by
    have key : ∀ (cs pre : List ParseCall), history rx pre = Levels.zero →
        CleanHistory rx (pre ++ cs) → history rx (pre ++ cs) = Levels.zero := by
      intro cs
      induction cs with
      | nil => intro pre h _; simpa using h
      | cons c cs ih =>
        intro pre h hcl
        have h1 := hcl pre c cs rfl
        have e : pre ++ c :: cs = (pre ++ [c]) ++ cs := by simp
        rw [e] at hcl ⊢
        refine ih _ ?_ hcl
        have e2 : history rx (pre ++ [c]) = ParseCall.after rx (history rx pre) c := by
          simp [history, List.foldl_append]
        rw [e2]
        rw [h] at h1 ⊢
        have H : FmtSteps (fun s s' => s = Levels.zero ∧ s' = Levels.zero) NoParen :=
          fmtSteps_noParen (by rintro _ _ ⟨rfl, rfl⟩; exact ⟨rfl, rfl⟩)
            (by rintro _ _ ⟨rfl, rfl⟩; exact ⟨rfl, rfl⟩) (by rintro _ _ ⟨rfl, rfl⟩; exact ⟨rfl, rfl⟩)
            (by rintro _ _ ⟨rfl, rfl⟩; exact ⟨rfl, rfl⟩)
        rcases h1 with h1 | ⟨t, rfl, ht⟩
        · cases c with
          | sub t => exact (H.toSubSteps.new rx h1 ⟨rfl, rfl⟩).2.1
          | fld t => exact (H.toSteps.new rx h1 ⟨rfl, rfl⟩).2.1
          | path t => exact (H.newPath rx h1 ⟨rfl, rfl⟩).2.1
          | fmt t => exact (H.newFormat rx h1 ⟨rfl, rfl⟩).2.1
          | query t => exact (H.newQuery rx h1 ⟨rfl, rfl⟩).2.1
        · have a := subNew_sub ht
          have b := subNew_fld rx Levels.zero t
          have c := subNew_fmt rx Levels.zero t
          show (SubMatcher.new rx Levels.zero t).2 = Levels.zero
          generalize (SubMatcher.new rx Levels.zero t).2 = z at a b c
          obtain ⟨z1, z2, z3⟩ := z
          dsimp only at a b c
          rw [a, b, c]; rfl
    simpa using key cs [] rfl hc
  rw [inv]
  exact ⟨rfl, rfl, rfl, rfl, rfl⟩

/-- **C20** is false for formats: a format with a group in a group is rejected,
and each attempt leaves the counter four higher; after eight attempts no
format with a group is accepted any more. -/
theorem C20_format_false :
    (Format.new (fun _ => true) Levels.zero (bs "028A{(a)}")).1.isSome = true ∧
    (Format.new (fun _ => true) (history (fun _ => true) (List.replicate 8 (.fmt (bs "028A{((a))}"))))
      (bs "028A{(a)}")).1 = none := by
  decide +kernel

/-- **C20** is false: after the attempt to parse `(((a?)))` a parenthesis is no
longer accepted in subfield matchers, after `(((012A?` none in field
matchers. -/
theorem C20_false :
    (SubMatcher.new (fun _ => true) Levels.zero (bs "(a?)")).1.isSome = true ∧
    (SubMatcher.new (fun _ => true) (history (fun _ => true) [.sub (bs "(((a?)))")]) (bs "(a?)")).1 = none ∧
    (FieldMatcher.new (fun _ => true) Levels.zero (bs "(012A?)")).1.isSome = true ∧
    (FieldMatcher.new (fun _ => true) (history (fun _ => true) [.fld (bs "(((012A?")]) (bs "(012A?)")).1 = none := by
  decide +kernel

/-- a text without parenthesis, and a history of a failing call and an accepted
call with parentheses -/
example : (0x28 : Byte) ∉ bs "a? && b?" := by decide +kernel

example : CleanHistory (fun _ => true) [.sub (bs "a? &&"), .sub (bs "((a?))")] := by
  have h1 : (0x28 : Byte) ∉ bs "a? &&" := by decide +kernel
  have h2 : (SubMatcher.new (fun _ => true) (history (fun _ => true) [.sub (bs "a? &&")])
      (bs "((a?))")).1.isSome = true := by decide +kernel
  intro pre c post h
  rcases pre with _ | ⟨x, _ | ⟨y, pre⟩⟩
  · simp only [List.nil_append, List.cons.injEq] at h
    obtain ⟨rfl, -⟩ := h
    exact .inl h1
  · simp only [List.cons_append, List.nil_append, List.cons.injEq] at h
    obtain ⟨rfl, rfl, -⟩ := h
    exact .inr ⟨_, rfl, h2⟩
  · simp at h

/-! ## C21: parentheses may be nested -/

theorem groupCost_le (d : Nat) (s : Levels) : 72 ≤ groupCost (d + 3) ∧
    (s.sub + 8 * groupCost (d + 3) ≥ 256) := by
  have : 73 ≤ groupCost (d + 3) := by simp only [groupCost]; omega
  omega

/-- **C21** (subfields, exact) An expression in `d + 1` pairs of parentheses,
with white space after any of them, is accepted exactly if the counter leaves
room for the attempts of the parser, and then has the meaning of the
expression. -/
theorem C21_sub_exact (rx : Bytes → Bool) (E : Env) (o : Opts) (s : Levels) (d : Nat)
    (a : OrSeq (List Subfield)) (h : a.ok (SubOperand rx E o)) (hp : a.plain) (u : Bytes)
    (hu : Parens (d + 1) a.txt u) :
    (s.sub + 8 * groupCost (d + 1) < 256 → ∃ m s', SubMatcher.new rx s u = (some m, s') ∧
      m.eval E o = a.val) ∧
    (256 ≤ s.sub + 8 * groupCost (d + 1) → (SubMatcher.new rx s u).1 = none) := by
  obtain ⟨m, hm, hin⟩ := inner_of_seq rx h hp
  have hc := nest_costs hin d (u.length + 1) [] u (.inl rfl) hu (by
    have := parens_length hu; omega)
  rw [List.append_nil] at hc
  revert hc
  unfold SubMatcher.new TParser.parseAll pSubMatcher
  simp only
  generalize u.length + 1 = k
  obtain ⟨u', rfl⟩ := parens_head hu
  intro hc
  obtain ⟨h1, h2⟩ := subTop_costs (.inl rfl) hc s
  constructor
  · intro hs
    rw [h1 hs]
    exact ⟨groups (d + 1) m, _, rfl, by rw [groups_eval, hm]⟩
  · intro hs
    obtain ⟨s', he, -⟩ := h2 hs
    rw [he]

/-- **C21** (subfields) On a new thread one and two pairs of parentheses around
an expression are accepted and do not change the meaning.  The limit of the
code is 255 levels. -/
theorem C21_sub_partial (rx : Bytes → Bool) (E : Env) (o : Opts) (d : Nat) (hd : d = 1 ∨ d = 2)
    (a : OrSeq (List Subfield)) (h : a.ok (SubOperand rx E o)) (hp : a.plain) (u : Bytes)
    (hu : Parens d a.txt u) :
    ∃ m s', SubMatcher.new rx Levels.zero u = (some m, s') ∧ m.eval E o = a.val := by
  rcases hd with rfl | rfl
  · exact (C21_sub_exact rx E o Levels.zero 0 a h hp u hu).1 (by decide)
  · exact (C21_sub_exact rx E o Levels.zero 1 a h hp u hu).1 (by decide)

/-- **C21** is false for subfields: three and more pairs of parentheses are never
accepted. -/
theorem C21_sub_reject (rx : Bytes → Bool) (E : Env) (o : Opts) (s : Levels) (d : Nat) (hd : 3 ≤ d)
    (a : OrSeq (List Subfield)) (h : a.ok (SubOperand rx E o)) (hp : a.plain) (u : Bytes)
    (hu : Parens d a.txt u) : (SubMatcher.new rx s u).1 = none := by
  obtain ⟨d, rfl⟩ : ∃ d', d = d' + 3 := ⟨d - 3, by omega⟩
  exact (C21_sub_exact rx E o s (d + 2) a h hp u hu).2 (groupCost_le d s).2

theorem C21_false : (SubMatcher.new (fun _ => true) Levels.zero (bs "(((a?)))")).1 = none ∧
    (SubMatcher.new (fun _ => true) Levels.zero (bs "a?")).1.isSome = true := by
  decide +kernel

/-- **C21** (fields and records) Sequences of operands, with expressions in
parentheses and their negation as operands, nested up to the limit, are
accepted, and parentheses mean grouping. -/
theorem C21_field (rx : Bytes → Bool) (E : Env) (o : Opts) (s : Levels) (br : Bool)
    (hs : br = true → s.sub = 0) (d : Nat) (hd : s.fld + d < 256)
    (a : OrSeq (List Field)) (h : a.ok (FieldNest rx E o br d)) (hp : a.plain) :
    ∃ m, FieldMatcher.new rx s a.txt = (some m, fldReset s) ∧ m.eval E o = a.val :=
  field_accept rx E o s br hs d hd a h hp

/-- `((a? ^ b? && c? || d? ))` -/
example (rx : Bytes → Bool) (E : Env) (o : Opts) :
    ∃ m s', SubMatcher.new rx Levels.zero (nest 2 exAccepted.txt) = (some m, s') ∧
      m.eval E o = exAccepted.val :=
  C21_sub_partial rx E o 2 (.inr rfl) _ (exAccepted_ok rx E o)
    (by simp [exAccepted, OrSeq.plain, Seq.many, Seq.all, XorSeq.mixed, exOne]) _ (parens_nest 2 _)

/-- one operand as a sequence -/
def exSeq {X : Type} (x : Operand X) : OrSeq X := ⟨⟨⟨x, []⟩, []⟩, []⟩

theorem exSeq_ok {X : Type} {P : Operand X → Prop} {x : Operand X} (h : P x) :
    (exSeq x).ok P ∧ (exSeq x).plain ∧ (exSeq x).txt = x.text ∧ (exSeq x).val = x.den := by
  simp [exSeq, OrSeq.ok, XorSeq.ok, AndSeq.ok, Seq.signs, Seq.all, OrSeq.plain, Seq.many, h,
    OrSeq.txt, XorSeq.txt, AndSeq.txt, Seq.text, OrSeq.val, XorSeq.val, AndSeq.val, Seq.den]

/-- a field operand in `d` pairs of parentheses -/
def exParens (x : Operand (List Field)) : Nat → Operand (List Field)
  | 0 => x
  | d + 1 => ⟨bs "(" ++ [] ++ (exSeq (exParens x d)).txt ++ bs ")" ++ [], (exSeq (exParens x d)).val⟩

theorem exParens_ok {rx : Bytes → Bool} {E : Env} {o : Opts} {br : Bool} {x : Operand (List Field)}
    (h : FieldOperand rx E o br x) (d : Nat) :
    FieldNest rx E o br d (exParens x d) ∧ (exParens x d).text = nest d x.text ∧ (exParens x d).den = x.den := by
  induction d with
  | zero => exact ⟨h, rfl, rfl⟩
  | succ d ih =>
    obtain ⟨h1, h2, h3, h4⟩ := exSeq_ok (P := FieldNest rx E o br d) ih.1
    refine ⟨.inr (.inl ⟨_, [], [], h1, h2, ws_nil, ws_nil, rfl⟩), ?_, ?_⟩
    · simp [exParens, h3, ih.2.1, nest]
    · simp [exParens, h4, ih.2.2]

/-- a field operand in up to 255 pairs of parentheses is accepted and means the same -/
example (rx : Bytes → Bool) (E : Env) (o : Opts) (br : Bool) (x : Operand (List Field))
    (hx : FieldOperand rx E o br x)
    (d : Nat) (hd : d < 256) : ∃ m, FieldMatcher.new rx Levels.zero (nest d x.text) =
      (some m, fldReset Levels.zero) ∧ m.eval E o = x.den := by
  obtain ⟨h1, h2, h3⟩ := exParens_ok hx d
  obtain ⟨g1, g2, g3, g4⟩ := exSeq_ok h1
  have := C21_field rx E o Levels.zero br (fun _ => rfl) d (by simpa [Levels.zero] using hd) _ g1 g2
  rwa [g3, g4, h2, h3] at this

end Pica.Props
