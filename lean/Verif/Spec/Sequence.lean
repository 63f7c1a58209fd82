import Verif.Spec.Atoms

/-!
# Sequences of operands and operators

`a1 op1 a2 op2 .. an`, split at the operators that bind least: a disjunction of
exclusive disjunctions of conjunctions of operands.  Every sequence of operands
and operators has exactly one such form.
-/

namespace Pica.Spec
open Pica

variable {X A : Type}

/-- an operand: its text, without leading and with any trailing white space,
and its meaning -/
structure Operand (X : Type) where
  text : Bytes
  den : Den X

/-- items connected by operators; each operator is followed by white space -/
structure Seq (A : Type) where
  head : A
  tail : List (Bytes × Bytes × A)

/-- the text of a sequence -/
def Seq.text (f : A → Bytes) (s : Seq A) : Bytes :=
  f s.head ++ (s.tail.map (fun x => x.1 ++ (x.2.1 ++ f x.2.2))).flatten

/-- the meaning of a sequence: the operator applied from left to right -/
def Seq.den {V : Type} (op : V → V → V) (f : A → V) (s : Seq A) : V :=
  s.tail.foldl (fun d x => op d (f x.2.2)) (f s.head)

/-- the operator signs are as given, followed by white space -/
def Seq.signs (sign : Bytes → Prop) (s : Seq A) : Prop := ∀ x ∈ s.tail, sign x.1 ∧ Ws x.2.1

/-- all items satisfy `P` -/
def Seq.all (P : A → Prop) (s : Seq A) : Prop := P s.head ∧ ∀ x ∈ s.tail, P x.2.2

/-- at least two items -/
def Seq.many (s : Seq A) : Prop := s.tail ≠ []

abbrev AndSeq (X : Type) := Seq (Operand X)
abbrev XorSeq (X : Type) := Seq (AndSeq X)
abbrev OrSeq (X : Type) := Seq (XorSeq X)

def AndSeq.txt (s : AndSeq X) : Bytes := s.text Operand.text
def XorSeq.txt (s : XorSeq X) : Bytes := s.text AndSeq.txt
def OrSeq.txt (s : OrSeq X) : Bytes := s.text XorSeq.txt

def AndSeq.val (s : AndSeq X) : Den X := s.den dAnd Operand.den
def XorSeq.val (s : XorSeq X) : Den X := s.den dXor AndSeq.val
/-- the meaning of an expression: `&&` binds tighter than `^`, which binds
tighter than `||` -/
def OrSeq.val (s : OrSeq X) : Den X := s.den dOr XorSeq.val

/-- signs are right and all operands satisfy `P` -/
def AndSeq.ok (P : Operand X → Prop) (s : AndSeq X) : Prop :=
  s.signs (· = bs "&&") ∧ s.all P
def XorSeq.ok (P : Operand X → Prop) (s : XorSeq X) : Prop :=
  s.signs XorSign ∧ s.all (AndSeq.ok P)
def OrSeq.ok (P : Operand X → Prop) (s : OrSeq X) : Prop :=
  s.signs (· = bs "||") ∧ s.all (XorSeq.ok P)

/-- `a && b ^ c ..`: the exclusive disjunction starts with a proper conjunction -/
def XorSeq.mixed (s : XorSeq X) : Prop := s.many ∧ s.head.many

/-- the sequence consists of at least two operands -/
def OrSeq.long (a : OrSeq X) : Prop := a.many ∨ a.head.many ∨ a.head.head.many

/-- no operand of a `||` is of the form `a && b ^ ..` -/
def OrSeq.plain (a : OrSeq X) : Prop := a.many → a.all (fun x => ¬ XorSeq.mixed x)

/-- the text does not start with white space -/
def Unled (t : Bytes) : Prop := ∀ b, t.head? = some b → ¬ IsWs b

/-- `n` signs of negation, each followed by white space -/
inductive Bangs : Nat → Bytes → Prop
  | zero : Bangs 0 []
  | succ {n w t} : Ws w → Bangs n t → Bangs (n + 1) (bs "!" ++ w ++ t)

/-- `n` negations -/
def dNots : Nat → Den X → Den X
  | 0, v => v
  | n + 1, v => dNot (dNots n v)

/-- Operands of C16.  All simple subfield matchers, and negated existence. -/
inductive SubOperand (rx : Bytes → Bool) (E : Env) (o : Opts) : Operand (List Subfield) → Prop
  | simple {t v w} : SubText rx E o t v → Unled t → Ws w → SubOperand rx E o ⟨t ++ w, v⟩
  | neg {n b t v w} : Bangs (n + 1) b → ExistsText t v → Ws w →
      SubOperand rx E o ⟨b ++ t ++ w, dNots (n + 1) v⟩

/-- `t` in `d` pairs of parentheses -/
def nest : Nat → Bytes → Bytes
  | 0, t => t
  | d + 1, t => bs "(" ++ nest d t ++ bs ")"

/-- `Parens d t u`: `u` is `t` in `d` pairs of parentheses, with white space
after any of them -/
inductive Parens : Nat → Bytes → Bytes → Prop
  | zero {t} : Parens 0 t t
  | succ {d t u w w'} : Ws w → Ws w' → Parens d t u → Parens (d + 1) t (bs "(" ++ w ++ u ++ bs ")" ++ w')

/-- a sequence of subfield operands, in at most two pairs of parentheses (more
are not accepted, see C21) -/
inductive SubBody (rx : Bytes → Bool) (E : Env) (o : Opts) : Bytes → Den (List Subfield) → Prop
  | mk {d u} {a : OrSeq (List Subfield)} : d ≤ 2 → a.ok (SubOperand rx E o) → a.plain →
      Parens d a.txt u → SubBody rx E o u a.val

/-- fields with the tag and no occurrence (`00` is the same as none) -/
def PlainSel (t : Bytes) (f : Field) : Prop :=
  f.tag = t ∧ (f.occ = none ∨ f.occ = some [0x30, 0x30])

/-- Simple field matchers: existence of a field, a simple matcher on a subfield,
an expression in braces, cardinalities, and the negations of those that may be
negated without parentheses.  `br` tells whether expressions in braces are
allowed. -/
inductive FieldOperand (rx : Bytes → Bool) (E : Env) (o : Opts) (br : Bool) :
    Operand (List Field) → Prop
  | exists {t to sel w w'} : Selects t to sel → Ws w → Ws w' →
      FieldOperand rx E o br ⟨t ++ to ++ w ++ bs "?" ++ w', fun fs => truth (∃ f ∈ fs, sel f)⟩
  | dot {tq q t to sel ts v w} : QuantText false tq q → Unled tq → Selects t to sel →
      SubText rx E o ts v → Ws w →
      FieldOperand rx E o br ⟨tq ++ t ++ to ++ bs "." ++ ts ++ w, FQuant q sel v⟩
  | braces {tq q t to sel tl ts v w} : br = true → QuantText false tq q → Unled tq → Selects t to sel →
      Padded (· = bs "{") tl → SubBody rx E o ts v → Ws w →
      FieldOperand rx E o br ⟨tq ++ t ++ to ++ tl ++ ts ++ bs "}" ++ w, FQuant q sel v⟩
  | card {w0 w1 t to sel w2 top op ds w} : Ws w0 → Selects t to sel → Ws w1 → Ws w2 →
      Padded (· = relSign op) top → NumOp op → ds ≠ [] → (∀ b ∈ ds, 0x30 ≤ b ∧ b ≤ 0x39) →
      numVal ds < 2 ^ 64 → Ws w →
      FieldOperand rx E o br ⟨bs "#" ++ w0 ++ t ++ w1 ++ to ++ w2 ++ top ++ ds ++ w,
        fun fs => (FCount sel (fun _ => some true) fs).bind (fun n => truth (NumHolds op n (numVal ds)))⟩
  | cardSub {w0 w1 t to sel tl ts v w3 top op ds w} : br = true → Ws w0 → Selects t to sel → Ws w1 →
      Padded (· = bs "{") tl → SubBody rx E o ts v → Ws w3 →
      Padded (· = relSign op) top → NumOp op → ds ≠ [] → (∀ b ∈ ds, 0x30 ≤ b ∧ b ≤ 0x39) →
      numVal ds < 2 ^ 64 → Ws w →
      FieldOperand rx E o br ⟨bs "#" ++ w0 ++ t ++ w1 ++ to ++ tl ++ ts ++ bs "}" ++ w3 ++ top ++ ds ++ w,
        fun fs => (FCount sel v fs).bind (fun n => truth (NumHolds op n (numVal ds)))⟩
  | negExists {n b t to sel w w'} : Bangs (n + 1) b → Selects t to sel → Ws w → Ws w' →
      FieldOperand rx E o br ⟨b ++ (t ++ to ++ w ++ bs "?" ++ w'),
        dNots (n + 1) (fun fs => truth (∃ f ∈ fs, sel f))⟩
  | negDot {n b tq q t to sel td ts v w} : Bangs (n + 1) b →
      (tq = [] ∧ q = .any ∨ tq = bs "ANY" ∧ q = .any ∨ tq = bs "ALL" ∧ q = .all) → Selects t to sel →
      Padded (· = bs ".") td → ExistsText ts v → Ws w →
      FieldOperand rx E o br ⟨b ++ (tq ++ t ++ to ++ td ++ ts ++ w), dNots (n + 1) (FQuant q sel v)⟩
  | negBraces {n b tq q t to sel tl ts v w} : br = true → Bangs (n + 1) b → QuantText false tq q →
      Unled tq → Selects t to sel → Padded (· = bs "{") tl → SubBody rx E o ts v →
      Ws w →
      FieldOperand rx E o br ⟨b ++ (tq ++ t ++ to ++ tl ++ ts ++ bs "}" ++ w), dNots (n + 1) (FQuant q sel v)⟩

end Pica.Spec

namespace Pica.Spec
open Pica

/-- Field operands with parentheses and `!`, nested at most `d` deep.  The
expressions in parentheses are sequences as in C16. -/
def FieldNest (rx : Bytes → Bool) (E : Env) (o : Opts) (br : Bool) : Nat → Operand (List Field) → Prop
  | 0, x => FieldOperand rx E o br x
  | d + 1, x => FieldNest rx E o br d x ∨
      (∃ (a : OrSeq (List Field)) (w w' : Bytes), a.ok (FieldNest rx E o br d) ∧ a.plain ∧ Ws w ∧ Ws w' ∧
        x = ⟨bs "(" ++ w ++ a.txt ++ bs ")" ++ w', a.val⟩) ∨
      (∃ (a : OrSeq (List Field)) (n : Nat) (b w w' : Bytes), a.ok (FieldNest rx E o br d) ∧ a.plain ∧
        Bangs (n + 1) b ∧ Ws w ∧ Ws w' ∧
        x = ⟨b ++ (bs "(" ++ w ++ a.txt ++ bs ")" ++ w'), dNots (n + 1) a.val⟩)

end Pica.Spec
