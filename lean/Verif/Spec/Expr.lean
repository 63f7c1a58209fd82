import Verif.Base.Bytes

/-!
# The language of filter expressions

A small grammar with the usual precedence: `!` and parentheses bind tightest,
then `&&`, then `^`/`XOR`, then `||`; all binary operators associate to the
left.  The grammar assigns a meaning to each text: a function from the data to
`Option Bool`, where `none` stands for a panic during evaluation.
-/

namespace Pica.Spec

/-- the meaning of an expression over data of type `X` -/
abbrev Den (X : Type) := X → Option Bool

variable {X : Type}

/-- negation -/
def dNot (a : Den X) : Den X := fun x =>
  match a x with
  | some b => some (!b)
  | none => none

/-- conjunction; the right side is looked at only if needed -/
def dAnd (a b : Den X) : Den X := fun x =>
  match a x with
  | some true => b x
  | r => r

/-- disjunction; the right side is looked at only if needed -/
def dOr (a b : Den X) : Den X := fun x =>
  match a x with
  | some false => b x
  | r => r

/-- exclusive disjunction -/
def dXor (a b : Den X) : Den X := fun x =>
  match a x, b x with
  | some p, some q => some (p != q)
  | _, _ => none

/-- white space -/
def Ws (w : Bytes) : Prop := ∀ b ∈ w, b = 0x20 ∨ b = 0x09 ∨ b = 0x0D ∨ b = 0x0A

/-- the two spellings of the exclusive or -/
def XorSign (t : Bytes) : Prop := t = bs "^" ∨ t = bs "XOR"

mutual

/-- an operand: a simple matcher, an expression in parentheses, a negation -/
inductive AtomT (Single Neg : Bytes → Den X → Prop) : Bytes → Den X → Prop
  | single {t v w w'} : Ws w → Single t v → Ws w' → AtomT Single Neg (w ++ t ++ w') v
  | group {t v w w'} : Ws w → OrT Single Neg t v → Ws w' →
      AtomT Single Neg (w ++ bs "(" ++ t ++ bs ")" ++ w') v
  | not {t v w w'} : Ws w → NegT Single Neg t v → Ws w' →
      AtomT Single Neg (w ++ bs "!" ++ t ++ w') (dNot v)

/-- what may follow a `!` -/
inductive NegT (Single Neg : Bytes → Den X → Prop) : Bytes → Den X → Prop
  | leaf {t v w w'} : Ws w → Neg t v → Ws w' → NegT Single Neg (w ++ t ++ w') v
  | group {t v w w'} : Ws w → OrT Single Neg t v → Ws w' →
      NegT Single Neg (w ++ bs "(" ++ t ++ bs ")" ++ w') v
  | not {t v w w'} : Ws w → NegT Single Neg t v → Ws w' →
      NegT Single Neg (w ++ bs "!" ++ t ++ w') (dNot v)

/-- conjunctions -/
inductive AndT (Single Neg : Bytes → Den X → Prop) : Bytes → Den X → Prop
  | one {t v} : AtomT Single Neg t v → AndT Single Neg t v
  | and {t v t' v'} : AndT Single Neg t v → AtomT Single Neg t' v' →
      AndT Single Neg (t ++ bs "&&" ++ t') (dAnd v v')

/-- exclusive disjunctions of conjunctions -/
inductive XorT (Single Neg : Bytes → Den X → Prop) : Bytes → Den X → Prop
  | one {t v} : AndT Single Neg t v → XorT Single Neg t v
  | xor {t v s t' v'} : XorT Single Neg t v → XorSign s → AndT Single Neg t' v' →
      XorT Single Neg (t ++ s ++ t') (dXor v v')

/-- disjunctions of exclusive disjunctions -/
inductive OrT (Single Neg : Bytes → Den X → Prop) : Bytes → Den X → Prop
  | one {t v} : XorT Single Neg t v → OrT Single Neg t v
  | or {t v t' v'} : OrT Single Neg t v → XorT Single Neg t' v' →
      OrT Single Neg (t ++ bs "||" ++ t') (dOr v v')

end

end Pica.Spec
