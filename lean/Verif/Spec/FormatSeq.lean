import Verif.Spec.Format
import Verif.Spec.Sequence

/-!
# Formats that are accepted

A format as a list of lists of parts: `<*>` between the outer items, `<$>`
between the parts of an item.  A part is a value or a group.  The texts are such
that a greedy reading finds the intended parts.
-/

namespace Pica.Spec
open Pica

/-- a part of a format: its text, without leading and with any trailing white
space, and its meaning -/
structure FPart where
  text : Bytes
  den : Field → Bytes

/-- `ModFront E t u m`: `t` is a modifier with meaning `m` in front of the text `u`.
Without modifier `u` must not start with `?`; without white space behind the
modifier `u` must not start with one of its letters. -/
inductive ModFront (E : FmtEnv) : Bytes → Bytes → (Bytes → Bytes) → Prop
  | none {u} : u.head? ≠ some 0x3F → ModFront E [] u id
  | some {ls w u} : ls ≠ [] → (∀ b ∈ ls, b ∈ bs "lutwo") → Ws w →
      (w = [] → ∀ b, u.head? = some b → b ∉ bs "lutwo") →
      ModFront E (bs "?" ++ ls ++ w) u (modified E ls)

/-- an optional string in front of the codes -/
inductive PrefixText : Bytes → Bytes → Prop
  | none : PrefixText [] []
  | some {t s w} : StringText t s → Ws w → PrefixText (t ++ w) s

/-- an optional string behind the codes -/
inductive SuffixText : Bytes → Bytes → Prop
  | none : SuffixText [] []
  | some {w t s} : Ws w → StringText t s → SuffixText (w ++ t) s

/-- `?l 'prefix' [codes]..n 'suffix'` -/
inductive FmtVal (E : FmtEnv) (o : FmtOpts) : FPart → Prop
  | mk {tm m tp pre c cs tb n ts suf w} : ModFront E tm (tp ++ c) m → PrefixText tp pre →
      CodesOf c cs → BoundText 1 tb n → SuffixText ts suf → Ws w →
      FmtVal E o ⟨tm ++ tp ++ c ++ tb ++ ts ++ w, fun f => m (taken o.strip cs n pre suf f)⟩

/-- the items of a sequence -/
def Seq.items {A : Type} (s : Seq A) : List A := s.head :: s.tail.map (fun x => x.2.2)

/-- parts with `<$>` between them -/
abbrev FmtAnd := Seq FPart
/-- items with `<*>` between them -/
abbrev FmtSeq := Seq FmtAnd

def FmtAnd.txt (s : FmtAnd) : Bytes := s.text FPart.text
def FmtSeq.txt (s : FmtSeq) : Bytes := s.text FmtAnd.txt

def FmtAnd.den (s : FmtAnd) : Field → Bytes := andThen (s.items.map FPart.den)
def FmtSeq.den (s : FmtSeq) : Field → Bytes := concat (s.items.map FmtAnd.den)

/-- signs are right and all parts satisfy `P` -/
def FmtAnd.ok (P : FPart → Prop) (s : FmtAnd) : Prop := s.signs (· = bs "<$>") ∧ s.all P
def FmtSeq.ok (P : FPart → Prop) (s : FmtSeq) : Prop := s.signs (· = bs "<*>") ∧ s.all (FmtAnd.ok P)

/-- at least two parts -/
def FmtSeq.long (s : FmtSeq) : Prop := s.many ∨ s.head.many

/-- `(?l parts)..n`; a group that consists of a single group is not allowed -/
inductive FmtGroup (E : FmtEnv) (o : FmtOpts) (P : FPart → Prop) : FPart → Prop
  | mk {w0 tm m w1 tb n w2} {s : FmtSeq} : Ws w0 → ModFront E tm s.txt m → s.ok P →
      (s.long ∨ FmtVal E o s.head.head) → Ws w1 → BoundText (2 ^ 64 - 1) tb n → Ws w2 →
      FmtGroup E o P ⟨bs "(" ++ w0 ++ tm ++ s.txt ++ bs ")" ++ w1 ++ tb ++ w2, fun f => m (s.den f)⟩

/-- values and groups, nested at most `d` deep -/
def FmtPart (E : FmtEnv) (o : FmtOpts) : Nat → FPart → Prop
  | 0, x => FmtVal E o x
  | d + 1, x => FmtPart E o d x ∨ FmtGroup E o (FmtPart E o d) x

/-- a filter as in paths -/
inductive FilterBody (rx : Bytes → Bool) (E : Env) (o : Opts) : Bytes → Den (List Subfield) → Prop
  | none : FilterBody rx E o [] (fun _ => some true)
  | some {w u v} : Ws w → SubBody rx E o u v → FilterBody rx E o (bs "|" ++ w ++ u) v

/-- formats with groups nested at most `d` deep -/
inductive FormatBody (rx : Bytes → Bool) (E : FmtEnv) (o : FmtOpts) (d : Nat) :
    Bytes → (Field → Prop) → Den (List Subfield) → (Field → Bytes) → Prop
  | mk {t to sel w0 w1 tf v w2} {s : FmtSeq} : Selects t to sel → Ws w0 → Ws w1 →
      s.ok (FmtPart E o d) → FilterBody rx E.toEnv o.opts tf v → Ws w2 →
      FormatBody rx E o d (t ++ to ++ w0 ++ bs "{" ++ w1 ++ s.txt ++ tf ++ bs "}" ++ w2) sel v s.den

end Pica.Spec
