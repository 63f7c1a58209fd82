import Verif.Spec.Query
import Verif.Spec.FormatSeq

/-!
# Paths and queries that are accepted

Texts of paths and queries such that a greedy reading finds the intended parts.
White space in front of a body is left to the context.
-/

namespace Pica.Spec
open Pica

/-- `a, [bc], *` or the same in parentheses, and white space -/
inductive CodesBody : Bytes → List Bytes → Prop
  | bare {t css w} : ItemsText CodesOf t css → Ws w → CodesBody (t ++ w) css
  | parens {w0 t css w1 w2} : Ws w0 → ItemsText CodesOf t css → Ws w1 → Ws w2 →
      CodesBody (bs "(" ++ w0 ++ t ++ w1 ++ bs ")" ++ w2) css

/-- `tag/occurrence.codes` and `tag/occurrence{ codes | filter }` -/
inductive PathBody (rx : Bytes → Bool) (E : Env) (o : Opts) :
    Bytes → (Field → Prop) → Den (List Subfield) → List Bytes → Prop
  | dot {t to sel c cs w} : Selects t to sel → CodesOf c cs → Ws w →
      PathBody rx E o (t ++ to ++ bs "." ++ c ++ w) sel (fun _ => some true) [cs]
  | braces {t to sel w0 w1 tc css tf v w2} : Selects t to sel → Ws w0 → Ws w1 → CodesBody tc css →
      FilterBody rx E o tf v → Ws w2 →
      PathBody rx E o (t ++ to ++ w0 ++ bs "{" ++ w1 ++ tc ++ tf ++ bs "}" ++ w2) sel v css

/-- `FragBody rx E o d t n m`: a fragment with `n` columns and the rows `m r`.  A
format that consists of codes only, like `012A{ a }`, is a path; a format that is
not a path has an operator, a modifier, a string or a bound. -/
inductive FragBody (rx : Bytes → Bool) (E : FmtEnv) (o : QueryOpts) (d : Nat) :
    Bytes → Nat → (Record → List (List Bytes)) → Prop
  | path {t sel v css} : PathBody rx E.toEnv o.opts t sel v css →
      FragBody rx E o d t css.length (pathRows o sel v css)
  | literal {t s} : StringText t s → FragBody rx E o d t 1 (fun _ => [[s]])
  | format {t to sel w0 w1 tf v w2} {s : FmtSeq} : Selects t to sel → Ws w0 → Ws w1 →
      s.ok (FmtPart E ⟨false, o.caseIgnore⟩ d) → (∃ b ∈ s.txt, b ∈ bs "<?'\".") →
      FilterBody rx E.toEnv o.opts tf v → Ws w2 →
      FragBody rx E o d (t ++ to ++ w0 ++ bs "{" ++ w1 ++ s.txt ++ tf ++ bs "}" ++ w2) 1
        (fun r => stringRows (rendered sel v s.den r))

/-- fragments separated by commas -/
inductive QueryBody (rx : Bytes → Bool) (E : FmtEnv) (o : QueryOpts) (d : Nat) :
    Bytes → List (Nat × (Record → List (List Bytes))) → Prop
  | one {t n m} : FragBody rx E o d t n m → QueryBody rx E o d t [(n, m)]
  | more {t n m sep t' ms} : FragBody rx E o d t n m → Sep sep → QueryBody rx E o d t' ms →
      QueryBody rx E o d (t ++ sep ++ t') ((n, m) :: ms)

end Pica.Spec
