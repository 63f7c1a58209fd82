import Verif.Spec.Atoms

/-! # Paths: texts and meanings -/

namespace Pica.Spec
open Pica

/-- A subfield is addressed: its field is selected, the filter holds for its
field, and its code is in one of the code lists. -/
def Addressed (sel : Field → Prop) (v : Den (List Subfield)) (codes : List Bytes)
    (x : Field × Subfield) : Prop :=
  sel x.1 ∧ v x.1.subfields = some true ∧ ∃ cs ∈ codes, x.2.code ∈ cs

/-- all subfields of a record with their fields, in order -/
def allSubfields (r : Record) : List (Field × Subfield) :=
  r.flatMap (fun f => f.subfields.map (fun s => (f, s)))

open Classical in
/-- the values of the addressed subfields, in order and with repetitions -/
noncomputable def addressed (sel : Field → Prop) (v : Den (List Subfield)) (codes : List Bytes)
    (r : Record) : List Bytes :=
  ((allSubfields r).filter (fun x => decide (Addressed sel v codes x))).map (fun x => x.2.value)

/-- the codes written in the text `t` are the members of `cs` -/
def CodesOf (t cs : Bytes) : Prop := CodesText t (fun b => b ∈ cs)

/-- a filter in a path or format: nothing, or `| expression` -/
inductive FilterText (rx : Bytes → Bool) (E : Env) (o : Opts) : Bytes → Den (List Subfield) → Prop
  | none : FilterText rx E o [] (fun _ => some true)
  | some {tb ts v} : Padded (· = bs "|") tb → SubExprText rx E o ts v →
      FilterText rx E o (tb ++ ts) v

/-- `a, [bc], *` or the same in parentheses -/
inductive CodeLists : Bytes → List Bytes → Prop
  | bare {t css} : ItemsText CodesOf t css → CodeLists t css
  | parens {tl t tr css} : Padded (· = bs "(") tl → ItemsText CodesOf t css →
      Padded (· = bs ")") tr → CodeLists (tl ++ t ++ tr) css

/-- `PathText rx E o t sel v css`: the text `t` is a path that selects the fields
`sel`, filters them by `v` and has the columns `css`. -/
inductive PathText (rx : Bytes → Bool) (E : Env) (o : Opts) :
    Bytes → (Field → Prop) → Den (List Subfield) → List Bytes → Prop
  | dot {w t to sel c cs w'} : Ws w → Selects t to sel → CodesOf c cs → Ws w' →
      PathText rx E o (w ++ (t ++ to ++ bs "." ++ c) ++ w') sel (fun _ => some true) [cs]
  | braces {w t to sel tl tc css tf v tr w'} : Ws w → Selects t to sel →
      Padded (· = bs "{") tl → CodeLists tc css → FilterText rx E o tf v →
      Padded (· = bs "}") tr → Ws w' →
      PathText rx E o (w ++ (t ++ to ++ (tl ++ (tc ++ tf) ++ tr)) ++ w') sel v css

end Pica.Spec
