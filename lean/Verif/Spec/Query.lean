import Verif.Spec.Format
import Verif.Model.Query

/-! # Queries: tables, products, joins -/

namespace Pica.Spec
open Pica

/-- number of columns of a fragment -/
def columns : QFragment → Nat
  | .path p => p.codes.length
  | .literal _ => 1
  | .format _ => 1

/-- a table with at least one row, every row of width `n` -/
def Rect (n : Nat) (rows : List (List Bytes)) : Prop := rows ≠ [] ∧ ∀ row ∈ rows, row.length = n

/-- Cartesian product of tables: one row of each, joined; the rows of the first
table vary slowest. -/
def product : List (List (List Bytes)) → List (List Bytes)
  | [] => [[]]
  | R :: Rs => R.flatMap (fun x => (product Rs).map (fun y => x ++ y))

/-- items with a separator between them -/
def join (sep : Bytes) : List Bytes → Bytes
  | [] => []
  | [x] => x
  | x :: y :: xs => x ++ sep ++ join sep (y :: xs)

open Classical in
/-- the selected fields that pass the filter -/
noncomputable def hits (sel : Field → Prop) (v : Den (List Subfield)) (r : Record) : List Field :=
  r.filter (fun f => decide (sel f ∧ v f.subfields = some true))

/-- the values of the subfields with a code in `cs` -/
def columnValues (f : Field) (cs : Bytes) : List Bytes :=
  (f.subfields.filter (fun s => decide (s.code ∈ cs))).map Subfield.value

/-- the values of a column, one empty cell if there is none -/
def cells (f : Field) (cs : Bytes) : List Bytes :=
  if columnValues f cs = [] then [[]] else columnValues f cs

/-- The rows of a path in a record: one empty row if no field is selected.
Otherwise, with squash, one row per field with the joined values of each column;
without squash all combinations of the values of the columns, field by field. -/
noncomputable def pathRows (o : QueryOpts) (sel : Field → Prop) (v : Den (List Subfield))
    (css : List Bytes) (r : Record) : List (List Bytes) :=
  if hits sel v r = [] then [css.map (fun _ => [])]
  else if o.squash then
    (hits sel v r).map (fun f => css.map (fun cs => join o.separator (columnValues f cs)))
  else (hits sel v r).flatMap (fun f => product (css.map (fun cs => (cells f cs).map (fun x => [x]))))

/-- one row per string, one empty cell if there is none -/
def stringRows (vs : List Bytes) : List (List Bytes) :=
  if vs = [] then [[[]]] else vs.map (fun x => [x])

/-- `FragText rx E o t n m`: the text `t` is a query fragment with `n` columns and
the rows `m r` in the record `r`. -/
inductive FragText (rx : Bytes → Bool) (E : FmtEnv) (o : QueryOpts) :
    Bytes → Nat → (Record → List (List Bytes)) → Prop
  | path {t sel v css} : PathText rx E.toEnv o.opts t sel v css → css ≠ [] →
      FragText rx E o t css.length (pathRows o sel v css)
  | literal {t s} : StringText t s → FragText rx E o t 1 (fun _ => [[s]])
  | format {t sel v g} : FormatText rx E ⟨false, o.caseIgnore⟩ t sel v g →
      FragText rx E o t 1 (fun r => stringRows (rendered sel v g r))

/-- fragments separated by commas -/
inductive QueryText (rx : Bytes → Bool) (E : FmtEnv) (o : QueryOpts) :
    Bytes → List (Nat × (Record → List (List Bytes))) → Prop
  | one {t n m} : FragText rx E o t n m → QueryText rx E o t [(n, m)]
  | more {t n m s t' ms} : FragText rx E o t n m → Sep s → QueryText rx E o t' ms →
      QueryText rx E o (t ++ s ++ t') ((n, m) :: ms)

/-- One row: the cell of a column joins the cells of this column in all rows. -/
def merged (sep : Bytes) (n : Nat) (rows : List (List Bytes)) : List (List Bytes) :=
  [(List.range n).map (fun j => join sep (rows.map (fun row => row.getD j [])))]

end Pica.Spec
