import Verif.Spec.Lines
import Verif.Model.Command

/-! # Inputs of commands -/

namespace Pica.Spec
open Pica

/-- `Input files rs`: `rs` are the records on the valid lines of the files, in
order. -/
inductive Input : List (String × Bytes) → List ByteRecord → Prop
  | nil : Input [] []
  | cons {name content ls fs rs} : Lines content ls → Input fs rs →
      Input ((name, content) :: fs) (ls.filterMap ByteRecord.fromBytes ++ rs)

/-- all lines of all files are valid records -/
def AllValid (files : List (String × Bytes)) : Prop :=
  ∀ f ∈ files, ∀ ls, Lines f.2 ls → ∀ l ∈ ls, (Record.fromBytes l).isSome = true

/-- the first `limit` elements; all if the limit is 0 -/
def limited {α : Type} (limit : Nat) (l : List α) : List α := if limit = 0 then l else l.take limit

/-- the records for which a test holds -/
def chosen (test : ByteRecord → Option Bool) (rs : List ByteRecord) : List ByteRecord :=
  rs.filter (fun r => decide (test r = some true))

end Pica.Spec
