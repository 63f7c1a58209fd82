import Verif.Model.Command
import Verif.Model.Query

/-! Models `crates/pica-cli/src/commands/select.rs`. -/

namespace Pica

/-- the options of `Select`, select.rs:37-109.  `E` and `qo` are the query
options, `hash` is the 64-bit hash of a row (select.rs:198-200), `text` is
`to_string` followed by the transliteration, or the identity without
`--translit`.  The header and the CSV encoding are in Model/Csv. -/
structure SelectCmd where
  skip : Bool
  unique : Bool
  noEmptyColumns : Bool
  limit : Nat
  query : Query
  E : FmtEnv
  qo : QueryOpts
  hash : List Bytes → Nat
  text : Bytes → Bytes
  sel : Selection

/-- the rows written, `seen` and `count` -/
structure SelectState where
  out : List (List Bytes)
  seen : List Nat
  count : Nat
deriving DecidableEq, Repr

namespace SelectCmd

/-- one row, select.rs:191-224 -/
def row (c : SelectCmd) (s : SelectState) (row : List Bytes) : SelectState :=
  if c.noEmptyColumns && row.any (fun e => e.isEmpty) then s
  else if c.unique && s.seen.contains (c.hash row) then s
  else
    let s := if c.unique then { s with seen := c.hash row :: s.seen } else s
    if !row.all (fun e => e.isEmpty) then { s with out := s.out ++ [row.map c.text] } else s

/-- select.rs:190-226 -/
def step (c : SelectCmd) (s : SelectState) (rows : Outcome) : SelectState :=
  let s := rows.foldl c.row s
  { s with count := s.count + 1 }

/-- `Select::execute`, select.rs:128-240 -/
def run (c : SelectCmd) (files : List (String × Bytes)) : LoopResult SelectState :=
  filesLoop c.skip id
    (selBody c.sel.test
      (resultBody c.limit SelectState.count (fun r => c.query.run c.E c.qo r.record) c.step))
    files ⟨[], [], 0⟩

end SelectCmd
end Pica
