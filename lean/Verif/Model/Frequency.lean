import Verif.Model.Command
import Verif.Model.Query
import Verif.Base.Order

/-! Models `crates/pica-cli/src/commands/frequency.rs`. -/

namespace Pica

/-- a row of a query result -/
abbrev Row := List Bytes

/-- the options of `Frequency`, frequency.rs:26-110.  `E` and `qo` are the query
options, `iter` is the order in which the hash map `ftable` is iterated, `text`
is `to_string` followed by the transliteration of the output.  The header and
the CSV encoding are in Model/Csv. -/
structure FreqCmd where
  skip : Bool
  unique : Bool
  reverse : Bool
  num : Nat
  threshold : Nat
  limit : Nat
  query : Query
  E : FmtEnv
  qo : QueryOpts
  iter : List (Row × Nat) → List (Row × Nat)
  text : Bytes → Bytes
  sel : Selection

/-- `ftable` and `count` -/
structure FreqState where
  table : List (Row × Nat)
  count : Nat
deriving DecidableEq, Repr

namespace FreqCmd

/-- `*ftable.entry(key).or_insert(0) += 1`, frequency.rs:182; the number is a
`u64`, overflow is not modelled -/
def bump (t : List (Row × Nat)) (key : Row) : List (Row × Nat) :=
  if t.any (fun x => x.1 == key) then t.map (fun x => if x.1 == key then (x.1, x.2 + 1) else x)
  else t ++ [(key, 1)]

/-- frequency.rs:174-184 with `seen` and `ftable` -/
def addRows (unique : Bool) : List Row → List Row → List (Row × Nat) → List (Row × Nat)
  | [], _, t => t
  | key :: rows, seen, t =>
    if key.any (fun e => !e.isEmpty) then
      if unique && seen.contains key then addRows unique rows seen t
      else addRows unique rows (if unique then key :: seen else seen) (bump t key)
    else addRows unique rows seen t

/-- frequency.rs:172-191 -/
def step (c : FreqCmd) (s : FreqState) (rows : Outcome) : FreqState :=
  ⟨addRows c.unique rows [] s.table, s.count + 1⟩

/-- the orders of `sort_by`, frequency.rs:206-216 -/
def le (reverse : Bool) (a b : Row × Nat) : Bool :=
  if reverse then decide (a.2 < b.2) || (a.2 == b.2 && rowLe a.1 b.1)
  else decide (b.2 < a.2) || (a.2 == b.2 && rowLe a.1 b.1)

/-- the loop over the sorted table, frequency.rs:219-235 -/
def emit (c : FreqCmd) : Nat → List (Row × Nat) → List (Row × Nat)
  | _, [] => []
  | i, (values, freq) :: l =>
    if decide (c.num > 0) && decide (i ≥ c.num) then []
    else if freq < c.threshold then []
    else (values.map c.text, freq) :: c.emit (i + 1) l

/-- the record loop, frequency.rs:148-198 -/
def loop (c : FreqCmd) (files : List (String × Bytes)) : LoopResult FreqState :=
  filesLoop c.skip id
    (selBody c.sel.test
      (resultBody c.limit FreqState.count (fun r => c.query.run c.E c.qo r.record) c.step))
    files ⟨[], 0⟩

/-- `Frequency::execute`, frequency.rs:112-242: the rows given to the CSV writer -/
def run (c : FreqCmd) (files : List (String × Bytes)) : LoopResult (List (Row × Nat)) :=
  match c.loop files with
  | .ok s => .ok (c.emit 0 (sortBy (le c.reverse) (c.iter s.table)))
  | .err e _ => .err e []
  | .panic => .panic

end FreqCmd
end Pica
