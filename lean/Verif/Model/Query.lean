import Verif.Model.Format

/-! Models `src/query.rs`. -/

namespace Pica
open Parser

/-- `Outcome<BString>`, query.rs:309-310: a table -/
abbrev Outcome := List (List Bytes)

/-- `QueryOptions`, query.rs:225-232; the similarity threshold is in `Env.similar` -/
structure QueryOpts where
  caseIgnore : Bool
  separator : Bytes
  squash : Bool
  merge : Bool
deriving DecidableEq, Repr

/-- `From<&QueryOptions> for MatcherOptions`, query.rs:291-298 -/
def QueryOpts.opts (o : QueryOpts) : Opts := ⟨o.caseIgnore⟩
/-- `From<&QueryOptions> for FormatOptions`, query.rs:300-307 -/
def QueryOpts.fmtOpts (o : QueryOpts) : FmtOpts := ⟨false, o.caseIgnore⟩

/-- `Fragment`, query.rs:107-112 -/
inductive QFragment where
  | path (p : Path)
  | literal (s : Bytes)
  | format (f : Format)
deriving Repr

/-- `Query`, query.rs:20-24 -/
structure Query where
  fragments : List QFragment
  raw : Bytes
deriving Repr

namespace Outcome

/-- the loop of `squash`, query.rs:329-336: items after the first get a separator
in front -/
def joinLoop (sep : Bytes) : Nat → Bytes → List Bytes → Bytes
  | _, acc, [] => acc
  | i, acc, x :: xs => joinLoop sep (i + 1) ((if i > 0 then acc ++ sep else acc) ++ x) xs

/-- `Outcome::squash`, query.rs:313-339 (the warning is not modelled) -/
def squash (sep : Bytes) (o : Outcome) : Outcome := [[joinLoop sep 0 [] o.flatten]]

/-- the loop of `merge`, query.rs:345-350: `e[i]` panics if `e` is shorter -/
def mergeRow (sep : Bytes) : List Bytes → List Bytes → Option (List Bytes)
  | [], _ => some []
  | _ :: _, [] => none
  | a :: as, e :: es => (mergeRow sep as es).map (fun r => (a ++ sep ++ e) :: r)

/-- `reduce` with a closure that may panic -/
def mergeRows (sep : Bytes) : List Bytes → List (List Bytes) → Option (List Bytes)
  | acc, [] => some acc
  | acc, e :: es =>
    match mergeRow sep acc e with
    | none => none
    | some r => mergeRows sep r es

/-- `Outcome::merge`, query.rs:341-356: `unwrap` panics on an empty outcome -/
def merge (sep : Bytes) : Outcome → Option Outcome
  | [] => none
  | r :: rs => (mergeRows sep r rs).map (fun x => [x])

/-- `Add`, query.rs:377-381 -/
def add (a b : Outcome) : Outcome := a ++ b

/-- `Mul`, query.rs:387-414 -/
def mul (a b : Outcome) : Outcome :=
  if a.isEmpty then b
  else if b.isEmpty then a
  else a.flatMap (fun x => b.map (fun y => x ++ y))

end Outcome

namespace QFragment

/-- the values of a column in a field, query.rs:161-173 -/
def column (f : Field) (codes : Bytes) : List Bytes :=
  (f.subfields.filter (fun s => codes.contains s.code)).map Subfield.value

/-- one column of a field as outcome, query.rs:174-194 -/
def columnOutcome (o : QueryOpts) (f : Field) (codes : Bytes) : Outcome :=
  let values := column f codes
  let outcome : Outcome := if values.isEmpty then [[[]]] else values.map (fun v => [v])
  if o.squash then outcome.squash o.separator else outcome

/-- one field, query.rs:158-196 -/
def fieldOutcome (o : QueryOpts) (p : Path) (f : Field) : Outcome :=
  (p.codes.map (columnOutcome o f)).foldl Outcome.mul []

/-- `Fragment::query`, query.rs:115-212 -/
def run (E : FmtEnv) (o : QueryOpts) (fr : QFragment) (r : Record) : Option Outcome :=
  match fr with
  | .literal s => some [[s]]
  | .format fm =>
    match fm.run E o.fmtOpts r with
    | none => none
    | some vs =>
      let rows : Outcome := vs.map (fun e => [e])
      some (if rows.isEmpty then [[[]]] else rows)
  | .path p =>
    match filterP (fieldTest E.toEnv o.opts p.tag p.occ p.sub) r with
    | none => none
    | some fs =>
      let outcome := (fs.map (fieldOutcome o p)).foldl Outcome.add []
      some (if outcome.isEmpty then [List.replicate p.codes.length []] else outcome)

end QFragment

/-- one fragment of `QueryExt::query`, query.rs:453-460 -/
def Query.part (E : FmtEnv) (o : QueryOpts) (r : Record) (fr : QFragment) : Option Outcome :=
  match fr.run E o r with
  | none => none
  | some out => if o.merge then out.merge o.separator else some out

/-- `QueryExt::query` for records, query.rs:445-463: `reduce(|acc, e| acc * e)`,
the empty outcome if there are no fragments -/
def Query.run (E : FmtEnv) (o : QueryOpts) (q : Query) (r : Record) : Option Outcome :=
  (mapP (Query.part E o r) q.fragments).map (fun outs =>
    match outs with
    | [] => []
    | x :: xs => xs.foldl Outcome.mul x)

/-- `parse_fragment`, query.rs:215-222 -/
def pQFragment (rx : Bytes → Bool) : TParser QFragment :=
  TParser.alt (TParser.map .path (pPath rx))
    (TParser.alt (TParser.lift (map .literal pString)) (TParser.map .format (pFormat rx)))

/-- `parse_query`, query.rs:55-66 -/
def pQuery (rx : Bytes → Bool) : TParser Query :=
  TParser.map (fun x => ⟨x.1, x.2⟩)
    (TParser.withTaken (TParser.separated 1 (pQFragment rx) (ws (byte 0x2C))))

/-- `Query::new`, query.rs:45-52 -/
def Query.new (rx : Bytes → Bool) (s : Levels) (text : Bytes) : Option Query × Levels :=
  TParser.parseAll (pQuery rx) s text

end Pica
