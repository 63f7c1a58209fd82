import Verif.Model.Reader
import Verif.Model.Path
import Verif.Model.FieldParser

/-!
# The parts shared by the commands

Models `crates/pica-cli/src/utils.rs` and the record loops of the commands.
A file is its content together with the name given on the command line; opening
a file never fails in the model.  Progress output is not modelled.
-/

namespace Pica

/-- what the body of a record loop does with a record -/
inductive Step (S : Type) where
  /-- go on with the next record -/
  | next (s : S)
  /-- `break 'outer` -/
  | stop (s : S)
  /-- the body panics -/
  | panic
deriving DecidableEq, Repr

/-- outcome of a record loop -/
inductive LoopResult (S : Type) where
  /-- the loop has ended normally or by `break 'outer` -/
  | ok (s : S)
  /-- `return Err(e.into())` -/
  | err (e : ReadErr) (s : S)
  | panic
deriving DecidableEq, Repr

/-- how the inner loop of a command ends -/
inductive FileEnd (S : Type) where
  /-- end of file: the outer loop goes on -/
  | eof (s : S)
  /-- the outer loop ends -/
  | done (r : LoopResult S)
deriving DecidableEq, Repr

/-- `while let Some(result) = reader.next_byte_record() { match result {..} }` as
in filter.rs:226-262 and all other commands; `onSkip` is what happens with a
skipped error -/
def fileLoop {S : Type} (skip : Bool) (onSkip : S → S) (body : S → ByteRecord → Step S) :
    List Item → S → FileEnd S
  | [], s => .eof s
  | .error e :: is, s =>
    if e.skipParse skip then fileLoop skip onSkip body is (onSkip s) else .done (.err e s)
  | .ok r :: is, s =>
    match body s r with
    | .next s' => fileLoop skip onSkip body is s'
    | .stop s' => .done (.ok s')
    | .panic => .done .panic

/-- `'outer: for filename in filenames`, e.g. filter.rs:223-263 -/
def filesLoop {S : Type} (skip : Bool) (onSkip : S → S) (body : S → ByteRecord → Step S) :
    List (String × Bytes) → S → LoopResult S
  | [], s => .ok s
  | (name, content) :: fs, s =>
    match fileLoop skip onSkip body (readAll content (some name)) s with
    | .eof s' => filesLoop skip onSkip body fs s'
    | .done r => r

/-- `FilterSet`, utils.rs:171-176; the lists are what `read_filter_list`
(utils.rs:98-169, polars) has read -/
structure FilterSet where
  allow : Option (List Bytes)
  deny : Option (List Bytes)
  path : Path
deriving Repr

/-- `FilterSet::check`, utils.rs:178-199.  The options are
`MatcherOptions::default()`, with its own similarity threshold: `E₀` is the
environment for this threshold. -/
def FilterSet.check (E₀ : Env) (fs : FilterSet) (r : Record) : Option Bool :=
  match fs.path.values E₀ ⟨false⟩ r with
  | none => none
  | some values =>
    if (match fs.deny with
        | some deny => values.any (fun v => deny.contains v)
        | none => false) then some false
    else if (match fs.allow with
        | some allow => !values.any (fun v => allow.contains v) || allow.isEmpty
        | none => false) then some false
    else some true

/-- the options with which a command selects records: `FilterOpts`,
cli.rs:47-143, after `FilterSet::try_from` and `FilterOpts::matcher`
(cli.rs:144-168) -/
structure Selection where
  E₀ : Env
  E : Env
  o : Opts
  set : FilterSet
  matcher : Option RecordMatcher

/-- the two tests at the start of each record loop, e.g. count.rs:104-112;
`none` is a panic -/
def Selection.test (s : Selection) (r : ByteRecord) : Option Bool :=
  match s.set.check s.E₀ r.record with
  | none => none
  | some false => some false
  | some true =>
    match s.matcher with
    | none => some true
    | some m => m.eval s.E s.o r.record

/-- a loop body that skips the records that are not selected -/
def selBody {S : Type} (test : ByteRecord → Option Bool) (act : S → ByteRecord → Step S)
    (s : S) (r : ByteRecord) : Step S :=
  match test r with
  | none => .panic
  | some false => .next s
  | some true => act s r

/-- `count += 1; if limit > 0 && count >= limit { break 'outer; }` -/
def limitStep {S : Type} (limit count : Nat) (s : S) : Step S :=
  if decide (limit > 0) && decide (count ≥ limit) then .stop s else .next s

/-- a loop body that evaluates something that may panic, updates the state and
counts -/
def resultBody {S X : Type} (limit : Nat) (cnt : S → Nat) (f : ByteRecord → Option X) (g : S → X → S)
    (s : S) (r : ByteRecord) : Step S :=
  match f r with
  | none => .panic
  | some x => limitStep limit (cnt (g s x)) (g s x)

end Pica
