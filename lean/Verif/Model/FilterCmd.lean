import Verif.Model.Command

/-! Models `crates/pica-cli/src/commands/filter.rs`. -/

namespace Pica

/-- the options of `Filter` (filter.rs:17-158) after parsing; `matcher` is built
by filter.rs:209-214 (`MatcherBuilder`, see `Model/Matcher.lean`) -/
structure FilterCmd where
  skip : Bool
  invert : Bool
  limit : Nat
  tee : Bool
  E₀ : Env
  E : Env
  o : Opts
  set : FilterSet
  matcher : RecordMatcher
  discard : List FieldPred
  keep : List FieldPred

/-- what has been written to the output and to the `--tee` file -/
structure FilterOut where
  out : Bytes
  tee : Option Bytes
deriving DecidableEq, Repr

namespace FilterCmd

/-- the tests of filter.rs:235-247 -/
def test (c : FilterCmd) (r : ByteRecord) : Option Bool :=
  match c.set.check c.E₀ r.record with
  | none => none
  | some false => some false
  | some true =>
    match c.matcher.eval c.E c.o r.record with
    | none => none
    | some b => some (if c.invert then !b else b)

/-- filter.rs:249-250 -/
def reduce (c : FilterCmd) (r : ByteRecord) : ByteRecord := (r.discard c.discard).keep c.keep

/-- filter.rs:249-255 -/
def emit (c : FilterCmd) (s : FilterOut) (r : ByteRecord) : FilterOut where
  out := s.out ++ (c.reduce r).write
  tee := match s.tee with
    | some t => some (t ++ (c.reduce r).write)
    | none => none

/-- `Filter::execute`, filter.rs:161-275: what has been written when the record
loop ends, and the number of records -/
def run (c : FilterCmd) (files : List (String × Bytes)) : LoopResult (FilterOut × Nat) :=
  filesLoop c.skip id
    (selBody c.test (fun x r => limitStep c.limit (x.2 + 1) (c.emit x.1 r, x.2 + 1)))
    files (⟨[], if c.tee then some [] else none⟩, 0)

end FilterCmd
end Pica
