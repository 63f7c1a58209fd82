import Verif.Model.Concat
import Verif.Model.Files

/-!
# The progress bar

Models `crates/pica-cli/src/progress.rs` and the calls of `update` in the record loops.  The
bar itself (`indicatif`), the elapsed time and the measured rate are not modelled; the rate is
a parameter of the message.  The counters are `u64`; they count lines, so natural numbers
are used.
-/

namespace Pica

/-- the counters of `Progress`, progress.rs:3-7 -/
structure Progress where
  records : Nat
  invalid : Nat
deriving DecidableEq, Repr

namespace Progress

/-- `Progress::new`, progress.rs:10-29 -/
def new : Progress := ⟨0, 0⟩

/-- `Progress::update`, progress.rs:32-40 -/
def update (p : Progress) (invalid : Bool) : Progress :=
  if invalid then { p with invalid := p.invalid + 1 } else { p with records := p.records + 1 }

end Progress

/-- `HumanCount` of `indicatif`: a comma behind a digit if the number of digits that follow is
a multiple of three and not zero -/
def commas : Bytes → Bytes
  | [] => []
  | c :: cs => c :: ((if decide (cs.length > 0) && cs.length % 3 == 0 then [0x2C] else []) ++ commas cs)

/-- `HumanCount(n).to_string()` -/
def humanCount (n : Nat) : Bytes := commas (decimal n)

/-- the message, progress.rs:42-49 -/
def Progress.message (p : Progress) (rate : Nat) : Bytes :=
  humanCount p.records ++ bs " records, " ++ humanCount p.invalid ++ bs " invalid | " ++ humanCount rate ++
    bs " records/s"

/-- a record loop that calls `progress.update(true)` for a skipped line, e.g. count.rs:95-98 -/
def watchSkip {S : Type} (onSkip : S → S) (x : S × Progress) : S × Progress := (onSkip x.1, x.2.update true)

/-- a record loop that calls `progress.update(false)` for each record: count.rs:101,
filter.rs:233, convert/mod.rs:108, partition.rs:96, select.rs:175, explode.rs:182, split.rs:93,
slice.rs:126, print.rs:68, describe.rs:78, frequency.rs:160, sample.rs:84, check/mod.rs:114 and
hash.rs:78 -/
def watchBody {S : Type} (body : S → ByteRecord → Step S) (x : S × Progress) (r : ByteRecord) :
    Step (S × Progress) :=
  match body x.1 r with
  | .next s => .next (s, x.2.update false)
  | .stop s => .stop (s, x.2.update false)
  | .panic => .panic

/-- the record loop of a command with its progress bar -/
def watched {S : Type} (skip : Bool) (onSkip : S → S) (body : S → ByteRecord → Step S)
    (files : List (String × Bytes)) (s : S) : LoopResult (S × Progress) :=
  filesLoop skip (watchSkip onSkip) (watchBody body) files (s, Progress.new)

/-- the body of `concat`, concat.rs:119-139: `update` is called behind the writing, not for a
record that is left out -/
def ConcatCmd.watchBody (c : ConcatCmd) (x : ConcatState × Progress) (r : ByteRecord) :
    Step (ConcatState × Progress) :=
  if c.unique then
    match c.key r with
    | none => .panic
    | some k =>
      if x.1.seen.contains k || k.isEmpty then .next x
      else .next (ConcatCmd.emit { x.1 with seen := k :: x.1.seen } r, x.2.update false)
  else .next (ConcatCmd.emit x.1 r, x.2.update false)

/-- `Concat::execute` with its progress bar, concat.rs:89-153 -/
def ConcatCmd.watched (c : ConcatCmd) (files : List (String × Bytes)) : LoopResult (ConcatState × Progress) :=
  filesLoop c.skip (watchSkip id) c.watchBody files (⟨[], if c.tee then some [] else none, []⟩, Progress.new)

/-- the loop of `Invalid::execute` over a file with its progress bar, invalid.rs:72-87 -/
def invalidWatch : Nat → Bytes → Bytes × Progress → Bytes × Progress
  | 0, _, x => x
  | fuel + 1, input, x =>
    let (buf, rest) := readUntil input
    if buf.isEmpty then x
    else if (ByteRecord.fromBytes buf).isSome then invalidWatch fuel rest (x.1, x.2.update false)
    else invalidWatch fuel rest (x.1 ++ buf, x.2.update true)

/-- `Invalid::execute` with its progress bar, invalid.rs:65-96 -/
def invalidWatched : List (String × Bytes) → Bytes × Progress → Bytes × Progress
  | [], x => x
  | (_, content) :: fs, x => invalidWatched fs (invalidWatch (content.length + 1) content x)

end Pica
