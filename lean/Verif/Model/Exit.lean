import Verif.Model.Command

/-!
# The exit status

Models `crates/pica-cli/src/main.rs` and the error type of `error.rs`.  An error is
kept with the kind of I/O error that it carries; texts are left out.
-/

namespace Pica

/-- `std::io::ErrorKind`, as far as main.rs:53-57 looks at it -/
inductive IoKind where
  | brokenPipe
  | other
deriving DecidableEq, Repr

/-- `CliError`, error.rs:22-44; `csv::Error`, `check::writer::Error` and
`ReadPicaError` may carry an I/O error -/
inductive CliError where
  | readPica (io : Option IoKind)
  | parseMatcher
  | parsePath
  | parseQuery
  | filterSet
  | check (io : Option IoKind)
  | csv (io : Option IoKind)
  | polars
  | io (kind : IoKind)
  | other
deriving DecidableEq, Repr

/-- `main`, main.rs:50-64: the exit status; all commands return
`ExitCode::SUCCESS` -/
def exitStatus : Except CliError Unit → Nat
  | .ok _ => 0
  | .error (.io .brokenPipe) => 0
  | .error _ => 2

/-- the exit status of a command with a record loop: `Err(e.into())` gives
`CliError::ReadPica`, a panic aborts the process (Cargo.toml:60, `panic = "abort"`),
for which there is no status -/
def loopStatus {S : Type} : LoopResult S → Option Nat
  | .ok _ => some (exitStatus (.ok ()))
  | .err _ _ => some (exitStatus (.error (.readPica none)))
  | .panic => none

end Pica
