import Verif.Model.Stream
import Verif.Spec.Lines

/-! # What arrives from sources that may fail -/

namespace Pica.Spec
open Pica

/-- `Delivers es c f`: the calls of `read` bring the bytes `c`, in pieces of any size
and with any number of interruptions, until the end of the file (`f = none`) or
until reading fails (`f = some k`) -/
inductive Delivers : List ReadEvent → Bytes → Option IoKind → Prop
  | eof : Delivers [] [] none
  | data (b : Bytes) (es : List ReadEvent) (c : Bytes) (f : Option IoKind) :
      b ≠ [] → Delivers es c f → Delivers (.data b :: es) (b ++ c) f
  | interrupted (es : List ReadEvent) (c : Bytes) (f : Option IoKind) :
      Delivers es c f → Delivers (.interrupted :: es) c f
  | fail (k : IoKind) (es : List ReadEvent) : Delivers (.fail k :: es) [] (some k)

/-- nothing, or bytes that end with a line feed -/
def WholeLines (w : Bytes) : Prop := w = [] ∨ ∃ t, w = t ++ [0x0A]

/-- `Arrives srcs files f`: the sources bring the contents `files`; if reading fails
in the middle of a line, this line does not count; `f` is the failure, after which
nothing arrives -/
inductive Arrives : List Source → List (String × Bytes) → Option RunError → Prop
  | nil : Arrives [] [] none
  | file (name : String) (es : List ReadEvent) (c : Bytes) (srcs : List Source) (files : List (String × Bytes))
      (f : Option RunError) : Delivers es c none → Arrives srcs files f →
      Arrives ((name, .ok es) :: srcs) ((name, c) :: files) f
  | broken (name : String) (es : List ReadEvent) (w p : Bytes) (k : IoKind) (srcs : List Source) :
      Delivers es (w ++ p) (some k) → WholeLines w → (0x0A : Byte) ∉ p →
      Arrives ((name, .ok es) :: srcs) [(name, w)] (some (.read k))
  | closed (name : String) (k : IoKind) (srcs : List Source) :
      Arrives ((name, .error k) :: srcs) [] (some (.io k))

/-- the outcome on sources that do not fail -/
def asResult {O : Type} : LoopResult O → RunResult O
  | .ok o => .ok o
  | .err e o => .err (.record e) o
  | .panic => .panic

end Pica.Spec
