import Verif.Model.Append
import Verif.Model.Slice

/-! # Several slices in one file: `slice … --output FILE --append` -/

namespace Pica

/-- the files after `Slice::execute`, slice.rs:95-98 and 138-163; `none` if the run does not succeed -/
def SliceCmd.save (z : Gzip) (c : SliceCmd) (gzip append : Bool) (path : Bytes) (files : List (String × Bytes))
    (fs : FileMap) : Option FileMap :=
  match WCommand.slice.writer gzip append, c.run files with
  | .writer b, .ok s => some (b.dataFile z path s.out fs)
  | _, _ => none

/-- runs with `--start`, `--end` and `--length`, each with `--append`, one after the other, as long as they succeed -/
def SliceCmd.saveAll (z : Gzip) (c : SliceCmd) (path : Bytes) (files : List (String × Bytes)) :
    List (Nat × Nat × Nat) → FileMap → Option FileMap
  | [], fs => some fs
  | (a, b, l) :: more, fs =>
    (({ c with start := a, «end» := b, length := l } : SliceCmd).save z false true path files fs).bind
      (SliceCmd.saveAll z c path files more)

end Pica
