import Verif.Model.Partition
import Verif.Model.Split

/-!
# The files of `partition` and `split`

Where they are, and what is in a file that several writers share.  Symbolic links, permissions and
errors are not modelled; the paths are those of Unix.
-/

namespace Pica

/-- `PathBuf::join`, partition.rs:121-122 and split.rs:79-82, 110-117: an absolute path replaces the
directory -/
def joinPath (dir name : Bytes) : Bytes :=
  if name.head? = some 0x2F then name
  else if dir = [] ∨ dir.getLast? = some 0x2F then dir ++ name
  else dir ++ 0x2F :: name

/-- the path of the file of a value, partition.rs:115-122 -/
def PartitionCmd.filePath (c : PartitionCmd) (outdir v : Bytes) : Bytes := joinPath outdir (c.name v)

/-- the path of a chunk, split.rs:77-82 and 107-117 -/
def SplitCmd.filePath (c : SplitCmd) (outdir : Bytes) (chunk : Nat) : Bytes := joinPath outdir (c.name chunk)

/-- the system call `write` at a position: a gap behind the end of the file is filled with zeros -/
def writeAt (data : Bytes) (pos : Nat) (b : Bytes) : Bytes :=
  if b = [] then data
  else data.take pos ++ List.replicate (pos - data.length) 0 ++ b ++ data.drop (pos + b.length)

/-- `Shared cs d`: a file has been opened by some writers (writer.rs:38-57, each time with `truncate`),
each has written the bytes in `cs` so far, in pieces and at times of its own (`BufWriter` and
`GzEncoder` collect data), and now the file contains `d`.  A writer goes on where it was, so its position
is the number of its bytes. -/
inductive Shared : List Bytes → Bytes → Prop
  | start : Shared [] []
  | opened {cs d} : Shared cs d → Shared (cs ++ [[]]) []
  | wrote {cs d} (h : Nat) (c b : Bytes) : Shared cs d → cs[h]? = some c →
      Shared (cs.set h (c ++ b)) (writeAt d c.length b)

/-- `d` is a possible content of the file with the name `n` after a run, partition.rs:113-152: the writers
are opened in the order of the values, and all data have been written when all are finished -/
def PartitionCmd.Leaves (c : PartitionCmd) (s : PartitionState) (n d : Bytes) : Prop :=
  Shared ((s.writers.filter (fun w => c.name w.1 == n)).map Prod.snd) d

end Pica
