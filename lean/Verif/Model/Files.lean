import Verif.Base.Bytes

/-!
# Output files

A directory is a list of files, each with a name and what has been written to
it.  Directories, permissions and compression are not modelled; creating a file
never fails.
-/

namespace Pica

/-- files by name -/
abbrev Store := List (Bytes × Bytes)

/-- `WriterBuilder::from_path` without `append` (src/writer.rs:38-57): the file is
created or truncated -/
def Store.create (s : Store) (name : Bytes) : Store :=
  s.filter (fun f => !(f.1 == name)) ++ [(name, [])]

/-- `write_byte_record` on a writer for the file -/
def Store.append (s : Store) (name data : Bytes) : Store :=
  s.map (fun f => if f.1 == name then (f.1, f.2 ++ data) else f)

/-- `template.replace("{}", v)`, split.rs:77 and 111, partition.rs:113 -/
def replaceBraces (v : Bytes) : Bytes → Bytes
  | [] => []
  | [c] => [c]
  | c :: d :: t =>
    if c = 0x7B ∧ d = 0x7D then v ++ replaceBraces v t else c :: replaceBraces v (d :: t)

/-- `to_string` of an unsigned number -/
def decimal (n : Nat) : Bytes :=
  if n < 10 then [0x30 + UInt8.ofNat n] else decimal (n / 10) ++ [0x30 + UInt8.ofNat (n % 10)]

end Pica
