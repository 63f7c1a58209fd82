import Verif.Base.Bytes

/-! Where a path leads, without symbolic links. -/

namespace Pica.Spec

/-- the parts of a path between the slashes -/
def segments : Bytes → List Bytes
  | [] => [[]]
  | c :: t =>
    if c = 0x2F then [] :: segments t
    else match segments t with
      | [] => [[c]]
      | s :: r => (c :: s) :: r

/-- one step in the tree of directories: an empty part and `.` stay, `..` goes up (not above the root) -/
def walk (place : List Bytes) (seg : Bytes) : List Bytes :=
  if seg = [] ∨ seg = bs "." then place
  else if seg = bs ".." then place.dropLast
  else place ++ [seg]

/-- the place to which a path leads, from the directory `cwd` -/
def located (cwd : List Bytes) (p : Bytes) : List Bytes :=
  (segments p).foldl walk (if p.head? = some 0x2F then [] else cwd)

/-- the path leads to an entry of the directory -/
def Inside (cwd : List Bytes) (dir p : Bytes) : Prop := ∃ n, located cwd p = located cwd dir ++ [n]

end Pica.Spec
