import Verif.Model.Record

/-! # Cutting a record into parts -/

namespace Pica.Spec
open Pica

/-- the fields of a level, in order -/
def ofLevel (l : Level) (fs : List Field) : List Field := fs.filter (fun f => decide (f.level = some l))

/-- the fields below the main level, in order -/
def belowMain (fs : List Field) : List Field := fs.filter (fun f => decide (f.level ≠ some .main))

/-- a copy-level field followed by a local-level field -/
def NewLocal (a b : Field) : Prop := a.level = some .copy ∧ b.level = some .local

/-- `segs` are the non-empty parts of a list cut exactly at the places where
`R` holds between neighbours -/
structure CutAt {α : Type} (R : α → α → Prop) (l : List α) (segs : List (List α)) : Prop where
  whole : segs.flatten = l
  nonempty : ∀ s ∈ segs, s ≠ []
  inside : ∀ s ∈ segs, ∀ u a b v, s = u ++ a :: b :: v → ¬ R a b
  between : ∀ u s t v, segs = u ++ s :: t :: v → ∃ a b, s.getLast? = some a ∧ t.head? = some b ∧ R a b

/-- one record for each segment with a field below the main level: the main
fields up to the end of the segment, then those other fields of the segment -/
def localRecords (main : List Field) : List (List Field) → List Record
  | [] => []
  | s :: ss =>
    (if belowMain s = [] then [] else [main ++ ofLevel .main s ++ belowMain s]) ++
      localRecords (main ++ ofLevel .main s) ss

/-- one record for each piece of a segment that has a copy field: the main fields
so far, the local fields of the segment so far, and the copy fields of the piece -/
def pieceRecords (main loc : List Field) : List (List Field) → List Record
  | [] => []
  | p :: ps =>
    (if ofLevel .copy p = [] then []
     else [(main ++ ofLevel .main p) ++ (loc ++ ofLevel .local p) ++ ofLevel .copy p]) ++
      pieceRecords (main ++ ofLevel .main p) (loc ++ ofLevel .local p) ps

/-- the records of all segments, each given by its pieces -/
def copyRecords (main : List Field) : List (List (List Field)) → List Record
  | [] => []
  | s :: ss => pieceRecords main [] s ++ copyRecords (main ++ ofLevel .main s.flatten) ss

/-- the pieces of a segment: in a piece all copy fields have the same occurrence,
and a new piece begins with a copy field of a different occurrence -/
structure Pieces (s : List Field) (ps : List (List Field)) : Prop where
  whole : ps.flatten = s
  same : ∀ p ∈ ps, ∀ f ∈ ofLevel .copy p, ∀ g ∈ ofLevel .copy p, f.occ = g.occ
  begins : ∀ u p q v, ps = u ++ p :: q :: v →
    ∃ f g, f ∈ ofLevel .copy p ∧ q.head? = some g ∧ g.level = some .copy ∧ f.occ ≠ g.occ

end Pica.Spec
