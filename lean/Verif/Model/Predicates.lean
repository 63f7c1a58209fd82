import Verif.Model.ByteRecord

/-! Models `parse_predicates`, `crates/pica-cli/src/utils.rs:201-230`. -/

namespace Pica

/-- `str::split(',')` -/
def splitComma : Bytes → List Bytes
  | [] => [[]]
  | c :: t =>
    if c = 0x2C then [] :: splitComma t
    else
      match splitComma t with
      | [] => [[c]]
      | p :: ps => (c :: p) :: ps

/-- the parts before and from the last slash; `rfind('/')`, utils.rs:216 -/
def splitLastSlash : Bytes → Option (Bytes × Bytes)
  | [] => none
  | c :: t =>
    match splitLastSlash t with
    | some (a, b) => some (c :: a, b)
    | none => if c = 0x2F then some ([], c :: t) else none

/-- the body of the loop, utils.rs:215-227 -/
def parsePredicate (item : Bytes) : Option FieldPred :=
  match splitLastSlash item with
  | some (a, b) =>
    match TagMatcher.new a, OccMatcher.new b with
    | some t, some o => some (t, o)
    | _, _ => none
  | none =>
    match TagMatcher.new item with
    | some t => some (t, .none)
    | none => none

/-- the loop, utils.rs:214-229; `none` is an error -/
def parseItems : List Bytes → Option (List FieldPred)
  | [] => some []
  | item :: items =>
    match parsePredicate item with
    | none => none
    | some p => (parseItems items).map (p :: ·)

/-- `parse_predicates`, utils.rs:201-230, for a list that is given; `trim` is
`str::trim` -/
def parsePredicates (trim : Bytes → Bytes) (text : Bytes) : Option (List FieldPred) :=
  parseItems (((splitComma text).map trim).filter (fun s => !s.isEmpty))

end Pica
