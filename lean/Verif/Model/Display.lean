import Verif.Model.FieldParser
import Verif.Model.Query

/-!
# Printing matchers, paths, queries and formats

Models the `Display` implementations of the query language.  Serialisation
(feature `serde`) writes the printed text and deserialisation reads it with
`new` (matcher/tag.rs:100-120, matcher/subfield/mod.rs:1408-1428,
matcher/field/mod.rs:790-810, matcher/record.rs:302-322, path.rs:178-198,
query.rs:86-106, fmt/mod.rs:375-395).

`raw_data` is a `String`; the parsed text is UTF-8, so the conversion of the
taken bytes loses nothing.
-/

namespace Pica

/-- `Display for TagMatcher`, matcher/tag.rs:91-97 -/
def TagMatcher.display : TagMatcher → Bytes
  | .pattern _ _ _ _ raw => raw
  | .tag t => t

/-- `Display for OccurrenceMatcher`, matcher/occurrence.rs:97-106 -/
def OccMatcher.display : OccMatcher → Bytes
  | .exact o => bs "/" ++ o
  | .range min max => bs "/" ++ min ++ bs "-" ++ max
  | .any => bs "/*"
  | .none => []

/-- `Display for BooleanOp`, matcher/operator.rs:164-172 -/
def BoolOp.display : BoolOp → Bytes
  | .and => bs "&&"
  | .or => bs "||"
  | .xor => bs "^"

/-- `Display for SingletonMatcher`, matcher/subfield/mod.rs:1015-1025, with the
`Display` of the seven matchers (lines 119, 385, 496, 599, 706, 809, 916) -/
def SubSingle.display : SubSingle → Bytes
  | .exists _ raw => raw
  | .relation _ _ _ _ raw => raw
  | .contains _ _ _ raw => raw
  | .regex _ _ _ _ raw => raw
  | .regexSet _ _ _ _ raw => raw
  | .isIn _ _ _ _ raw => raw
  | .card _ _ _ raw => raw

/-- `Display for SubfieldMatcher`, matcher/subfield/mod.rs:1137-1147 -/
def SubMatcher.display : SubMatcher → Bytes
  | .single m => m.display
  | .group m => bs "(" ++ m.display ++ bs ")"
  | .not m => bs "!" ++ m.display
  | .comp l op r => l.display ++ bs " " ++ op.display ++ bs " " ++ r.display

/-- `Display for SingletonMatcher`, matcher/field/mod.rs:282-287, with
`ExistsMatcher` 99-101 and `SubfieldsMatcher` 194-196 -/
def FieldSingle.display : FieldSingle → Bytes
  | .exists t oc => t.display ++ oc.display ++ bs "?"
  | .subfields _ _ _ _ raw => raw

/-- `Display for FieldMatcher`, matcher/field/mod.rs:505-516, with
`CardinalityMatcher` 393-395; `Display for RecordMatcher`, matcher/record.rs:94-96 -/
def FieldMatcher.display : FieldMatcher → Bytes
  | .single m => m.display
  | .card m => m.raw
  | .group m => bs "(" ++ m.display ++ bs ")"
  | .not m => bs "!" ++ m.display
  | .comp l op r => l.display ++ bs " " ++ op.display ++ bs " " ++ r.display

/-- `Display for Path`, path.rs:173-175 -/
def Path.display (p : Path) : Bytes := p.raw

/-- `Display for Format`, fmt/mod.rs:370-372 -/
def Format.display (f : Format) : Bytes := f.raw

/-- `Display for Query`, query.rs:81-83 -/
def Query.display (q : Query) : Bytes := q.raw

end Pica
