import Verif.Model.FieldParser

/-! Models the constructors of single kinds of matchers, `src/matcher/subfield/mod.rs` and
`src/matcher/field/mod.rs`. -/

namespace Pica
open Parser

/-- the kinds of `SingletonMatcher`, subfield/mod.rs:920-929 -/
inductive SubKind
  | exists | relation | contains | regex | regexSet | isIn | card
  deriving DecidableEq

/-- the parser each kind is read with, subfield/mod.rs:56, 152, 418, 529, 632, 739, 841 -/
def SubKind.parser (rx : Bytes → Bool) : SubKind → Parser SubSingle
  | .exists => pSubExists
  | .relation => pSubRelation
  | .contains => pSubContains
  | .regex => pSubRegex rx
  | .regexSet => pSubRegexSet rx
  | .isIn => pSubIn
  | .card => pSubCard

/-- `ExistsMatcher::new`, subfield/mod.rs:55-61; `RelationMatcher::new`, 151-159;
`ContainsMatcher::new`, 417-425; `RegexMatcher::new`, 528-534; `RegexSetMatcher::new`, 631-639;
`InMatcher::new`, 738-744; `CardinalityMatcher::new`, 840-848.  The result is put into
`SingletonMatcher` -/
def SubKind.new (rx : Bytes → Bool) (k : SubKind) (text : Bytes) : Option SubSingle :=
  parseAll (k.parser rx) text

/-- `SingletonMatcher::new`, subfield/mod.rs:953-961 -/
def SubSingle.new (rx : Bytes → Bool) (text : Bytes) : Option SubSingle :=
  parseAll (pSubSingle rx) text

/-- the kinds of field matchers without operators, field/mod.rs:202-205 and 291 -/
inductive FieldKind
  | exists | subfields | card
  deriving DecidableEq

/-- the parser each kind is read with, field/mod.rs:50, 134, 319; `parse_subfields_matcher` is
field/parser.rs:111-121.  The result is put into `FieldMatcher` -/
def FieldKind.parser (rx : Bytes → Bool) : FieldKind → TParser FieldMatcher
  | .exists => TParser.map FieldMatcher.single (TParser.lift pFieldExists)
  | .subfields =>
    TParser.map FieldMatcher.single (TParser.alt (TParser.lift (pSubfieldsDot rx)) (pSubfieldsBracket rx))
  | .card => TParser.map FieldMatcher.card (pFieldCard rx)

/-- `ExistsMatcher::new`, field/mod.rs:49-55; `SubfieldsMatcher::new`, 133-141;
`CardinalityMatcher::new`, 318-326 -/
def FieldKind.new (rx : Bytes → Bool) (s : Levels) (k : FieldKind) (text : Bytes) : Option FieldMatcher × Levels :=
  TParser.parseAll (k.parser rx) s text

/-- `SingletonMatcher::new`, field/mod.rs:225-233 -/
def FieldSingle.new (rx : Bytes → Bool) (s : Levels) (text : Bytes) : Option FieldSingle × Levels :=
  TParser.parseAll (pFieldSingle rx) s text

end Pica
