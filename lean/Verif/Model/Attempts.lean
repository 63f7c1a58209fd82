import Verif.Model.FieldParser

/-!
# How often groups are tried

The parsers of `src/matcher/field/parser.rs` once more, with one addition: whenever an opening
parenthesis has been read (field/parser.rs:259, before `group_level_inc`) an attempt is counted.
Expressions do not use the counter of formats (`Levels.fmt`), so it counts the attempts here.  That
nothing else has changed is proved (`C83_same`).
-/

namespace Pica
open Parser

/-- one more attempt -/
def tick : Levels → Levels := fun s => { s with fmt := s.fmt + 1 }

mutual

/-- `parse_field_group_matcher`, field/parser.rs:257-273, with the count of attempts -/
def tFieldGroup (rx : Bytes → Bool) : Nat → TParser FieldMatcher
  | 0 => TParser.fail
  | k + 1 =>
    TParser.map FieldMatcher.group
      (TParser.delimited
        (TParser.terminated (TParser.terminated (TParser.lift (ws (byte 0x28))) (TParser.update tick)) fldInc)
        (TParser.alt (composite fieldSyn (fieldAtoms rx (tFieldGroup rx k) (tFieldNot rx k)))
          (TParser.alt (pFieldSingleM rx) (TParser.alt (tFieldNot rx k)
            (TParser.alt (pFieldCardM rx) (tFieldGroup rx k)))))
        (TParser.terminated (TParser.lift (ws (byte 0x29))) (TParser.update fldDec)))

/-- `parse_field_not_matcher`, field/parser.rs:276-290 -/
def tFieldNot (rx : Bytes → Bool) : Nat → TParser FieldMatcher
  | 0 => TParser.fail
  | k + 1 =>
    TParser.map FieldMatcher.not
      (TParser.preceded (TParser.lift (ws (byte 0x21)))
        (TParser.alt (tFieldGroup rx k)
          (TParser.alt (TParser.map FieldMatcher.single (pSubfieldsBracket rx))
            (TParser.alt (TParser.lift pFieldExistsM) (tFieldNot rx k)))))

end

/-- `parse_field_composite_matcher`, field/parser.rs:353-362 -/
def tFieldComposite (rx : Bytes → Bool) (k : Nat) : TParser FieldMatcher :=
  composite fieldSyn (fieldAtoms rx (tFieldGroup rx k) (tFieldNot rx k))

/-- `parse_field_matcher`, field/parser.rs:365-380 -/
def tFieldMatcher (rx : Bytes → Bool) : TParser FieldMatcher := fun s i =>
  let k := i.length + 1
  match tws (TParser.alt (tFieldComposite rx k) (TParser.alt (tFieldGroup rx k)
      (TParser.alt (tFieldNot rx k) (TParser.alt (pFieldSingleM rx) (pFieldCardM rx))))) s i with
  | (some x, s') => (some x, fldReset s')
  | (none, s') => (none, s')

/-- how often a group is tried while `FieldMatcher::new` (field/mod.rs:432-438) parses the text on a
new thread -/
def attempts (rx : Bytes → Bool) (text : Bytes) : Nat := (tFieldMatcher rx Levels.zero text).2.fmt

end Pica
