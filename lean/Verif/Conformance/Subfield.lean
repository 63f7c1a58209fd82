import Verif.Conformance.Base

/-! The unit tests of the repository for subfield matchers, evaluated on the model. -/

namespace Pica.Conformance
open Pica Parser

/-- `test_subfield_matcher_serde`, src/matcher/subfield/mod.rs -/
example : [
    shown (subNew (bs "a? && (b? || c?)")) (bs "a? && (b? || c?)"),
    same (subNew (bs "a? && (b? || c?)")) (subNew (bs "a? && (b? || c?)")),
    shown (subNew (bs "a? && (b? || c?) ")) (bs "a? && (b? || c?)"),
    same (subNew (bs "a? && (b? || c?)")) (subNew (bs "a? && (b? || c?) "))].all id = true := by
  decide +kernel

/-- `test_cardinality_matcher`, src/matcher/subfield/mod.rs -/
example : [
    subHolds 80 false ((SubKind.new rx .card (bs "#c == 0")).map SubMatcher.single) [⟨0x61, (bs "foo")⟩, ⟨0x61, (bs "bar")⟩, ⟨0x62, (bs "baz")⟩] true,
    subHolds 80 false ((SubKind.new rx .card (bs "#a != 1")).map SubMatcher.single) [⟨0x61, (bs "foo")⟩, ⟨0x61, (bs "bar")⟩, ⟨0x62, (bs "baz")⟩] true,
    subHolds 80 false ((SubKind.new rx .card (bs "#a >= 2")).map SubMatcher.single) [⟨0x61, (bs "foo")⟩, ⟨0x61, (bs "bar")⟩, ⟨0x62, (bs "baz")⟩] true,
    subHolds 80 false ((SubKind.new rx .card (bs "#a > 1")).map SubMatcher.single) [⟨0x61, (bs "foo")⟩, ⟨0x61, (bs "bar")⟩, ⟨0x62, (bs "baz")⟩] true,
    subHolds 80 false ((SubKind.new rx .card (bs "#b <= 2")).map SubMatcher.single) [⟨0x61, (bs "foo")⟩, ⟨0x61, (bs "bar")⟩, ⟨0x62, (bs "baz")⟩] true,
    subHolds 80 false ((SubKind.new rx .card (bs "#c < 1")).map SubMatcher.single) [⟨0x61, (bs "foo")⟩, ⟨0x61, (bs "bar")⟩, ⟨0x62, (bs "baz")⟩] true].all id = true := by
  decide +kernel

/-- `test_regex_matcher`, src/matcher/subfield/mod.rs -/
example : [
    subHolds 80 false ((SubKind.new rx .regex (bs "a =~ '^f.o$'")).map SubMatcher.single) [⟨0x61, (bs "foo")⟩, ⟨0x61, (bs "bar")⟩, ⟨0x62, (bs "baz")⟩] true,
    subHolds 80 false ((SubKind.new rx .regex (bs "ANY a =~ '^f.o$'")).map SubMatcher.single) [⟨0x61, (bs "foo")⟩, ⟨0x61, (bs "bar")⟩, ⟨0x62, (bs "baz")⟩] true,
    subHolds 80 false ((SubKind.new rx .regex (bs "ALL a =~ '^f.o$'")).map SubMatcher.single) [⟨0x61, (bs "foo")⟩, ⟨0x61, (bs "bar")⟩, ⟨0x62, (bs "baz")⟩] false,
    subHolds 80 false ((SubKind.new rx .regex (bs "a !~ '^f.o$'")).map SubMatcher.single) [⟨0x61, (bs "foo")⟩, ⟨0x61, (bs "bar")⟩, ⟨0x62, (bs "baz")⟩] true,
    subHolds 80 false ((SubKind.new rx .regex (bs "ANY a !~ '^f.o$'")).map SubMatcher.single) [⟨0x61, (bs "foo")⟩, ⟨0x61, (bs "bar")⟩, ⟨0x62, (bs "baz")⟩] true,
    subHolds 80 false ((SubKind.new rx .regex (bs "ALL a !~ '^f.o$'")).map SubMatcher.single) [⟨0x61, (bs "foo")⟩, ⟨0x61, (bs "bar")⟩, ⟨0x62, (bs "baz")⟩] false,
    subHolds 80 false ((SubKind.new rx .regex (bs "b !~ '^b.z$'")).map SubMatcher.single) [⟨0x61, (bs "foo")⟩, ⟨0x61, (bs "bar")⟩, ⟨0x62, (bs "baz")⟩] false,
    subHolds 80 true ((SubKind.new rx .regex (bs "a =~ '^F.O$'")).map SubMatcher.single) [⟨0x61, (bs "foo")⟩, ⟨0x61, (bs "bar")⟩, ⟨0x62, (bs "baz")⟩] true].all id = true := by
  decide +kernel

/-- `test_regex_set_matcher`, src/matcher/subfield/mod.rs -/
example : [
    subHolds 80 false ((SubKind.new rx .regexSet (bs "a =~ ['^f.o$', '^bar']")).map SubMatcher.single) [⟨0x61, (bs "foo")⟩, ⟨0x61, (bs "bar")⟩, ⟨0x62, (bs "baz")⟩] true,
    subHolds 80 false ((SubKind.new rx .regexSet (bs "ANY a =~ ['^f.o$', '^bar']")).map SubMatcher.single) [⟨0x61, (bs "foo")⟩, ⟨0x61, (bs "bar")⟩, ⟨0x62, (bs "baz")⟩] true,
    subHolds 80 false ((SubKind.new rx .regexSet (bs "ALL a =~ ['^f.o$', '^bar']")).map SubMatcher.single) [⟨0x61, (bs "foo")⟩, ⟨0x61, (bs "bar")⟩, ⟨0x62, (bs "baz")⟩] true,
    subHolds 80 false ((SubKind.new rx .regexSet (bs "a !~ ['^f.o$', '^bar']")).map SubMatcher.single) [⟨0x61, (bs "foo")⟩, ⟨0x61, (bs "bar")⟩, ⟨0x62, (bs "baz")⟩] false,
    subHolds 80 false ((SubKind.new rx .regexSet (bs "ANY a !~ ['^f.o$', '^bar']")).map SubMatcher.single) [⟨0x61, (bs "foo")⟩, ⟨0x61, (bs "bar")⟩, ⟨0x62, (bs "baz")⟩] false,
    subHolds 80 false ((SubKind.new rx .regexSet (bs "ALL a !~ ['^f.o$', '^bar']")).map SubMatcher.single) [⟨0x61, (bs "foo")⟩, ⟨0x61, (bs "bar")⟩, ⟨0x62, (bs "baz")⟩] false,
    subHolds 80 true ((SubKind.new rx .regexSet (bs "a =~ ['^F.O$', '^BAR']")).map SubMatcher.single) [⟨0x61, (bs "foo")⟩, ⟨0x61, (bs "bar")⟩, ⟨0x62, (bs "baz")⟩] true].all id = true := by
  decide +kernel

/-- `test_relation_matcher`, src/matcher/subfield/mod.rs -/
example : [
    subHolds 80 false ((SubKind.new rx .relation (bs "a == 'foo'")).map SubMatcher.single) [⟨0x61, (bs "foo")⟩, ⟨0x61, (bs "bar")⟩, ⟨0x62, (bs "baz")⟩] true,
    subHolds 80 false ((SubKind.new rx .relation (bs "a == 'baz'")).map SubMatcher.single) [⟨0x61, (bs "foo")⟩, ⟨0x61, (bs "bar")⟩, ⟨0x62, (bs "baz")⟩] false,
    subHolds 80 false ((SubKind.new rx .relation (bs "a != 'foo'")).map SubMatcher.single) [⟨0x61, (bs "foo")⟩, ⟨0x61, (bs "bar")⟩, ⟨0x62, (bs "baz")⟩] true,
    subHolds 80 false ((SubKind.new rx .relation (bs "b != 'baz'")).map SubMatcher.single) [⟨0x61, (bs "foo")⟩, ⟨0x61, (bs "bar")⟩, ⟨0x62, (bs "baz")⟩] false,
    subHolds 80 false ((SubKind.new rx .relation (bs "a =^ 'fo'")).map SubMatcher.single) [⟨0x61, (bs "foo")⟩, ⟨0x61, (bs "bar")⟩, ⟨0x62, (bs "baz")⟩] true,
    subHolds 80 false ((SubKind.new rx .relation (bs "a =^ 'FO'")).map SubMatcher.single) [⟨0x61, (bs "foo")⟩, ⟨0x61, (bs "bar")⟩, ⟨0x62, (bs "baz")⟩] false,
    subHolds 80 false ((SubKind.new rx .relation (bs "a !^ 'fo'")).map SubMatcher.single) [⟨0x61, (bs "foo")⟩, ⟨0x61, (bs "bar")⟩, ⟨0x62, (bs "baz")⟩] true,
    subHolds 80 false ((SubKind.new rx .relation (bs "b !^ 'b'")).map SubMatcher.single) [⟨0x61, (bs "foo")⟩, ⟨0x61, (bs "bar")⟩, ⟨0x62, (bs "baz")⟩] false,
    subHolds 80 false ((SubKind.new rx .relation (bs "a =$ 'o'")).map SubMatcher.single) [⟨0x61, (bs "foo")⟩, ⟨0x61, (bs "bar")⟩, ⟨0x62, (bs "baz")⟩] true,
    subHolds 80 false ((SubKind.new rx .relation (bs "a =$ 'O'")).map SubMatcher.single) [⟨0x61, (bs "foo")⟩, ⟨0x61, (bs "bar")⟩, ⟨0x62, (bs "baz")⟩] false,
    subHolds 80 false ((SubKind.new rx .relation (bs "a !$ 'o'")).map SubMatcher.single) [⟨0x61, (bs "foo")⟩, ⟨0x61, (bs "bar")⟩, ⟨0x62, (bs "baz")⟩] true,
    subHolds 80 false ((SubKind.new rx .relation (bs "b !$ 'z'")).map SubMatcher.single) [⟨0x61, (bs "foo")⟩, ⟨0x61, (bs "bar")⟩, ⟨0x62, (bs "baz")⟩] false,
    subHolds 80 false ((SubKind.new rx .relation (bs "a =* 'foo'")).map SubMatcher.single) [⟨0x61, (bs "foo")⟩, ⟨0x61, (bs "bar")⟩, ⟨0x62, (bs "baz")⟩] true,
    subHolds 80 false ((SubKind.new rx .relation (bs "a =* 'foO'")).map SubMatcher.single) [⟨0x61, (bs "foo")⟩, ⟨0x61, (bs "bar")⟩, ⟨0x62, (bs "baz")⟩] false,
    subHolds 80 true ((SubKind.new rx .relation (bs "a == 'FOO'")).map SubMatcher.single) [⟨0x61, (bs "foo")⟩, ⟨0x61, (bs "bar")⟩, ⟨0x62, (bs "baz")⟩] true,
    subHolds 80 true ((SubKind.new rx .relation (bs "a =* 'foO'")).map SubMatcher.single) [⟨0x61, (bs "foo")⟩, ⟨0x61, (bs "bar")⟩, ⟨0x62, (bs "baz")⟩] true,
    subHolds 65 false ((SubKind.new rx .relation (bs "a =* 'foO'")).map SubMatcher.single) [⟨0x61, (bs "foo")⟩, ⟨0x61, (bs "bar")⟩, ⟨0x62, (bs "baz")⟩] true].all id = true := by
  decide +kernel

/-- `test_exists_matcher`, src/matcher/subfield/mod.rs -/
example : [
    subHolds 80 false ((SubKind.new rx .exists (bs "a?")).map SubMatcher.single) [⟨0x61, (bs "foo")⟩, ⟨0x61, (bs "bar")⟩, ⟨0x62, (bs "baz")⟩] true,
    subHolds 80 false ((SubKind.new rx .exists (bs "c?")).map SubMatcher.single) [⟨0x61, (bs "foo")⟩, ⟨0x61, (bs "bar")⟩, ⟨0x62, (bs "baz")⟩] false].all id = true := by
  decide +kernel

/-- `test_in_matcher`, src/matcher/subfield/mod.rs -/
example : [
    subHolds 80 false ((SubKind.new rx .isIn (bs "a in ['foo', 'baz']")).map SubMatcher.single) [⟨0x61, (bs "foo")⟩, ⟨0x61, (bs "bar")⟩, ⟨0x62, (bs "baz")⟩] true,
    subHolds 80 false ((SubKind.new rx .isIn (bs "a in ['frob', 'baz']")).map SubMatcher.single) [⟨0x61, (bs "foo")⟩, ⟨0x61, (bs "bar")⟩, ⟨0x62, (bs "baz")⟩] false,
    subHolds 80 false ((SubKind.new rx .isIn (bs "a not in ['foo', 'baz']")).map SubMatcher.single) [⟨0x61, (bs "foo")⟩, ⟨0x61, (bs "bar")⟩, ⟨0x62, (bs "baz")⟩] true,
    subHolds 80 false ((SubKind.new rx .isIn (bs "b not in ['frob', 'baz']")).map SubMatcher.single) [⟨0x61, (bs "foo")⟩, ⟨0x61, (bs "bar")⟩, ⟨0x62, (bs "baz")⟩] false,
    subHolds 80 true ((SubKind.new rx .isIn (bs "a in ['FOO', 'BAZ']")).map SubMatcher.single) [⟨0x61, (bs "foo")⟩, ⟨0x61, (bs "bar")⟩, ⟨0x62, (bs "baz")⟩] true].all id = true := by
  decide +kernel

/-- `test_contains_set_matcher`, src/matcher/subfield/mod.rs -/
example : [
    subHolds 80 false ((SubKind.new rx .contains (bs "a =? ['foo', 'baz']")).map SubMatcher.single) [⟨0x61, (bs "foo")⟩, ⟨0x61, (bs "bar")⟩, ⟨0x62, (bs "baz")⟩] true,
    subHolds 80 false ((SubKind.new rx .contains (bs "a =? 'foo'")).map SubMatcher.single) [⟨0x61, (bs "foo")⟩, ⟨0x61, (bs "bar")⟩, ⟨0x62, (bs "baz")⟩] true,
    subHolds 80 false ((SubKind.new rx .contains (bs "a =? ['xy', 'ba']")).map SubMatcher.single) [⟨0x61, (bs "foo")⟩, ⟨0x61, (bs "bar")⟩, ⟨0x62, (bs "baz")⟩] true,
    subHolds 80 false ((SubKind.new rx .contains (bs "a =? 'ba'")).map SubMatcher.single) [⟨0x61, (bs "foo")⟩, ⟨0x61, (bs "bar")⟩, ⟨0x62, (bs "baz")⟩] true,
    subHolds 80 false ((SubKind.new rx .contains (bs "a =? ['xy', '']")).map SubMatcher.single) [⟨0x61, (bs "foo")⟩, ⟨0x61, (bs "bar")⟩, ⟨0x62, (bs "baz")⟩] true,
    subHolds 80 false ((SubKind.new rx .contains (bs "a =? ''")).map SubMatcher.single) [⟨0x61, (bs "foo")⟩, ⟨0x61, (bs "bar")⟩, ⟨0x62, (bs "baz")⟩] true,
    subHolds 80 false ((SubKind.new rx .contains (bs "a =? ['xy', 'yz']")).map SubMatcher.single) [⟨0x61, (bs "foo")⟩, ⟨0x61, (bs "bar")⟩, ⟨0x62, (bs "baz")⟩] false,
    subHolds 80 false ((SubKind.new rx .contains (bs "a =? 'xy'")).map SubMatcher.single) [⟨0x61, (bs "foo")⟩, ⟨0x61, (bs "bar")⟩, ⟨0x62, (bs "baz")⟩] false,
    subHolds 80 false ((SubKind.new rx .contains (bs "a =? ['xy', 'OO']")).map SubMatcher.single) [⟨0x61, (bs "foo")⟩, ⟨0x61, (bs "bar")⟩, ⟨0x62, (bs "baz")⟩] false,
    subHolds 80 false ((SubKind.new rx .contains (bs "a =? 'OO'")).map SubMatcher.single) [⟨0x61, (bs "foo")⟩, ⟨0x61, (bs "bar")⟩, ⟨0x62, (bs "baz")⟩] false,
    subHolds 80 true ((SubKind.new rx .contains (bs "a =? ['xy', 'OO']")).map SubMatcher.single) [⟨0x61, (bs "foo")⟩, ⟨0x61, (bs "bar")⟩, ⟨0x62, (bs "baz")⟩] true,
    subHolds 80 true ((SubKind.new rx .contains (bs "a =? 'OO'")).map SubMatcher.single) [⟨0x61, (bs "foo")⟩, ⟨0x61, (bs "bar")⟩, ⟨0x62, (bs "baz")⟩] true,
    subHolds 80 false ((SubKind.new rx .contains (bs "ANY a =? ['xy','ba']")).map SubMatcher.single) [⟨0x61, (bs "bar")⟩, ⟨0x61, (bs "baz")⟩] true,
    subHolds 80 false ((SubKind.new rx .contains (bs "ANY a =? 'ba'")).map SubMatcher.single) [⟨0x61, (bs "bar")⟩, ⟨0x61, (bs "baz")⟩] true,
    subHolds 80 false ((SubKind.new rx .contains (bs "ALL a =? ['xy','ba']")).map SubMatcher.single) [⟨0x61, (bs "bar")⟩, ⟨0x61, (bs "baz")⟩] true,
    subHolds 80 false ((SubKind.new rx .contains (bs "ALL a =? 'ba'")).map SubMatcher.single) [⟨0x61, (bs "bar")⟩, ⟨0x61, (bs "baz")⟩] true,
    subHolds 80 false ((SubKind.new rx .contains (bs "ANY a =? ['xy','bar']")).map SubMatcher.single) [⟨0x61, (bs "bar")⟩, ⟨0x61, (bs "baz")⟩] true,
    subHolds 80 false ((SubKind.new rx .contains (bs "ANY a =? 'bar'")).map SubMatcher.single) [⟨0x61, (bs "bar")⟩, ⟨0x61, (bs "baz")⟩] true,
    subHolds 80 false ((SubKind.new rx .contains (bs "ALL a =? ['xy','bar']")).map SubMatcher.single) [⟨0x61, (bs "bar")⟩, ⟨0x61, (bs "baz")⟩] false,
    subHolds 80 false ((SubKind.new rx .contains (bs "ALL a =? 'bar'")).map SubMatcher.single) [⟨0x61, (bs "bar")⟩, ⟨0x61, (bs "baz")⟩] false].all id = true := by
  decide +kernel

/-- `test_subfield_matcher_group`, src/matcher/subfield/mod.rs -/
example : [
    subHolds 80 false (subNew (bs "(a?)")) [⟨0x61, (bs "foo")⟩, ⟨0x62, (bs "bar")⟩, ⟨0x63, (bs "baz")⟩] true,
    subHolds 80 false (subNew (bs "(a? && b == 'bar')")) [⟨0x61, (bs "foo")⟩, ⟨0x62, (bs "bar")⟩, ⟨0x63, (bs "baz")⟩] true].all id = true := by
  decide +kernel

/-- `test_subfield_matcher_not`, src/matcher/subfield/mod.rs -/
example : [
    subHolds 80 false (subNew (bs "!d?")) [⟨0x61, (bs "foo")⟩, ⟨0x62, (bs "bar")⟩, ⟨0x63, (bs "baz")⟩] true,
    subHolds 80 false (subNew (bs "!a?")) [⟨0x61, (bs "foo")⟩, ⟨0x62, (bs "bar")⟩, ⟨0x63, (bs "baz")⟩] false,
    subHolds 80 false (subNew (bs "!(d? || a?)")) [⟨0x61, (bs "foo")⟩, ⟨0x62, (bs "bar")⟩, ⟨0x63, (bs "baz")⟩] false].all id = true := by
  decide +kernel

/-- `test_subfield_matcher_and`, src/matcher/subfield/mod.rs -/
example : [
    subHolds 80 false (subNew (bs "a? && b?")) [⟨0x61, (bs "foo")⟩, ⟨0x61, (bs "bar")⟩, ⟨0x62, (bs "baz")⟩] true,
    subHolds 80 false (subNew (bs "a? && b? && c?")) [⟨0x61, (bs "foo")⟩, ⟨0x61, (bs "bar")⟩, ⟨0x62, (bs "baz")⟩] false,
    subHolds 80 false (subNew (bs "a? && b? || c?")) [⟨0x61, (bs "foo")⟩, ⟨0x61, (bs "bar")⟩, ⟨0x62, (bs "baz")⟩] true,
    subHolds 80 false (subNew (bs "a? || b? && c?")) [⟨0x61, (bs "foo")⟩, ⟨0x61, (bs "bar")⟩, ⟨0x62, (bs "baz")⟩] true,
    subHolds 80 false (subNew (bs "c? || b? && c?")) [⟨0x61, (bs "foo")⟩, ⟨0x61, (bs "bar")⟩, ⟨0x62, (bs "baz")⟩] false,
    subHolds 80 false (subNew (bs "b? && c? || c?")) [⟨0x61, (bs "foo")⟩, ⟨0x61, (bs "bar")⟩, ⟨0x62, (bs "baz")⟩] false].all id = true := by
  decide +kernel

/-- `test_subfield_matcher_or`, src/matcher/subfield/mod.rs -/
example : [
    subHolds 80 false (subNew (bs "a? || b?")) [⟨0x61, (bs "foo")⟩, ⟨0x61, (bs "bar")⟩, ⟨0x62, (bs "baz")⟩] true,
    subHolds 80 false (subNew (bs "a? || b? || c?")) [⟨0x61, (bs "foo")⟩, ⟨0x61, (bs "bar")⟩, ⟨0x62, (bs "baz")⟩] true,
    subHolds 80 false (subNew (bs "(a? && b?) || c?")) [⟨0x61, (bs "foo")⟩, ⟨0x61, (bs "bar")⟩, ⟨0x62, (bs "baz")⟩] true,
    subHolds 80 false (subNew (bs "a? || (b? && c?)")) [⟨0x61, (bs "foo")⟩, ⟨0x61, (bs "bar")⟩, ⟨0x62, (bs "baz")⟩] true,
    subHolds 80 false (subNew (bs "(a? || b?) && c? || d?")) [⟨0x61, (bs "foo")⟩, ⟨0x61, (bs "bar")⟩, ⟨0x62, (bs "baz")⟩] false,
    subHolds 80 false (subNew (bs "a? && (b? || c?) || d?")) [⟨0x61, (bs "foo")⟩, ⟨0x61, (bs "bar")⟩, ⟨0x62, (bs "baz")⟩] true].all id = true := by
  decide +kernel

/-- `test_subfield_matcher_xor`, src/matcher/subfield/mod.rs -/
example : [
    subHolds 80 false (subNew (bs "a? ^ b?")) [⟨0x61, (bs "foo")⟩, ⟨0x61, (bs "bar")⟩, ⟨0x62, (bs "baz")⟩] false,
    subHolds 80 false (subNew (bs "a? ^ b? ^ c?")) [⟨0x61, (bs "foo")⟩, ⟨0x61, (bs "bar")⟩, ⟨0x62, (bs "baz")⟩] false,
    subHolds 80 false (subNew (bs "a? ^ c?")) [⟨0x61, (bs "foo")⟩, ⟨0x61, (bs "bar")⟩, ⟨0x62, (bs "baz")⟩] true,
    subHolds 80 false (subNew (bs "c? ^ a?")) [⟨0x61, (bs "foo")⟩, ⟨0x61, (bs "bar")⟩, ⟨0x62, (bs "baz")⟩] true,
    subHolds 80 false (subNew (bs "c? ^ d?")) [⟨0x61, (bs "foo")⟩, ⟨0x61, (bs "bar")⟩, ⟨0x62, (bs "baz")⟩] false].all id = true := by
  decide +kernel

/-- `test_subfield_matcher_bitand`, src/matcher/subfield/mod.rs -/
example : [
    same (ap2 (·.bitand ·) (subNew (bs "a?")) (subNew (bs "b?"))) (subNew (bs "a? && b?")),
    same (ap2 (·.bitand ·) (subNew (bs "a? || b?")) (subNew (bs "c?"))) (subNew (bs "(a? || b?) && c?")),
    same (ap2 (·.bitand ·) (subNew (bs "a?")) (subNew (bs "(b? || c?)"))) (subNew (bs "a? && (b? || c?)")),
    same (ap2 (·.bitand ·) (subNew (bs "a? ^ b?")) (subNew (bs "c?"))) (subNew (bs "(a? ^ b?) && c?")),
    same (ap2 (·.bitand ·) (subNew (bs "a?")) (subNew (bs "(b? ^ c?)"))) (subNew (bs "a? && (b? ^ c?)")),
    same (ap2 (·.bitand ·) (subNew (bs "a? && b?")) (subNew (bs "c?"))) (subNew (bs "a? && b? && c?"))].all id = true := by
  decide +kernel

/-- `test_subfield_matcher_bitand_assign`, src/matcher/subfield/mod.rs -/
example : [
    same (ap2 (·.bitandAssign ·) (subNew (bs "a?")) (subNew (bs "b?"))) (subNew (bs "a? && b?")),
    same (ap2 (·.bitandAssign ·) (subNew (bs "a? || b?")) (subNew (bs "c?"))) (subNew (bs "(a? || b?) && c?")),
    same (ap2 (·.bitandAssign ·) (subNew (bs "a?")) (subNew (bs "(b? || c?)"))) (subNew (bs "a? && (b? || c?)")),
    same (ap2 (·.bitandAssign ·) (subNew (bs "a? ^ b?")) (subNew (bs "c?"))) (subNew (bs "(a? ^ b?) && c?")),
    same (ap2 (·.bitandAssign ·) (subNew (bs "a?")) (subNew (bs "(b? ^ c?)"))) (subNew (bs "a? && (b? ^ c?)"))].all id = true := by
  decide +kernel

/-- `test_subfield_matcher_bitxor`, src/matcher/subfield/mod.rs -/
example : [
    same (ap2 (·.bitxor ·) (subNew (bs "a?")) (subNew (bs "b?"))) (subNew (bs "a? ^ b?")),
    same (ap2 (·.bitxor ·) (subNew (bs "a? || b?")) (subNew (bs "c?"))) (subNew (bs "(a? || b?) ^ c?")),
    same (ap2 (·.bitxor ·) (subNew (bs "a?")) (subNew (bs "(b? || c?)"))) (subNew (bs "a? ^ (b? || c?)")),
    same (ap2 (·.bitxor ·) (subNew (bs "a? ^ b?")) (subNew (bs "c?"))) (subNew (bs "a? ^ b? ^ c?"))].all id = true := by
  decide +kernel

/-- `test_subfield_matcher_bitxor_assign`, src/matcher/subfield/mod.rs -/
example : [
    same (ap2 (·.bitxorAssign ·) (subNew (bs "a?")) (subNew (bs "b?"))) (subNew (bs "a? ^ b?")),
    same (ap2 (·.bitxorAssign ·) (subNew (bs "a? || b?")) (subNew (bs "c?"))) (subNew (bs "(a? || b?) ^ c?")),
    same (ap2 (·.bitxorAssign ·) (subNew (bs "a?")) (subNew (bs "(b? || c?)"))) (subNew (bs "a? ^ (b? || c?)")),
    same (ap2 (·.bitxorAssign ·) (subNew (bs "a? ^ b?")) (subNew (bs "c?"))) (subNew (bs "a? ^ b? ^ c?"))].all id = true := by
  decide +kernel

/-- `test_subfield_matcher_bitor`, src/matcher/subfield/mod.rs -/
example : [
    same (ap2 (·.bitor ·) (subNew (bs "a?")) (subNew (bs "b?"))) (subNew (bs "a? || b?")),
    same (ap2 (·.bitor ·) (subNew (bs "a? || b?")) (subNew (bs "c?"))) (subNew (bs "a? || b? || c?"))].all id = true := by
  decide +kernel

/-- `test_subfield_matcher_bitor_assign`, src/matcher/subfield/mod.rs -/
example : [
    same (ap2 (·.bitorAssign ·) (subNew (bs "a?")) (subNew (bs "b?"))) (subNew (bs "a? || b?")),
    same (ap2 (·.bitorAssign ·) (subNew (bs "a? || b?")) (subNew (bs "c?"))) (subNew (bs "a? || b? || c?"))].all id = true := by
  decide +kernel

/-- `test_subfield_matcher_bitnot`, src/matcher/subfield/mod.rs -/
example : [
    same ((subNew (bs "(a?)")).map (·.bitnot)) (subNew (bs "!(a?)")),
    same ((subNew (bs "a?")).map (·.bitnot)) (subNew (bs "!a?")),
    same ((subNew (bs "!a?")).map (·.bitnot)) (subNew (bs "!!a?")),
    same ((subNew (bs "a == 'foo'")).map (·.bitnot)) (subNew (bs "!(a == 'foo')")),
    same ((subNew (bs "a? && b?")).map (·.bitnot)) (subNew (bs "!(a? && b?)")),
    same ((subNew (bs "a? || b?")).map (·.bitnot)) (subNew (bs "!(a? || b?)")),
    same ((subNew (bs "a? ^ b?")).map (·.bitnot)) (subNew (bs "!(a? ^ b?)"))].all id = true := by
  decide +kernel

/-- `test_parse_exists_matcher`, src/matcher/subfield/parser.rs -/
example : [
    parsesTo (pSubExists) (bs "a?") (.exists (bs "a") (bs "a?")),
    parsesTo (pSubExists) (bs "[ab]?") (.exists (bs "ab") (bs "[ab]?")),
    parsesTo (pSubExists) (bs "[abc]?") (.exists (bs "abc") (bs "[abc]?")),
    parsesTo (pSubExists) (bs "[a-c]?") (.exists (bs "abc") (bs "[a-c]?")),
    parsesTo (pSubExists) (bs "[a-cd]?") (.exists (bs "abcd") (bs "[a-cd]?")),
    parsesTo (pSubExists) (bs "[a-cde]?") (.exists (bs "abcde") (bs "[a-cde]?")),
    parsesTo (pSubExists) (bs "[a-cde-f]?") (.exists (bs "abcdef") (bs "[a-cde-f]?")),
    parsesTo (pSubExists) (bs "[a-cde-fx]?") (.exists (bs "abcdefx") (bs "[a-cde-fx]?")),
    parsesTo (pSubExists) (bs "*?") (.exists allCodes (bs "*?")),
    rejects (pSubExists) (bs "=?"),
    rejects (pSubExists) (bs "=?"),
    rejects (pSubExists) (bs "[a-a]?"),
    rejects (pSubExists) (bs "[b-a]?"),
    rejects (pSubExists) (bs "[a-c=]?"),
    rejects (pSubExists) (bs "ALL a?"),
    rejects (pSubExists) (bs "ANY a?")].all id = true := by
  decide +kernel

/-- `test_parse_relation_matcher`, src/matcher/subfield/parser.rs -/
example : [
    parsesTo (pSubRelation) (bs "0 == 'abc'") (.relation .any (bs "0") .eq (bs "abc") (bs "0 == 'abc'")),
    parsesTo (pSubRelation) (bs "ALL 0 != 'abc'") (.relation .all (bs "0") .ne (bs "abc") (bs "ALL 0 != 'abc'")),
    parsesTo (pSubRelation) (bs "ANY [ab] == 'abc'") (.relation .any (bs "ab") .eq (bs "abc") (bs "ANY [ab] == 'abc'")),
    parsesTo (pSubRelation) (bs "a =^ 'abc'") (.relation .any (bs "a") .startsWith (bs "abc") (bs "a =^ 'abc'")),
    parsesTo (pSubRelation) (bs "a !^ 'abc'") (.relation .any (bs "a") .startsNotWith (bs "abc") (bs "a !^ 'abc'")),
    parsesTo (pSubRelation) (bs "a =$ 'abc'") (.relation .any (bs "a") .endsWith (bs "abc") (bs "a =$ 'abc'")),
    parsesTo (pSubRelation) (bs "a !$ 'abc'") (.relation .any (bs "a") .endsNotWith (bs "abc") (bs "a !$ 'abc'")),
    parsesTo (pSubRelation) (bs "a =* 'abc'") (.relation .any (bs "a") .similar (bs "abc") (bs "a =* 'abc'"))].all id = true := by
  decide +kernel

/-- `test_parse_contains_matcher`, src/matcher/subfield/parser.rs -/
example : [
    parsesTo (pSubContains) (bs "a =? ['foo']") (.contains .any (bs "a") [(bs "foo")] (bs "a =? ['foo']")),
    parsesTo (pSubContains) (bs "a =? 'foo'") (.contains .any (bs "a") [(bs "foo")] (bs "a =? 'foo'")),
    parsesTo (pSubContains) (bs "ANY a =? ['foo']") (.contains .any (bs "a") [(bs "foo")] (bs "ANY a =? ['foo']")),
    parsesTo (pSubContains) (bs "ANY a =? 'foo'") (.contains .any (bs "a") [(bs "foo")] (bs "ANY a =? 'foo'")),
    parsesTo (pSubContains) (bs "ALL a =? ['foo']") (.contains .all (bs "a") [(bs "foo")] (bs "ALL a =? ['foo']")),
    parsesTo (pSubContains) (bs "ALL a =? 'foo'") (.contains .all (bs "a") [(bs "foo")] (bs "ALL a =? 'foo'")),
    parsesTo (pSubContains) (bs "[a-c] =? ['foo']") (.contains .any (bs "abc") [(bs "foo")] (bs "[a-c] =? ['foo']")),
    parsesTo (pSubContains) (bs "[a-c] =? 'foo'") (.contains .any (bs "abc") [(bs "foo")] (bs "[a-c] =? 'foo'")),
    parsesTo (pSubContains) (bs "ANY [ab] =? ['foo']") (.contains .any (bs "ab") [(bs "foo")] (bs "ANY [ab] =? ['foo']")),
    parsesTo (pSubContains) (bs "ANY [ab] =? 'foo'") (.contains .any (bs "ab") [(bs "foo")] (bs "ANY [ab] =? 'foo'")),
    parsesTo (pSubContains) (bs "ALL [a-d] =? 'foo'") (.contains .all (bs "abcd") [(bs "foo")] (bs "ALL [a-d] =? 'foo'")),
    parsesTo (pSubContains) (bs "ALL [a-d] =? ['foo']") (.contains .all (bs "abcd") [(bs "foo")] (bs "ALL [a-d] =? ['foo']")),
    parsesTo (pSubContains) (bs "ALL [a-d] =? ['foo',]") (.contains .all (bs "abcd") [(bs "foo")] (bs "ALL [a-d] =? ['foo',]")),
    parsesTo (pSubContains) (bs "a =? ['foo','bar']") (.contains .any (bs "a") [(bs "foo"), (bs "bar")] (bs "a =? ['foo','bar']")),
    parsesTo (pSubContains) (bs "a =? ['foo','bar',]") (.contains .any (bs "a") [(bs "foo"), (bs "bar")] (bs "a =? ['foo','bar',]"))].all id = true := by
  decide +kernel

/-- `test_parse_regex_matcher`, src/matcher/subfield/parser.rs -/
example : [
    parsesTo (pSubRegex rx) (bs "ALL [ab] =~ \"foo\"") (.regex .all (bs "ab") (bs "foo") false (bs "ALL [ab] =~ \"foo\"")),
    parsesTo (pSubRegex rx) (bs "[ab] =~ 'foo'") (.regex .any (bs "ab") (bs "foo") false (bs "[ab] =~ 'foo'")),
    parsesTo (pSubRegex rx) (bs "ANY 0 =~ '^Tp'") (.regex .any (bs "0") (bs "^Tp") false (bs "ANY 0 =~ '^Tp'")),
    parsesTo (pSubRegex rx) (bs "ALL 0 =~ '^Tp'") (.regex .all (bs "0") (bs "^Tp") false (bs "ALL 0 =~ '^Tp'")),
    parsesTo (pSubRegex rx) (bs "0 =~ '^Tp'") (.regex .any (bs "0") (bs "^Tp") false (bs "0 =~ '^Tp'")),
    parsesTo (pSubRegex rx) (bs "0 !~ '^Tp'") (.regex .any (bs "0") (bs "^Tp") true (bs "0 !~ '^Tp'")),
    rejects (pSubRegex rx) (bs "0 =~ '[[ab]'"),
    rejects (pSubRegex rx) (bs "0 !~ '[[ab]'")].all id = true := by
  decide +kernel

/-- `test_parse_regex_set_matcher`, src/matcher/subfield/parser.rs -/
example : [
    parsesTo (pSubRegexSet rx) (bs "ALL [ab] =~ [\"^foo\", \"bar$\"]") (.regexSet .all (bs "ab") [(bs "^foo"), (bs "bar$")] false (bs "ALL [ab] =~ [\"^foo\", \"bar$\"]")),
    parsesTo (pSubRegexSet rx) (bs "ALL [ab] =~ [\"^foo\", \"bar$\", ]") (.regexSet .all (bs "ab") [(bs "^foo"), (bs "bar$")] false (bs "ALL [ab] =~ [\"^foo\", \"bar$\", ]")),
    parsesTo (pSubRegexSet rx) (bs "[ab] =~ ['foo', 'bar']") (.regexSet .any (bs "ab") [(bs "foo"), (bs "bar")] false (bs "[ab] =~ ['foo', 'bar']")),
    parsesTo (pSubRegexSet rx) (bs "[ab] =~ ['foo', 'bar',]") (.regexSet .any (bs "ab") [(bs "foo"), (bs "bar")] false (bs "[ab] =~ ['foo', 'bar',]")),
    parsesTo (pSubRegexSet rx) (bs "ANY 0 =~ ['^Tp', '^Ts']") (.regexSet .any (bs "0") [(bs "^Tp"), (bs "^Ts")] false (bs "ANY 0 =~ ['^Tp', '^Ts']")),
    parsesTo (pSubRegexSet rx) (bs "ALL 0 =~ ['^Tp', '^Ts']") (.regexSet .all (bs "0") [(bs "^Tp"), (bs "^Ts")] false (bs "ALL 0 =~ ['^Tp', '^Ts']")),
    parsesTo (pSubRegexSet rx) (bs "0 =~ ['^Tp', '^Ts']") (.regexSet .any (bs "0") [(bs "^Tp"), (bs "^Ts")] false (bs "0 =~ ['^Tp', '^Ts']")),
    parsesTo (pSubRegexSet rx) (bs "0 !~ ['^Tp', '^Ts']") (.regexSet .any (bs "0") [(bs "^Tp"), (bs "^Ts")] true (bs "0 !~ ['^Tp', '^Ts']")),
    rejects (pSubRegex rx) (bs "0 =~ ['[[ab]', 'Ts1']"),
    rejects (pSubRegex rx) (bs "0 !~ ['Tp3', '[[ab]']")].all id = true := by
  decide +kernel

/-- `test_parse_in_matcher`, src/matcher/subfield/parser.rs -/
example : [
    parsesTo (pSubIn) (bs "0 in ['Tp1']") (.isIn .any (bs "0") [(bs "Tp1")] false (bs "0 in ['Tp1']")),
    parsesTo (pSubIn) (bs "0 in ['Tp1',]") (.isIn .any (bs "0") [(bs "Tp1")] false (bs "0 in ['Tp1',]")),
    parsesTo (pSubIn) (bs "0 in ['Tp1', 'Tpz']") (.isIn .any (bs "0") [(bs "Tp1"), (bs "Tpz")] false (bs "0 in ['Tp1', 'Tpz']")),
    parsesTo (pSubIn) (bs "0 in ['Tp1', 'Tpz',]") (.isIn .any (bs "0") [(bs "Tp1"), (bs "Tpz")] false (bs "0 in ['Tp1', 'Tpz',]")),
    parsesTo (pSubIn) (bs "a not in 'adimnt'") (.isIn .any (bs "a") [(bs "a"), (bs "d"), (bs "i"), (bs "m"), (bs "n"), (bs "t")] true (bs "a not in 'adimnt'")),
    parsesTo (pSubIn) (bs "ANY [ab] in ['Tp1', 'Tpz']") (.isIn .any (bs "ab") [(bs "Tp1"), (bs "Tpz")] false (bs "ANY [ab] in ['Tp1', 'Tpz']")),
    parsesTo (pSubIn) (bs "ANY [ab] in ['Tp1', 'Tpz', ]") (.isIn .any (bs "ab") [(bs "Tp1"), (bs "Tpz")] false (bs "ANY [ab] in ['Tp1', 'Tpz', ]")),
    parsesTo (pSubIn) (bs "ALL 0 in ['Tp1', 'Tpz']") (.isIn .all (bs "0") [(bs "Tp1"), (bs "Tpz")] false (bs "ALL 0 in ['Tp1', 'Tpz']")),
    parsesTo (pSubIn) (bs "0 not in ['Tp1', 'Tpz']") (.isIn .any (bs "0") [(bs "Tp1"), (bs "Tpz")] true (bs "0 not in ['Tp1', 'Tpz']")),
    parsesTo (pSubIn) (bs "0 not in ['Tp1', 'Tpz',]") (.isIn .any (bs "0") [(bs "Tp1"), (bs "Tpz")] true (bs "0 not in ['Tp1', 'Tpz',]")),
    rejects (pSubIn) (bs "a in []"),
    rejects (pSubIn) (bs "a in [,]"),
    rejects (pSubIn) (bs "a in ''")].all id = true := by
  decide +kernel

/-- `test_parse_cardinality_matcher`, src/matcher/subfield/parser.rs -/
example : [
    parsesTo (pSubCard) (bs "#a == 1") (.card (bs "a") .eq 1 (bs "#a == 1")),
    parsesTo (pSubCard) (bs "#a != 2") (.card (bs "a") .ne 2 (bs "#a != 2")),
    parsesTo (pSubCard) (bs "#a >= 3") (.card (bs "a") .ge 3 (bs "#a >= 3")),
    parsesTo (pSubCard) (bs "#a > 4") (.card (bs "a") .gt 4 (bs "#a > 4")),
    parsesTo (pSubCard) (bs "#a <= 5") (.card (bs "a") .le 5 (bs "#a <= 5")),
    parsesTo (pSubCard) (bs "#a < 6") (.card (bs "a") .lt 6 (bs "#a < 6")),
    parsesTo (pSubCard) (bs "#[ab] == 1") (.card (bs "ab") .eq 1 (bs "#[ab] == 1")),
    parsesTo (pSubCard) (bs "#[a-cx] == 1") (.card (bs "abcx") .eq 1 (bs "#[a-cx] == 1")),
    rejects (pSubCard) (bs "#a > -1"),
    rejects (pSubCard) (bs "#a > '2'"),
    rejects (pSubCard) (bs "#a =^ 5"),
    rejects (pSubCard) (bs "#a !^ 5"),
    rejects (pSubCard) (bs "#a =$ 5"),
    rejects (pSubCard) (bs "#a !$ 5"),
    rejects (pSubCard) (bs "#a =* 5"),
    rejects (pSubCard) (bs "#a =? 5")].all id = true := by
  decide +kernel

/-- `test_parse_singleton_matcher`, src/matcher/subfield/parser.rs -/
example : [
    parsesAs (pSubSingle rx) (bs "ALL a == 'foo'") (fun | .relation .all _ _ _ _ => true | _ => false) SubSingle.display,
    parsesAs (pSubSingle rx) (bs "a?") (fun | .exists _ _ => true | _ => false) SubSingle.display,
    parsesAs (pSubSingle rx) (bs "a not in ['Tp1', 'Tsz']") (fun | .isIn _ _ _ true _ => true | _ => false) SubSingle.display,
    parsesAs (pSubSingle rx) (bs "#a > 3") (fun | .card _ _ 3 _ => true | _ => false) SubSingle.display,
    parsesAs (pSubSingle rx) (bs "a !~ '^Tp'") (fun | .regex _ _ _ true _ => true | _ => false) SubSingle.display,
    parsesAs (pSubSingle rx) (bs "a =~ ['^Tp', '^Ts']") (fun | .regexSet _ _ _ false _ => true | _ => false) SubSingle.display].all id = true := by
  decide +kernel

/-- `test_parse_subfield_singleton_matcher`, src/matcher/subfield/parser.rs -/
example : [
    tparsesAs (fun _ => pSubSingleM rx) (bs "a == 'foo'") (fun | .single (.relation ..) => true | _ => false) SubMatcher.display,
    tparsesAs (fun _ => pSubSingleM rx) (bs "a != 'foo'") (fun | .single (.relation ..) => true | _ => false) SubMatcher.display,
    tparsesAs (fun _ => pSubSingleM rx) (bs "a =^ 'foo'") (fun | .single (.relation ..) => true | _ => false) SubMatcher.display,
    tparsesAs (fun _ => pSubSingleM rx) (bs "a !^ 'foo'") (fun | .single (.relation ..) => true | _ => false) SubMatcher.display,
    tparsesAs (fun _ => pSubSingleM rx) (bs "a =$ 'foo'") (fun | .single (.relation ..) => true | _ => false) SubMatcher.display,
    tparsesAs (fun _ => pSubSingleM rx) (bs "a !$ 'foo'") (fun | .single (.relation ..) => true | _ => false) SubMatcher.display,
    tparsesAs (fun _ => pSubSingleM rx) (bs "a =* 'foo'") (fun | .single (.relation ..) => true | _ => false) SubMatcher.display,
    tparsesAs (fun _ => pSubSingleM rx) (bs "a =? ['foo', 'bar']") (fun | .single (.contains ..) => true | _ => false) SubMatcher.display,
    tparsesAs (fun _ => pSubSingleM rx) (bs "a =? 'foo'") (fun | .single (.contains ..) => true | _ => false) SubMatcher.display,
    tparsesAs (fun _ => pSubSingleM rx) (bs "#a == 1") (fun | .single (.card ..) => true | _ => false) SubMatcher.display,
    tparsesAs (fun _ => pSubSingleM rx) (bs "#a != 1") (fun | .single (.card ..) => true | _ => false) SubMatcher.display,
    tparsesAs (fun _ => pSubSingleM rx) (bs "#a >= 1") (fun | .single (.card ..) => true | _ => false) SubMatcher.display,
    tparsesAs (fun _ => pSubSingleM rx) (bs "#a > 1") (fun | .single (.card ..) => true | _ => false) SubMatcher.display,
    tparsesAs (fun _ => pSubSingleM rx) (bs "#a <= 1") (fun | .single (.card ..) => true | _ => false) SubMatcher.display,
    tparsesAs (fun _ => pSubSingleM rx) (bs "#a < 1") (fun | .single (.card ..) => true | _ => false) SubMatcher.display,
    tparsesAs (fun _ => pSubSingleM rx) (bs "a in ['foo', 'bar']") (fun | .single (.isIn ..) => true | _ => false) SubMatcher.display,
    tparsesAs (fun _ => pSubSingleM rx) (bs "a not in ['foo', 'bar']") (fun | .single (.isIn ..) => true | _ => false) SubMatcher.display,
    tparsesAs (fun _ => pSubSingleM rx) (bs "a =~ ['^Tp1', '^Ts']") (fun | .single (.regexSet ..) => true | _ => false) SubMatcher.display,
    tparsesAs (fun _ => pSubSingleM rx) (bs "a !~ ['^Tp1', '^Ts']") (fun | .single (.regexSet ..) => true | _ => false) SubMatcher.display,
    tparsesAs (fun _ => pSubSingleM rx) (bs "a =~ '^Tp1'") (fun | .single (.regex ..) => true | _ => false) SubMatcher.display,
    tparsesAs (fun _ => pSubSingleM rx) (bs "a !~ '^Tp1'") (fun | .single (.regex ..) => true | _ => false) SubMatcher.display,
    tparsesAs (fun _ => pSubSingleM rx) (bs "a?") (fun | .single (.exists ..) => true | _ => false) SubMatcher.display].all id = true := by
  decide +kernel

/-- `test_parse_subfield_not_matcher`, src/matcher/subfield/parser.rs -/
example : [
    tparsesAs (pSubNot rx) (bs "!(a? && b == 'foo')") (fun | .not _ => true | _ => false) SubMatcher.display,
    tparsesAs (pSubNot rx) (bs "!!a?") (fun | .not _ => true | _ => false) SubMatcher.display,
    tparsesAs (pSubNot rx) (bs "!a?") (fun | .not _ => true | _ => false) SubMatcher.display,
    trejects (pSubNot rx) (bs "!a == 'foo'")].all id = true := by
  decide +kernel

/-- `test_parse_subfield_group_matcher`, src/matcher/subfield/parser.rs -/
example : [
    tparsesAs (pSubGroup rx) (bs "(a? && b?)") (fun | .group _ => true | _ => false) SubMatcher.display,
    tparsesAs (pSubGroup rx) (bs "(a == 'foo')") (fun | .group _ => true | _ => false) SubMatcher.display,
    tparsesAs (pSubGroup rx) (bs "(!(a == 'foo'))") (fun | .group _ => true | _ => false) SubMatcher.display,
    tparsesAs (pSubGroup rx) (bs "((a == 'foo'))") (fun | .group _ => true | _ => false) SubMatcher.display].all id = true := by
  decide +kernel

/-- `test_parse_subfield_and_matcher`, src/matcher/subfield/parser.rs -/
example : [
    tparsesAs (subAnd) (bs "a? && b?") (fun | .comp _ .and _ => true | _ => false) SubMatcher.display,
    tparsesAs (subAnd) (bs "a? && b? && c?") (fun | .comp _ .and _ => true | _ => false) SubMatcher.display,
    tparsesAs (subAnd) (bs "a? && b? && c? && d?") (fun | .comp _ .and _ => true | _ => false) SubMatcher.display,
    tparsesAs (subAnd) (bs "a? && (b?)") (fun | .comp _ .and _ => true | _ => false) SubMatcher.display,
    tparsesAs (subAnd) (bs "a? && (b? && c?)") (fun | .comp _ .and _ => true | _ => false) SubMatcher.display,
    tparsesAs (subAnd) (bs "(a? && b?) && c?") (fun | .comp _ .and _ => true | _ => false) SubMatcher.display,
    tparsesAs (subAnd) (bs "a? && (b? && (c? && d?))") (fun | .comp _ .and _ => true | _ => false) SubMatcher.display,
    tparsesAs (subAnd) (bs "a? && !b?") (fun | .comp _ .and _ => true | _ => false) SubMatcher.display,
    tparsesAs (subAnd) (bs "a? && !(b? && c?)") (fun | .comp _ .and _ => true | _ => false) SubMatcher.display,
    tparsesAs (subAnd) (bs "!(a? && !(b? && c?)) && d?") (fun | .comp _ .and _ => true | _ => false) SubMatcher.display,
    trejects (subAnd) (bs "a? && b? || c?"),
    trejects (subAnd) (bs "a? && b? ^ c?")].all id = true := by
  decide +kernel

/-- `test_parse_subfield_xor_matcher`, src/matcher/subfield/parser.rs -/
example : [
    tparsesAs (subXor) (bs "a? ^ b?") (fun | .comp _ .xor _ => true | _ => false) SubMatcher.display,
    tparsesAs (subXor) (bs "a? ^ b? ^ c?") (fun | .comp _ .xor _ => true | _ => false) SubMatcher.display,
    tparsesAs (subXor) (bs "a? ^ b? ^ c? ^ d?") (fun | .comp _ .xor _ => true | _ => false) SubMatcher.display,
    tparsesAs (subXor) (bs "!a? ^ b? ^ c? ^ d?") (fun | .comp _ .xor _ => true | _ => false) SubMatcher.display,
    tparsesAs (subXor) (bs "!a? ^ !b? ^ c? ^ d?") (fun | .comp _ .xor _ => true | _ => false) SubMatcher.display,
    tparsesAs (subXor) (bs "!a? ^ !b? ^ !c? ^ d?") (fun | .comp _ .xor _ => true | _ => false) SubMatcher.display,
    tparsesAs (subXor) (bs "!a? ^ !b? ^ !c? ^ !d?") (fun | .comp _ .xor _ => true | _ => false) SubMatcher.display,
    tparsesAs (subXor) (bs "a? ^ b? && c? && d?") (fun | .comp _ .xor _ => true | _ => false) SubMatcher.display,
    tparsesAs (subXor) (bs "a? && b? ^ c? && d?") (fun | .comp _ .xor _ => true | _ => false) SubMatcher.display,
    tparsesAs (subXor) (bs "a? && b? && c? ^ d?") (fun | .comp _ .xor _ => true | _ => false) SubMatcher.display,
    tparsesAs (subXor) (bs "a? ^ (b? ^ c?) ^ d?") (fun | .comp _ .xor _ => true | _ => false) SubMatcher.display,
    tparsesAs (subXor) (bs "a? ^ ((b? ^ c?) ^ d?)") (fun | .comp _ .xor _ => true | _ => false) SubMatcher.display,
    trejects (subXor) (bs "a? ^ b? || c?")].all id = true := by
  decide +kernel

/-- `test_parse_subfield_or_matcher`, src/matcher/subfield/parser.rs -/
example : [
    tparsesAs (subOr) (bs "a? || b?") (fun | .comp _ .or _ => true | _ => false) SubMatcher.display,
    tparsesAs (subOr) (bs "a? || b? || c?") (fun | .comp _ .or _ => true | _ => false) SubMatcher.display,
    tparsesAs (subOr) (bs "a? || b? || c? || d?") (fun | .comp _ .or _ => true | _ => false) SubMatcher.display,
    tparsesAs (subOr) (bs "a? || !b?") (fun | .comp _ .or _ => true | _ => false) SubMatcher.display,
    tparsesAs (subOr) (bs "a? || !(b? || c?)") (fun | .comp _ .or _ => true | _ => false) SubMatcher.display,
    tparsesAs (subOr) (bs "!a? || !(b? || c?)") (fun | .comp _ .or _ => true | _ => false) SubMatcher.display,
    tparsesAs (subOr) (bs "a? || b? && c?") (fun | .comp _ .or _ => true | _ => false) SubMatcher.display,
    tparsesAs (subOr) (bs "a? && b? || c? && d?") (fun | .comp _ .or _ => true | _ => false) SubMatcher.display,
    tparsesAs (subOr) (bs "a? || b? ^ c?") (fun | .comp _ .or _ => true | _ => false) SubMatcher.display,
    tparsesAs (subOr) (bs "a? ^ b? || c? ^ d?") (fun | .comp _ .or _ => true | _ => false) SubMatcher.display,
    tparsesAs (subOr) (bs "a? || (b? && c?)") (fun | .comp _ .or _ => true | _ => false) SubMatcher.display,
    tparsesAs (subOr) (bs "(a? && b?) || (c? ^ d?)") (fun | .comp _ .or _ => true | _ => false) SubMatcher.display].all id = true := by
  decide +kernel

/-- `test_parse_subfield_matcher`, src/matcher/subfield/parser.rs -/
example : [
    tparsesAs (fun _ => pSubMatcher rx) (bs "(a? && b?) || (c == 'foo' ^ d == 'bar')") (fun _ => true) SubMatcher.display,
    tparsesAs (fun _ => pSubMatcher rx) (bs "0 in [\"Olfo\",\"Oaf\",\"Oa\"]") (fun _ => true) SubMatcher.display,
    tparsesAs (fun _ => pSubMatcher rx) (bs "0 =^ \"A\" || 0 =^ \"O\"") (fun _ => true) SubMatcher.display,
    tparsesAs (fun _ => pSubMatcher rx) (bs "c == '01' && d == 'MVB'") (fun _ => true) SubMatcher.display,
    tparsesAs (fun _ => pSubMatcher rx) (bs "p =~ '^\\\\[publtype\\\\]([bB]ookPart|[cC]onferencePaper)$'") (fun _ => true) SubMatcher.display,
    tparsesAs (fun _ => pSubMatcher rx) (bs "a =~ '(?i)(Zeitschrift|Journal)' && a !~ '(?i)(Abdr|Sonderdr|Diss(\\\\.|ertation)|Teile)'") (fun _ => true) SubMatcher.display].all id = true := by
  decide +kernel

end Pica.Conformance
