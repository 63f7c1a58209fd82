import Verif.Conformance.Base

/-! The unit tests of the repository for field and record matchers, evaluated on the model. -/

namespace Pica.Conformance
open Pica Parser

/-- `test_field_matcher_serde`, src/matcher/field/mod.rs -/
example : [
    shown (fieldNew (bs "012A.a? && (012A.b? || 012A.c?)")) (bs "012A.a? && (012A.b? || 012A.c?)"),
    same (fieldNew (bs "012A.a? && (012A.b? || 012A.c?)")) (fieldNew (bs "012A.a? && (012A.b? || 012A.c?)")),
    shown (fieldNew (bs "012A.a? && !(012A.b? || 012A.c?) ")) (bs "012A.a? && !(012A.b? || 012A.c?)"),
    same (fieldNew (bs "012A.a? && !(012A.b? || 012A.c?)")) (fieldNew (bs "012A.a? && !(012A.b? || 012A.c?) "))].all id = true := by
  decide +kernel

/-- `test_exists_matcher`, src/matcher/field/mod.rs -/
example : [
    fieldHolds 80 false ((FieldKind.new rx Levels.zero .exists (bs "012A?")).1) [⟨(bs "012A"), none, [⟨0x61, (bs "abc")⟩]⟩] true,
    fieldHolds 80 false ((FieldKind.new rx Levels.zero .exists (bs "013A?")).1) [⟨(bs "012A"), none, [⟨0x61, (bs "abc")⟩]⟩] false].all id = true := by
  decide +kernel

/-- `test_singleton_matcher`, src/matcher/field/mod.rs -/
example : [
    fieldHolds 80 false ((FieldSingle.new rx Levels.zero (bs "012A.a == 'def'")).1.map FieldMatcher.single) [⟨(bs "012A"), none, [⟨0x61, (bs "abc")⟩, ⟨0x61, (bs "def")⟩, ⟨0x62, (bs "hij")⟩]⟩] true,
    fieldHolds 80 false ((FieldSingle.new rx Levels.zero (bs "012A.a == 'hij'")).1.map FieldMatcher.single) [⟨(bs "012A"), none, [⟨0x61, (bs "abc")⟩, ⟨0x61, (bs "def")⟩, ⟨0x62, (bs "hij")⟩]⟩] false,
    fieldHolds 80 false ((FieldSingle.new rx Levels.zero (bs "012A{ b? && a == 'def' }")).1.map FieldMatcher.single) [⟨(bs "012A"), none, [⟨0x61, (bs "abc")⟩, ⟨0x61, (bs "def")⟩, ⟨0x62, (bs "hij")⟩]⟩] true,
    fieldHolds 80 false ((FieldSingle.new rx Levels.zero (bs "012A/03.a == 'abc'")).1.map FieldMatcher.single) [⟨(bs "012A"), (some (bs "03")), [⟨0x61, (bs "abc")⟩]⟩] true,
    fieldHolds 80 false ((FieldSingle.new rx Levels.zero (bs "012A/*.a == 'abc'")).1.map FieldMatcher.single) [⟨(bs "012A"), (some (bs "03")), [⟨0x61, (bs "abc")⟩]⟩] true,
    fieldHolds 80 false ((FieldSingle.new rx Levels.zero (bs "012A/02-04.a == 'abc'")).1.map FieldMatcher.single) [⟨(bs "012A"), (some (bs "03")), [⟨0x61, (bs "abc")⟩]⟩] true].all id = true := by
  decide +kernel

/-- `test_cardinality_matcher`, src/matcher/field/mod.rs -/
example : [
    fieldHolds 80 false ((FieldKind.new rx Levels.zero .card (bs "#013A == 0")).1) [⟨(bs "012A"), none, [⟨0x61, (bs "abc")⟩, ⟨0x61, (bs "def")⟩, ⟨0x62, (bs "hij")⟩]⟩] true,
    fieldHolds 80 false ((FieldKind.new rx Levels.zero .card (bs "#012A == 1")).1) [⟨(bs "012A"), none, [⟨0x61, (bs "abc")⟩, ⟨0x61, (bs "def")⟩, ⟨0x62, (bs "hij")⟩]⟩] true,
    fieldHolds 80 false ((FieldKind.new rx Levels.zero .card (bs "#012A != 2")).1) [⟨(bs "012A"), none, [⟨0x61, (bs "abc")⟩, ⟨0x61, (bs "def")⟩, ⟨0x62, (bs "hij")⟩]⟩] true,
    fieldHolds 80 false ((FieldKind.new rx Levels.zero .card (bs "#012A >= 1")).1) [⟨(bs "012A"), none, [⟨0x61, (bs "abc")⟩, ⟨0x61, (bs "def")⟩, ⟨0x62, (bs "hij")⟩]⟩] true,
    fieldHolds 80 false ((FieldKind.new rx Levels.zero .card (bs "#012A > 0")).1) [⟨(bs "012A"), none, [⟨0x61, (bs "abc")⟩, ⟨0x61, (bs "def")⟩, ⟨0x62, (bs "hij")⟩]⟩] true,
    fieldHolds 80 false ((FieldKind.new rx Levels.zero .card (bs "#012A <= 100")).1) [⟨(bs "012A"), none, [⟨0x61, (bs "abc")⟩, ⟨0x61, (bs "def")⟩, ⟨0x62, (bs "hij")⟩]⟩] true,
    fieldHolds 80 false ((FieldKind.new rx Levels.zero .card (bs "#012A < 100")).1) [⟨(bs "012A"), none, [⟨0x61, (bs "abc")⟩, ⟨0x61, (bs "def")⟩, ⟨0x62, (bs "hij")⟩]⟩] true,
    fieldHolds 80 false ((FieldKind.new rx Levels.zero .card (bs "#012A{ c? } == 0")).1) [⟨(bs "012A"), none, [⟨0x61, (bs "abc")⟩, ⟨0x61, (bs "def")⟩, ⟨0x62, (bs "hij")⟩]⟩] true,
    fieldHolds 80 false ((FieldKind.new rx Levels.zero .card (bs "#012A{ b? } == 1")).1) [⟨(bs "012A"), none, [⟨0x61, (bs "abc")⟩, ⟨0x61, (bs "def")⟩, ⟨0x62, (bs "hij")⟩]⟩] true,
    fieldHolds 80 false ((FieldKind.new rx Levels.zero .card (bs "#012A{ b? } != 2")).1) [⟨(bs "012A"), none, [⟨0x61, (bs "abc")⟩, ⟨0x61, (bs "def")⟩, ⟨0x62, (bs "hij")⟩]⟩] true,
    fieldHolds 80 false ((FieldKind.new rx Levels.zero .card (bs "#012A{ b? } >= 1")).1) [⟨(bs "012A"), none, [⟨0x61, (bs "abc")⟩, ⟨0x61, (bs "def")⟩, ⟨0x62, (bs "hij")⟩]⟩] true,
    fieldHolds 80 false ((FieldKind.new rx Levels.zero .card (bs "#012A{ b? } > 0")).1) [⟨(bs "012A"), none, [⟨0x61, (bs "abc")⟩, ⟨0x61, (bs "def")⟩, ⟨0x62, (bs "hij")⟩]⟩] true,
    fieldHolds 80 false ((FieldKind.new rx Levels.zero .card (bs "#012A{ b? } <= 1")).1) [⟨(bs "012A"), none, [⟨0x61, (bs "abc")⟩, ⟨0x61, (bs "def")⟩, ⟨0x62, (bs "hij")⟩]⟩] true,
    fieldHolds 80 false ((FieldKind.new rx Levels.zero .card (bs "#012A{ b? } < 100")).1) [⟨(bs "012A"), none, [⟨0x61, (bs "abc")⟩, ⟨0x61, (bs "def")⟩, ⟨0x62, (bs "hij")⟩]⟩] true].all id = true := by
  decide +kernel

/-- `test_field_matcher_singleton`, src/matcher/field/mod.rs -/
example : [
    fieldHolds 80 false (fieldNew (bs "012A.a == 'A'")) [⟨(bs "012A"), none, [⟨0x61, (bs "A")⟩, ⟨0x62, (bs "B")⟩]⟩] true,
    fieldHolds 80 false (fieldNew (bs "012A.[a-d] == 'B'")) [⟨(bs "012A"), none, [⟨0x61, (bs "A")⟩, ⟨0x62, (bs "B")⟩]⟩] true,
    fieldHolds 80 false (fieldNew (bs "012A.[df] == 'D'")) [⟨(bs "012A"), none, [⟨0x61, (bs "A")⟩, ⟨0x62, (bs "B")⟩]⟩, ⟨(bs "012A"), none, [⟨0x63, (bs "C")⟩, ⟨0x64, (bs "D")⟩]⟩] true,
    fieldHolds 80 false (fieldNew (bs "ALL 012A.[a-d] in ['B', 'D']")) [⟨(bs "012A"), none, [⟨0x61, (bs "A")⟩, ⟨0x62, (bs "B")⟩]⟩, ⟨(bs "012A"), none, [⟨0x63, (bs "C")⟩, ⟨0x64, (bs "D")⟩]⟩] true].all id = true := by
  decide +kernel

/-- `test_field_matcher_cardinality`, src/matcher/field/mod.rs -/
example : [
    fieldHolds 80 false (fieldNew (bs "#012A{a == 'A'} == 1")) [⟨(bs "012A"), none, [⟨0x61, (bs "A")⟩, ⟨0x62, (bs "B")⟩]⟩] true,
    fieldHolds 80 false (fieldNew (bs "#012A{ [a-d] == 'B'} >= 1")) [⟨(bs "012A"), none, [⟨0x61, (bs "A")⟩, ⟨0x62, (bs "B")⟩]⟩] true,
    fieldHolds 80 false (fieldNew (bs "#012A{ [df] == 'D' } == 1")) [⟨(bs "012A"), none, [⟨0x61, (bs "A")⟩, ⟨0x62, (bs "B")⟩]⟩, ⟨(bs "012A"), none, [⟨0x63, (bs "C")⟩, ⟨0x64, (bs "D")⟩]⟩] true,
    fieldHolds 80 false (fieldNew (bs "#012A{ [a-d] in ['B', 'D']} <= 2")) [⟨(bs "012A"), none, [⟨0x61, (bs "A")⟩, ⟨0x62, (bs "B")⟩]⟩, ⟨(bs "012A"), none, [⟨0x63, (bs "C")⟩, ⟨0x64, (bs "D")⟩]⟩] true].all id = true := by
  decide +kernel

/-- `test_field_matcher_group`, src/matcher/field/mod.rs -/
example : [
    fieldHolds 80 false (fieldNew (bs "(012A.a?)")) [⟨(bs "012A"), none, [⟨0x61, (bs "A")⟩, ⟨0x62, (bs "B")⟩]⟩] true,
    fieldHolds 80 false (fieldNew (bs "((012A.b?))")) [⟨(bs "012A"), none, [⟨0x61, (bs "A")⟩, ⟨0x62, (bs "B")⟩]⟩] true].all id = true := by
  decide +kernel

/-- `test_field_matcher_not`, src/matcher/field/mod.rs -/
example : [
    fieldHolds 80 false (fieldNew (bs "!(012A.c?)")) [⟨(bs "012A"), none, [⟨0x61, (bs "A")⟩, ⟨0x62, (bs "B")⟩]⟩] true,
    fieldHolds 80 false (fieldNew (bs "!012A{ a? && c? }")) [⟨(bs "012A"), none, [⟨0x61, (bs "A")⟩, ⟨0x62, (bs "B")⟩]⟩] true,
    fieldHolds 80 false (fieldNew (bs "!012A.c?")) [⟨(bs "012A"), none, [⟨0x61, (bs "A")⟩, ⟨0x62, (bs "B")⟩]⟩] true,
    fieldHolds 80 false (fieldNew (bs "!!012A.a?")) [⟨(bs "012A"), none, [⟨0x61, (bs "A")⟩, ⟨0x62, (bs "B")⟩]⟩] true].all id = true := by
  decide +kernel

/-- `test_field_matcher_and`, src/matcher/field/mod.rs -/
example : [
    fieldHolds 80 false (fieldNew (bs "012A.a? && 013A.c?")) [⟨(bs "012A"), none, [⟨0x61, (bs "A")⟩, ⟨0x62, (bs "B")⟩]⟩, ⟨(bs "013A"), none, [⟨0x63, (bs "C")⟩]⟩] true,
    fieldHolds 80 false (fieldNew (bs "012A.a? && 012A.b? && 012A.c?")) [⟨(bs "012A"), none, [⟨0x61, (bs "A")⟩, ⟨0x62, (bs "B")⟩]⟩, ⟨(bs "013A"), none, [⟨0x63, (bs "C")⟩]⟩] false,
    fieldHolds 80 false (fieldNew (bs "012A.a? && 012A.b? || 014A.c?")) [⟨(bs "012A"), none, [⟨0x61, (bs "A")⟩, ⟨0x62, (bs "B")⟩]⟩, ⟨(bs "013A"), none, [⟨0x63, (bs "C")⟩]⟩] true,
    fieldHolds 80 false (fieldNew (bs "014A.c? || 012A.b? && 013A.c?")) [⟨(bs "012A"), none, [⟨0x61, (bs "A")⟩, ⟨0x62, (bs "B")⟩]⟩, ⟨(bs "013A"), none, [⟨0x63, (bs "C")⟩]⟩] true,
    fieldHolds 80 false (fieldNew (bs "012A.c? || 012A.b? && 012A.c?")) [⟨(bs "012A"), none, [⟨0x61, (bs "A")⟩, ⟨0x62, (bs "B")⟩]⟩, ⟨(bs "013A"), none, [⟨0x63, (bs "C")⟩]⟩] false,
    fieldHolds 80 false (fieldNew (bs "012A.b? && 012A.c? || 012A.c?")) [⟨(bs "012A"), none, [⟨0x61, (bs "A")⟩, ⟨0x62, (bs "B")⟩]⟩, ⟨(bs "013A"), none, [⟨0x63, (bs "C")⟩]⟩] false].all id = true := by
  decide +kernel

/-- `test_field_matcher_or`, src/matcher/field/mod.rs -/
example : [
    fieldHolds 80 false (fieldNew (bs "013A.a? || 012A.b?")) [⟨(bs "012A"), none, [⟨0x61, (bs "A")⟩, ⟨0x62, (bs "B")⟩]⟩, ⟨(bs "013A"), none, [⟨0x63, (bs "C")⟩]⟩] true,
    fieldHolds 80 false (fieldNew (bs "014A.a? || 013A.b? || 012A.b?")) [⟨(bs "012A"), none, [⟨0x61, (bs "A")⟩, ⟨0x62, (bs "B")⟩]⟩, ⟨(bs "013A"), none, [⟨0x63, (bs "C")⟩]⟩] true,
    fieldHolds 80 false (fieldNew (bs "(012A.a? && 012A.b?) || 012A.c?")) [⟨(bs "012A"), none, [⟨0x61, (bs "A")⟩, ⟨0x62, (bs "B")⟩]⟩, ⟨(bs "013A"), none, [⟨0x63, (bs "C")⟩]⟩] true,
    fieldHolds 80 false (fieldNew (bs "013A.a? || (012A.b? && 013A.c?)")) [⟨(bs "012A"), none, [⟨0x61, (bs "A")⟩, ⟨0x62, (bs "B")⟩]⟩, ⟨(bs "013A"), none, [⟨0x63, (bs "C")⟩]⟩] true,
    fieldHolds 80 false (fieldNew (bs "(012A.a? || 012A.b?) && 012A.c? || 013A.d?")) [⟨(bs "012A"), none, [⟨0x61, (bs "A")⟩, ⟨0x62, (bs "B")⟩]⟩, ⟨(bs "013A"), none, [⟨0x63, (bs "C")⟩]⟩] false,
    fieldHolds 80 false (fieldNew (bs "012A.a? && (012A.b? || 012A.c?) || 013A.c?")) [⟨(bs "012A"), none, [⟨0x61, (bs "A")⟩, ⟨0x62, (bs "B")⟩]⟩, ⟨(bs "013A"), none, [⟨0x63, (bs "C")⟩]⟩] true].all id = true := by
  decide +kernel

/-- `test_field_matcher_xor`, src/matcher/field/mod.rs -/
example : [
    fieldHolds 80 false (fieldNew (bs "012A.a? ^ 012A.b?")) [⟨(bs "012A"), none, [⟨0x61, (bs "A")⟩, ⟨0x62, (bs "B")⟩]⟩, ⟨(bs "013A"), none, [⟨0x63, (bs "C")⟩]⟩] false,
    fieldHolds 80 false (fieldNew (bs "012A.a? ^ 012A.b? ^ 012A.c?")) [⟨(bs "012A"), none, [⟨0x61, (bs "A")⟩, ⟨0x62, (bs "B")⟩]⟩, ⟨(bs "013A"), none, [⟨0x63, (bs "C")⟩]⟩] false,
    fieldHolds 80 false (fieldNew (bs "012A.a? ^ 012A.c?")) [⟨(bs "012A"), none, [⟨0x61, (bs "A")⟩, ⟨0x62, (bs "B")⟩]⟩, ⟨(bs "013A"), none, [⟨0x63, (bs "C")⟩]⟩] true,
    fieldHolds 80 false (fieldNew (bs "012A.c? ^ 012A.a?")) [⟨(bs "012A"), none, [⟨0x61, (bs "A")⟩, ⟨0x62, (bs "B")⟩]⟩, ⟨(bs "013A"), none, [⟨0x63, (bs "C")⟩]⟩] true,
    fieldHolds 80 false (fieldNew (bs "012A.c? ^ 012A.d?")) [⟨(bs "012A"), none, [⟨0x61, (bs "A")⟩, ⟨0x62, (bs "B")⟩]⟩, ⟨(bs "013A"), none, [⟨0x63, (bs "C")⟩]⟩] false].all id = true := by
  decide +kernel

/-- `test_field_matcher_bitand`, src/matcher/field/mod.rs -/
example : [
    same (ap2 (·.bitand ·) (fieldNew (bs "012A.a?")) (fieldNew (bs "012A.b?"))) (fieldNew (bs "012A.a? && 012A.b?")),
    same (ap2 (·.bitand ·) (fieldNew (bs "012A.a? || 012A.b?")) (fieldNew (bs "012A.c?"))) (fieldNew (bs "(012A.a? || 012A.b?) && 012A.c?")),
    same (ap2 (·.bitand ·) (fieldNew (bs "012A.a?")) (fieldNew (bs "(012A.b? || 012A.c?)"))) (fieldNew (bs "012A.a? && (012A.b? || 012A.c?)")),
    same (ap2 (·.bitand ·) (fieldNew (bs "012A.a? ^ 012A.b?")) (fieldNew (bs "012A.c?"))) (fieldNew (bs "(012A.a? ^ 012A.b?) && 012A.c?")),
    same (ap2 (·.bitand ·) (fieldNew (bs "012A.a?")) (fieldNew (bs "(012A.b? ^ 012A.c?)"))) (fieldNew (bs "012A.a? && (012A.b? ^ 012A.c?)")),
    same (ap2 (·.bitand ·) (fieldNew (bs "012A.a? && 012A.b?")) (fieldNew (bs "012A.c?"))) (fieldNew (bs "012A.a? && 012A.b? && 012A.c?"))].all id = true := by
  decide +kernel

/-- `test_field_matcher_bitand_assign`, src/matcher/field/mod.rs -/
example : [
    same (ap2 (·.bitandAssign ·) (fieldNew (bs "012A.a?")) (fieldNew (bs "012A.b?"))) (fieldNew (bs "012A.a? && 012A.b?")),
    same (ap2 (·.bitandAssign ·) (fieldNew (bs "012A.a? || 012A.b?")) (fieldNew (bs "012A.c?"))) (fieldNew (bs "(012A.a? || 012A.b?) && 012A.c?")),
    same (ap2 (·.bitandAssign ·) (fieldNew (bs "012A.a?")) (fieldNew (bs "(012A.b? || 012A.c?)"))) (fieldNew (bs "012A.a? && (012A.b? || 012A.c?)")),
    same (ap2 (·.bitandAssign ·) (fieldNew (bs "012A.a? ^ 012A.b?")) (fieldNew (bs "012A.c?"))) (fieldNew (bs "(012A.a? ^ 012A.b?) && 012A.c?")),
    same (ap2 (·.bitandAssign ·) (fieldNew (bs "012A.a?")) (fieldNew (bs "(012A.b? ^ 012A.c?)"))) (fieldNew (bs "012A.a? && (012A.b? ^ 012A.c?)"))].all id = true := by
  decide +kernel

/-- `test_field_matcher_bitxor`, src/matcher/field/mod.rs -/
example : [
    same (ap2 (·.bitxor ·) (fieldNew (bs "012A.a?")) (fieldNew (bs "012A.b?"))) (fieldNew (bs "012A.a? ^ 012A.b?")),
    same (ap2 (·.bitxor ·) (fieldNew (bs "012A.a? || 012A.b?")) (fieldNew (bs "012A.c?"))) (fieldNew (bs "(012A.a? || 012A.b?) ^ 012A.c?")),
    same (ap2 (·.bitxor ·) (fieldNew (bs "012A.a?")) (fieldNew (bs "(012A.b? || 012A.c?)"))) (fieldNew (bs "012A.a? ^ (012A.b? || 012A.c?)")),
    same (ap2 (·.bitxor ·) (fieldNew (bs "012A.a? ^ 012A.b?")) (fieldNew (bs "012A.c?"))) (fieldNew (bs "012A.a? ^ 012A.b? ^ 012A.c?"))].all id = true := by
  decide +kernel

/-- `test_field_matcher_bitxor_assign`, src/matcher/field/mod.rs -/
example : [
    same (ap2 (·.bitxorAssign ·) (fieldNew (bs "012A.a?")) (fieldNew (bs "012A.b?"))) (fieldNew (bs "012A.a? ^ 012A.b?")),
    same (ap2 (·.bitxorAssign ·) (fieldNew (bs "012A.a? || 012A.b?")) (fieldNew (bs "012A.c?"))) (fieldNew (bs "(012A.a? || 012A.b?) ^ 012A.c?")),
    same (ap2 (·.bitxorAssign ·) (fieldNew (bs "012A.a?")) (fieldNew (bs "(012A.b? || 012A.c?)"))) (fieldNew (bs "012A.a? ^ (012A.b? || 012A.c?)")),
    same (ap2 (·.bitxorAssign ·) (fieldNew (bs "012A.a? ^ 012A.b?")) (fieldNew (bs "012A.c?"))) (fieldNew (bs "012A.a? ^ 012A.b? ^ 012A.c?"))].all id = true := by
  decide +kernel

/-- `test_field_matcher_bitor`, src/matcher/field/mod.rs -/
example : [
    same (ap2 (·.bitor ·) (fieldNew (bs "012A.a?")) (fieldNew (bs "012A.b?"))) (fieldNew (bs "012A.a? || 012A.b?")),
    same (ap2 (·.bitor ·) (fieldNew (bs "012A.a? || 012A.b?")) (fieldNew (bs "012A.c?"))) (fieldNew (bs "012A.a? || 012A.b? || 012A.c?"))].all id = true := by
  decide +kernel

/-- `test_field_matcher_bitor_assign`, src/matcher/field/mod.rs -/
example : [
    same (ap2 (·.bitorAssign ·) (fieldNew (bs "012A.a?")) (fieldNew (bs "012A.b?"))) (fieldNew (bs "012A.a? || 012A.b?")),
    same (ap2 (·.bitorAssign ·) (fieldNew (bs "012A.a? || 012A.b?")) (fieldNew (bs "012A.c?"))) (fieldNew (bs "012A.a? || 012A.b? || 012A.c?"))].all id = true := by
  decide +kernel

/-- `test_field_matcher_bitnot`, src/matcher/field/mod.rs -/
example : [
    same ((fieldNew (bs "(012A.a?)")).map (·.bitnot)) (fieldNew (bs "!(012A.a?)")),
    same ((fieldNew (bs "012A.a?")).map (·.bitnot)) (fieldNew (bs "!012A.a?")),
    same ((fieldNew (bs "!012A.a?")).map (·.bitnot)) (fieldNew (bs "!!012A.a?")),
    same ((fieldNew (bs "012A.a == 'foo'")).map (·.bitnot)) (fieldNew (bs "!(012A.a == 'foo')")),
    same ((fieldNew (bs "012A.a? && 012A.b?")).map (·.bitnot)) (fieldNew (bs "!(012A.a? && 012A.b?)")),
    same ((fieldNew (bs "012A.a? || 012A.b?")).map (·.bitnot)) (fieldNew (bs "!(012A.a? || 012A.b?)")),
    same ((fieldNew (bs "012A.a? ^ 012A.b?")).map (·.bitnot)) (fieldNew (bs "!(012A.a? ^ 012A.b?)"))].all id = true := by
  decide +kernel

/-- `test_parse_exists_matcher`, src/matcher/field/parser.rs -/
example : [
    tparsesTo (lift pFieldExists) (bs "003@?") (.exists (.tag (bs "003@")) .none) FieldSingle.display,
    tparsesTo (lift pFieldExists) (bs "041A/*?") (.exists (.tag (bs "041A")) .any) FieldSingle.display].all id = true := by
  decide +kernel

/-- `test_parse_subfields_matcher`, src/matcher/field/parser.rs -/
example : [
    tparsesTo (subfieldsP) (bs "003@.0 == '0123456789X'") (.subfields .any (.tag (bs "003@")) .none (.single (.relation .any (bs "0") .eq (bs "0123456789X") (bs "0 == '0123456789X'"))) (bs "003@.0 == '0123456789X'")) FieldSingle.display,
    tparsesTo (subfieldsP) (bs "003@{0 == '0123456789X'}") (.subfields .any (.tag (bs "003@")) .none (.single (.relation .any (bs "0") .eq (bs "0123456789X") (bs "0 == '0123456789X'"))) (bs "003@{0 == '0123456789X'}")) FieldSingle.display].all id = true := by
  decide +kernel

/-- `test_parse_singleton_matcher`, src/matcher/field/parser.rs -/
example : [
    tparsesTo (pFieldSingle rx) (bs "041A/*?") (.exists (.tag (bs "041A")) .any) FieldSingle.display,
    tparsesTo (pFieldSingle rx) (bs "003@.0 == '0123456789X'") (.subfields .any (.tag (bs "003@")) .none (.single (.relation .any (bs "0") .eq (bs "0123456789X") (bs "0 == '0123456789X'"))) (bs "003@.0 == '0123456789X'")) FieldSingle.display].all id = true := by
  decide +kernel

/-- `test_parse_cardinality_matcher`, src/matcher/field/parser.rs -/
example : [
    tparsesTo (pFieldCard rx) (bs "#010@ > 5") ((⟨.tag (bs "010@"), .none, none, .gt, 5, (bs "#010@ > 5")⟩ : FieldCard)) (fun m => (FieldMatcher.card m).display)].all id = true := by
  decide +kernel

/-- `test_parse_field_exists_matcher`, src/matcher/field/parser.rs -/
example : [
    tparsesTo (lift pFieldExistsM) (bs "003@.0?") (.single (.subfields .any (.tag (bs "003@")) .none (.single (.exists (bs "0") (bs "0?"))) (bs "003@.0?"))) FieldMatcher.display].all id = true := by
  decide +kernel

/-- `test_record_matcher_serde`, src/matcher/record.rs -/
example : [
    shown (fieldNew (bs "012A.a? && (012A.b? || 012A.c?)")) (bs "012A.a? && (012A.b? || 012A.c?)"),
    same (fieldNew (bs "012A.a? && (012A.b? || 012A.c?)")) (fieldNew (bs "012A.a? && (012A.b? || 012A.c?)")),
    shown (fieldNew (bs "012A.a? && !(012A.b? || 012A.c?) ")) (bs "012A.a? && !(012A.b? || 012A.c?)"),
    same (fieldNew (bs "012A.a? && !(012A.b? || 012A.c?)")) (fieldNew (bs "012A.a? && !(012A.b? || 012A.c?) "))].all id = true := by
  decide +kernel

/-- `test_record_matcher_new`, src/matcher/record.rs -/
example : [
    fieldHolds 80 false (fieldNew (bs "003@.0?")) ada true].all id = true := by
  decide +kernel

/-- `test_record_matcher_exists`, src/matcher/record.rs -/
example : [
    fieldHolds 80 false (fieldNew (bs "004B?")) ada true,
    fieldHolds 80 false (fieldNew (bs "028A.a?")) ada true].all id = true := by
  decide +kernel

/-- `test_record_matcher_cardinality`, src/matcher/record.rs -/
example : [
    fieldHolds 80 false (fieldNew (bs "#028[A@]{d =^ 'Ada' && a == 'Lovelace'} == 5")) ada true].all id = true := by
  decide +kernel

/-- `test_record_matcher_in`, src/matcher/record.rs -/
example : [
    fieldHolds 80 false (fieldNew (bs "002@.0 in ['Tpz', 'Tp1']")) ada true].all id = true := by
  decide +kernel

/-- `test_record_matcher_not_in`, src/matcher/record.rs -/
example : [
    fieldHolds 80 false (fieldNew (bs "002@.0 not in ['Tuz', 'Tu1']")) ada true].all id = true := by
  decide +kernel

/-- `test_record_matcher_regex`, src/matcher/record.rs -/
example : [
    fieldHolds 80 false (fieldNew (bs "047A/03.[er] =~ '^DE-\\\\d+6'")) ada true,
    fieldHolds 80 false (fieldNew (bs "047A/03.[er] !~ '^EN-\\\\d+6'")) ada true].all id = true := by
  decide +kernel

/-- `test_record_matcher_regex_set`, src/matcher/record.rs -/
example : [
    fieldHolds 80 false (fieldNew (bs "047A/03.[er] =~ ['^DE-\\\\d+6', '^EN-.*']")) ada true].all id = true := by
  decide +kernel

/-- `test_record_matcher_equal`, src/matcher/record.rs -/
example : [
    fieldHolds 80 false (fieldNew (bs "003@.0 == '119232022'")) ada true].all id = true := by
  decide +kernel

/-- `test_record_matcher_not_equal`, src/matcher/record.rs -/
example : [
    fieldHolds 80 false (fieldNew (bs "002@.0 != 'Ts1'")) ada true].all id = true := by
  decide +kernel

/-- `test_record_matcher_starts_with`, src/matcher/record.rs -/
example : [
    fieldHolds 80 false (fieldNew (bs "003U.a =^ 'http://d-nb.info/gnd/'")) ada true].all id = true := by
  decide +kernel

/-- `test_record_matcher_starts_not_with`, src/matcher/record.rs -/
example : [
    fieldHolds 80 false (fieldNew (bs "002@.0 !^ 'Ts'")) ada true].all id = true := by
  decide +kernel

/-- `test_record_matcher_ends_with`, src/matcher/record.rs -/
example : [
    fieldHolds 80 false (fieldNew (bs "042B.a =$ '-GB'")) ada true].all id = true := by
  decide +kernel

/-- `test_record_matcher_ends_not_with`, src/matcher/record.rs -/
example : [
    fieldHolds 80 false (fieldNew (bs "002@.0 !$ '3'")) ada true].all id = true := by
  decide +kernel

/-- `test_record_matcher_group`, src/matcher/record.rs -/
example : [
    fieldHolds 80 false (fieldNew (bs "(002@.0 == 'Tp1' && 004B.a == 'pik')")) ada true].all id = true := by
  decide +kernel

/-- `test_record_matcher_not`, src/matcher/record.rs -/
example : [
    fieldHolds 80 false (fieldNew (bs "!(002@.0 == 'Ts1' || 002@.0 =^ 'Tu')")) ada true,
    fieldHolds 80 false (fieldNew (bs "!012A.0?")) ada true].all id = true := by
  decide +kernel

/-- `test_record_matcher_and`, src/matcher/record.rs -/
example : [
    fieldHolds 80 false (fieldNew (bs "002@.0 == 'Tp1' && 004B.a == 'pik'")) ada true].all id = true := by
  decide +kernel

/-- `test_record_matcher_or`, src/matcher/record.rs -/
example : [
    fieldHolds 80 false (fieldNew (bs "002@.0 == 'Ts1' || 004B.a == 'pik'")) ada true].all id = true := by
  decide +kernel

/-- `test_record_matcher_xor`, src/matcher/record.rs -/
example : [
    fieldHolds 80 false (fieldNew (bs "042A.a == '28p' ^ 042A.a == '9.5p'")) ada false,
    fieldHolds 80 false (fieldNew (bs "042A.a == '28p' XOR 042A.a == '9.5p'")) ada false].all id = true := by
  decide +kernel

end Pica.Conformance
