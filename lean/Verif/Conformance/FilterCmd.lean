import Verif.Conformance.Commands
import Verif.Conformance.Data

/-! The calls in the tests of `filter` of the repository, evaluated on the model: what is
written is what the tests expect. Generated from /repo/crates/pica-cli/tests. -/

namespace Pica.Conformance

-- tests/filter/cardinality.rs, cardinality_field_eq
example : Req.run
    { cmd := "filter", files := [("/repo/tests/data/ada.dat", dataAdaDat), ("-", [])],
      positional := [bs "#003@ == 1", bs "/repo/tests/data/ada.dat"] }
    = ⟨.ok, dataAdaDat, none, []⟩ := by decide +kernel

-- tests/filter/cardinality.rs, cardinality_subfield_eq
example : Req.run
    { cmd := "filter", files := [("/repo/tests/data/ada.dat", dataAdaDat), ("-", [])],
      positional := [bs "003@{ #0 == 1 }", bs "/repo/tests/data/ada.dat"] }
    = ⟨.ok, dataAdaDat, none, []⟩ := by decide +kernel

-- tests/filter/cardinality.rs, cardinality_field_ne
example : Req.run
    { cmd := "filter", files := [("/repo/tests/data/ada.dat", dataAdaDat), ("-", [])],
      positional := [bs "#003@ != 2", bs "/repo/tests/data/ada.dat"] }
    = ⟨.ok, dataAdaDat, none, []⟩ := by decide +kernel

-- tests/filter/cardinality.rs, cardinality_subfield_ne
example : Req.run
    { cmd := "filter", files := [("/repo/tests/data/ada.dat", dataAdaDat), ("-", [])],
      positional := [bs "003@{ #0 != 0 }", bs "/repo/tests/data/ada.dat"] }
    = ⟨.ok, dataAdaDat, none, []⟩ := by decide +kernel

-- tests/filter/cardinality.rs, cardinality_field_gt
example : Req.run
    { cmd := "filter", files := [("/repo/tests/data/ada.dat", dataAdaDat), ("-", [])],
      positional := [bs "#028@ > 5", bs "/repo/tests/data/ada.dat"] }
    = ⟨.ok, dataAdaDat, none, []⟩ := by decide +kernel

-- tests/filter/cardinality.rs, cardinality_subfield_gt
example : Req.run
    { cmd := "filter", files := [("/repo/tests/data/ada.dat", dataAdaDat), ("-", [])],
      positional := [bs "042A{ #a >  1 }", bs "/repo/tests/data/ada.dat"] }
    = ⟨.ok, dataAdaDat, none, []⟩ := by decide +kernel

-- tests/filter/cardinality.rs, cardinality_field_ge
example : Req.run
    { cmd := "filter", files := [("/repo/tests/data/ada.dat", dataAdaDat), ("-", [])],
      positional := [bs "#028@ >= 5", bs "/repo/tests/data/ada.dat"] }
    = ⟨.ok, dataAdaDat, none, []⟩ := by decide +kernel

-- tests/filter/cardinality.rs, cardinality_subfield_ge
example : Req.run
    { cmd := "filter", files := [("/repo/tests/data/ada.dat", dataAdaDat), ("-", [])],
      positional := [bs "042A{ #a >=  1 }", bs "/repo/tests/data/ada.dat"] }
    = ⟨.ok, dataAdaDat, none, []⟩ := by decide +kernel

-- tests/filter/cardinality.rs, cardinality_field_lt
example : Req.run
    { cmd := "filter", files := [("/repo/tests/data/ada.dat", dataAdaDat), ("-", [])],
      positional := [bs "#028@ < 100", bs "/repo/tests/data/ada.dat"] }
    = ⟨.ok, dataAdaDat, none, []⟩ := by decide +kernel

-- tests/filter/cardinality.rs, cardinality_subfield_lt
example : Req.run
    { cmd := "filter", files := [("/repo/tests/data/ada.dat", dataAdaDat), ("-", [])],
      positional := [bs "042A{ #a <  100 }", bs "/repo/tests/data/ada.dat"] }
    = ⟨.ok, dataAdaDat, none, []⟩ := by decide +kernel

-- tests/filter/cardinality.rs, cardinality_field_le
example : Req.run
    { cmd := "filter", files := [("/repo/tests/data/ada.dat", dataAdaDat), ("-", [])],
      positional := [bs "#028@ <= 100", bs "/repo/tests/data/ada.dat"] }
    = ⟨.ok, dataAdaDat, none, []⟩ := by decide +kernel

-- tests/filter/cardinality.rs, cardinality_subfield_le
example : Req.run
    { cmd := "filter", files := [("/repo/tests/data/ada.dat", dataAdaDat), ("-", [])],
      positional := [bs "042A{ #a <=  100 }", bs "/repo/tests/data/ada.dat"] }
    = ⟨.ok, dataAdaDat, none, []⟩ := by decide +kernel

-- tests/filter/connectives.rs, and_connective_field
example : Req.run
    { cmd := "filter", files := [("/repo/tests/data/ada.dat", dataAdaDat), ("-", [])],
      positional := [bs "003@.0 == '119232022' && 002@.0 == 'Tp1'", bs "/repo/tests/data/ada.dat"] }
    = ⟨.ok, dataAdaDat, none, []⟩ := by decide +kernel

-- tests/filter/connectives.rs, and_connective_subfield
example : Req.run
    { cmd := "filter", files := [("/repo/tests/data/ada.dat", dataAdaDat), ("-", [])],
      positional := [bs "065R{ 9 == '040743357' && 4 == 'orts' }", bs "/repo/tests/data/ada.dat"] }
    = ⟨.ok, dataAdaDat, none, []⟩ := by decide +kernel

-- tests/filter/connectives.rs, or_connective_field
example : Req.run
    { cmd := "filter", files := [("/repo/tests/data/ada.dat", dataAdaDat), ("-", [])],
      positional := [bs "003@.0 == '118540238' || 002@.0 == 'Tp1'", bs "/repo/tests/data/ada.dat"] }
    = ⟨.ok, dataAdaDat, none, []⟩ := by decide +kernel

-- tests/filter/connectives.rs, or_connective_subfield
example : Req.run
    { cmd := "filter", files := [("/repo/tests/data/ada.dat", dataAdaDat), ("-", [])],
      positional := [bs "065R{ 9 == '040743357' || 4 == 'orts' }", bs "/repo/tests/data/ada.dat"] }
    = ⟨.ok, dataAdaDat, none, []⟩ := by decide +kernel

-- tests/filter/connectives.rs, xor_connective_field
example : Req.run
    { cmd := "filter", files := [("/repo/tests/data/ada.dat", dataAdaDat), ("-", [])],
      positional := [bs "003@.0 == '118540238' XOR 002@.0 == 'Tp1'", bs "/repo/tests/data/ada.dat"] }
    = ⟨.ok, dataAdaDat, none, []⟩ := by decide +kernel

-- tests/filter/connectives.rs, xor_connective_subfield
example : Req.run
    { cmd := "filter", files := [("/repo/tests/data/ada.dat", dataAdaDat), ("-", [])],
      positional := [bs "065R{ 9 == '040743357' XOR 4 == 'orts' }", bs "/repo/tests/data/ada.dat"] }
    = ⟨.ok, dataAdaDat, none, []⟩ := by decide +kernel

-- tests/filter/contains.rs, contains_substring
example : Req.run
    { cmd := "filter", files := [("/repo/tests/data/ada.dat", dataAdaDat), ("-", [])],
      positional := [bs "028@.d =? 'August'", bs "/repo/tests/data/ada.dat"] }
    = ⟨.ok, dataAdaDat, none, []⟩ := by decide +kernel

-- tests/filter/contains.rs, contains_case_ignore
example : Req.run
    { cmd := "filter", files := [("/repo/tests/data/ada.dat", dataAdaDat), ("-", [])],
      ignoreCase := true, positional := [bs "028@.d =? 'august'", bs "/repo/tests/data/ada.dat"] }
    = ⟨.ok, dataAdaDat, none, []⟩ := by decide +kernel

-- tests/filter/contains.rs, contains_set
example : Req.run
    { cmd := "filter", files := [("/repo/tests/data/ada.dat", dataAdaDat), ("-", [])],
      positional := [bs "028@.d =? ['September', 'August']", bs "/repo/tests/data/ada.dat"] }
    = ⟨.ok, dataAdaDat, none, []⟩ := by decide +kernel

-- tests/filter/contains.rs, contains_set_case_ignore
example : Req.run
    { cmd := "filter", files := [("/repo/tests/data/ada.dat", dataAdaDat), ("-", [])],
      ignoreCase := true, positional := [bs "028@.d =? ['september', 'august']",
      bs "/repo/tests/data/ada.dat"] }
    = ⟨.ok, dataAdaDat, none, []⟩ := by decide +kernel

-- tests/filter/contains.rs, contains_set_quantifier
example : Req.run
    { cmd := "filter", files := [("/repo/tests/data/ada.dat", dataAdaDat), ("-", [])],
      positional := [bs "028@{ ANY d =? ['eptemb', 'gust'] }", bs "/repo/tests/data/ada.dat"] }
    = ⟨.ok, dataAdaDat, none, []⟩ := by decide +kernel

-- tests/filter/contains.rs, contains_empty_string
example : Req.run
    { cmd := "filter", files := [("/repo/tests/data/ada.dat", dataAdaDat), ("-", [])],
      positional := [bs "028@.d =? ''", bs "/repo/tests/data/ada.dat"] }
    = ⟨.ok, dataAdaDat, none, []⟩ := by decide +kernel

-- tests/filter/exists.rs, field_exists
example : Req.run
    { cmd := "filter", files := [("/repo/tests/data/ada.dat", dataAdaDat), ("-", [])],
      positional := [bs "003@?", bs "/repo/tests/data/ada.dat"] }
    = ⟨.ok, dataAdaDat, none, []⟩ := by decide +kernel

-- tests/filter/exists.rs, subfield_exists
example : Req.run
    { cmd := "filter", files := [("/repo/tests/data/ada.dat", dataAdaDat), ("-", [])],
      positional := [bs "003@.0?", bs "/repo/tests/data/ada.dat"] }
    = ⟨.ok, dataAdaDat, none, []⟩ := by decide +kernel

-- tests/filter/in.rs, not_in
example : Req.run
    { cmd := "filter", files := [("/repo/tests/data/ada.dat", dataAdaDat), ("-", [])],
      positional := [bs "002@.0 not in ['Tsz', 'Tpz']", bs "/repo/tests/data/ada.dat"] }
    = ⟨.ok, dataAdaDat, none, []⟩ := by decide +kernel

-- tests/filter/mod.rs, filter_skip_invalid
example : Req.run
    { cmd := "filter", files := [("/repo/tests/data/invalid.dat", dataInvalidDat), ("-", [])],
      skip := true, positional := [bs "003@?", bs "/repo/tests/data/invalid.dat"] }
    = ⟨.ok, [], none, []⟩ := by decide +kernel

-- tests/filter/mod.rs, filter_invert_match
example : Req.run
    { cmd := "filter", files := [("/repo/tests/data/math.dat.gz", dataMathDat),
      ("/repo/tests/data/ada.dat", dataAdaDat), ("-", [])], invert := true,
      positional := [bs "003@.0 == '040379442'", bs "/repo/tests/data/math.dat.gz",
      bs "/repo/tests/data/ada.dat"] }
    = ⟨.ok, dataAdaDat, none, []⟩ := by decide +kernel

-- tests/filter/mod.rs, filter_ignore_case
example : Req.run
    { cmd := "filter", files := [("/repo/tests/data/math.dat.gz", dataMathDat),
      ("/repo/tests/data/ada.dat", dataAdaDat), ("-", [])], ignoreCase := true,
      positional := [bs "002@.0 == 'TP1'", bs "/repo/tests/data/math.dat.gz",
      bs "/repo/tests/data/ada.dat"] }
    = ⟨.ok, dataAdaDat, none, []⟩ := by decide +kernel

-- tests/filter/mod.rs, filter_strsim_threshold
example : Req.run
    { cmd := "filter", files := [("/repo/tests/data/math.dat.gz", dataMathDat),
      ("/repo/tests/data/ada.dat", dataAdaDat), ("-", [])], positional := [bs "028A.a =* 'Lovelaca'",
      bs "/repo/tests/data/math.dat.gz", bs "/repo/tests/data/ada.dat"] }
    = ⟨.ok, dataAdaDat, none, []⟩ := by decide +kernel

-- tests/filter/mod.rs, filter_discard
example : Req.run
    { cmd := "filter", files := [("-", bs "002@ \x1f0Tpz\x1e003@ \x1f0118540238\x1e\n")],
      skip := true, discard := some (bs "002@,012A/*"), positional := [bs "003@.0 == '118540238'"] }
    = ⟨.ok, bs "003@ \x1f0118540238\x1e\n", none, []⟩ := by decide +kernel

-- tests/filter/mod.rs, filter_deny
example : Req.run
    { cmd := "filter", files := [("/repo/tests/data/ada.dat", dataAdaDat), ("-", [])], skip := true,
      deny := [bs "/T3/deny.csv"], positional := [bs "003@?", bs "/repo/tests/data/ada.dat"],
      lists := [(bs "/T3/deny.csv", some [(bs "idn", [])])] }
    = ⟨.ok, dataAdaDat, none, []⟩ := by decide +kernel

-- tests/filter/mod.rs, filter_append
example : Req.run
    { cmd := "filter", files := [("/repo/tests/data/ada.dat", dataAdaDat), ("-", [])], skip := true,
      positional := [bs "003@?", bs "/repo/tests/data/ada.dat"] }
    = ⟨.ok, dataAdaDat, none, []⟩ := by decide +kernel

-- tests/filter/mod.rs, filter_no_ppn
example : Req.run
    { cmd := "filter", files := [("-",
      bs "036E/00 \x1faSpringer-Lehrbuch\x1e036E/01 \x1faSpringer-Link\x1fpBücher\x1e\n")],
      positional := [bs "....?"] }
    = ⟨.ok, bs "036E/00 \x1faSpringer-Lehrbuch\x1e036E/01 \x1faSpringer-Link\x1fpBücher\x1e\n", none,
      []⟩ := by decide +kernel

-- tests/filter/regex.rs, regex
example : Req.run
    { cmd := "filter", files := [("/repo/tests/data/ada.dat", dataAdaDat), ("-", [])],
      positional := [bs "002@.0 =~ '^T[bfgpsu][1-3z]$'", bs "/repo/tests/data/ada.dat"] }
    = ⟨.ok, dataAdaDat, none, []⟩ := by decide +kernel

-- tests/filter/regex.rs, regex_inverted
example : Req.run
    { cmd := "filter", files := [("/repo/tests/data/ada.dat", dataAdaDat), ("-", [])],
      positional := [bs "002@.0 !~ '^O(af|lfo)$'", bs "/repo/tests/data/ada.dat"] }
    = ⟨.ok, dataAdaDat, none, []⟩ := by decide +kernel

-- tests/filter/regex_set.rs, regex_set
example : Req.run
    { cmd := "filter", files := [("/repo/tests/data/ada.dat", dataAdaDat), ("-", [])],
      positional := [bs "002@.0 =~ ['^T[bfg][1-3z]$', '^Tp[1z]$']", bs "/repo/tests/data/ada.dat"] }
    = ⟨.ok, dataAdaDat, none, []⟩ := by decide +kernel

-- tests/filter/regex_set.rs, regex_set_inverted
example : Req.run
    { cmd := "filter", files := [("/repo/tests/data/ada.dat", dataAdaDat), ("-", [])],
      positional := [bs "002@.0 !~ ['^T[bfg][1-3z]$', '^Tp[23z]$']", bs "/repo/tests/data/ada.dat"] }
    = ⟨.ok, dataAdaDat, none, []⟩ := by decide +kernel

-- tests/filter/relation.rs, relation_eq
example : Req.run
    { cmd := "filter", files := [("/repo/tests/data/ada.dat", dataAdaDat), ("-", [])],
      positional := [bs "003@.0 == '119232022'", bs "/repo/tests/data/ada.dat"] }
    = ⟨.ok, dataAdaDat, none, []⟩ := by decide +kernel

-- tests/filter/relation.rs, relation_ne
example : Req.run
    { cmd := "filter", files := [("/repo/tests/data/ada.dat", dataAdaDat), ("-", [])],
      positional := [bs "003@.0 != '118540238'", bs "/repo/tests/data/ada.dat"] }
    = ⟨.ok, dataAdaDat, none, []⟩ := by decide +kernel

-- tests/filter/relation.rs, relation_starts_with
example : Req.run
    { cmd := "filter", files := [("/repo/tests/data/ada.dat", dataAdaDat), ("-", [])],
      positional := [bs "002@.0 =^ 'Tp'", bs "/repo/tests/data/ada.dat"] }
    = ⟨.ok, dataAdaDat, none, []⟩ := by decide +kernel

-- tests/filter/relation.rs, relation_starts_not_with
example : Req.run
    { cmd := "filter", files := [("/repo/tests/data/ada.dat", dataAdaDat), ("-", [])],
      positional := [bs "002@.0 !^ 'Ts'", bs "/repo/tests/data/ada.dat"] }
    = ⟨.ok, dataAdaDat, none, []⟩ := by decide +kernel

-- tests/filter/relation.rs, relation_ends_with
example : Req.run
    { cmd := "filter", files := [("/repo/tests/data/ada.dat", dataAdaDat), ("-", [])],
      positional := [bs "002@.0 =$ 'p1'", bs "/repo/tests/data/ada.dat"] }
    = ⟨.ok, dataAdaDat, none, []⟩ := by decide +kernel

-- tests/filter/relation.rs, relation_ends_not_with
example : Req.run
    { cmd := "filter", files := [("/repo/tests/data/ada.dat", dataAdaDat), ("-", [])],
      positional := [bs "002@.0 !$ 'sz'", bs "/repo/tests/data/ada.dat"] }
    = ⟨.ok, dataAdaDat, none, []⟩ := by decide +kernel

-- tests/filter/relation.rs, relation_similar
example : Req.run
    { cmd := "filter", files := [("/repo/tests/data/ada.dat", dataAdaDat), ("-", [])],
      positional := [bs "028A.a =* 'LovelacE'", bs "/repo/tests/data/ada.dat"] }
    = ⟨.ok, dataAdaDat, none, []⟩ := by decide +kernel

-- tests/filter/relation.rs, relation_contains
example : Req.run
    { cmd := "filter", files := [("/repo/tests/data/ada.dat", dataAdaDat), ("-", [])],
      positional := [bs "028A.a =? 'ove'", bs "/repo/tests/data/ada.dat"] }
    = ⟨.ok, dataAdaDat, none, []⟩ := by decide +kernel

end Pica.Conformance
