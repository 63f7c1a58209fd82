import Verif.Conformance.Commands
import Verif.Conformance.Data

/-! The calls in the tests of `check` of the repository, evaluated on the model: what is
written is what the tests expect. Generated from /repo/crates/pica-cli/tests. -/

namespace Pica.Conformance

-- tests/check/allow.rs, csv_list
example : Req.run
    { cmd := "check", files := [("-", bs "003@ \x1f0123456789X\x1e045E \x1fe200\x1e\n")],
      rules := [some (bs "\n            [rule.R001]\n            check = 'allow'\n            list.filename = '/T1/ALLOW.csv'\n            list.column = 'hsg'\n            path = '045E.e'\n        ")],
      toml := [(bs "\n            [rule.R001]\n            check = 'allow'\n            list.filename = '/T1/ALLOW.csv'\n            list.column = 'hsg'\n            path = '045E.e'\n        ",
      some [(bs "rule", .table [(bs "R001", .table [(bs "check", .str (bs "allow")), (bs "list",
      .table [(bs "filename", .str (bs "/T1/ALLOW.csv")), (bs "column", .str (bs "hsg"))]),
      (bs "path", .str (bs "045E.e"))])])])], lists := [(bs "/T1/ALLOW.csv", some [(bs "hsg",
      [some (bs "004"), some (bs "010")]), (bs "label", [some (bs "Informatik"),
      some (bs "Bibliografien")])])] }
    = ⟨.ok, bs "ppn,rule,level,message\n123456789X,R001,error,200\n", none, []⟩ := by decide +kernel

-- tests/check/allow.rs, tsv_list
example : Req.run
    { cmd := "check", files := [("-", bs "003@ \x1f0123456789X\x1e045E \x1fe200\x1e\n")],
      rules := [some (bs "\n            [rule.R001]\n            check = 'allow'\n            list.filename = '/T1/ALLOW.tsv'\n            list.column = 'hsg'\n            path = '045E.e'\n        ")],
      toml := [(bs "\n            [rule.R001]\n            check = 'allow'\n            list.filename = '/T1/ALLOW.tsv'\n            list.column = 'hsg'\n            path = '045E.e'\n        ",
      some [(bs "rule", .table [(bs "R001", .table [(bs "check", .str (bs "allow")), (bs "list",
      .table [(bs "filename", .str (bs "/T1/ALLOW.tsv")), (bs "column", .str (bs "hsg"))]),
      (bs "path", .str (bs "045E.e"))])])])], lists := [(bs "/T1/ALLOW.tsv", some [(bs "hsg",
      [some (bs "004"), some (bs "010")]), (bs "label", [some (bs "Informatik"),
      some (bs "Bibliografien")])])] }
    = ⟨.ok, bs "ppn,rule,level,message\n123456789X,R001,error,200\n", none, []⟩ := by decide +kernel

-- tests/check/allow.rs, case_ignore
example : Req.run
    { cmd := "check", files := [("-", bs "003@ \x1f0123456789X\x1e012A \x1fainformatik\x1e\n")],
      rules := [some (bs "\n            [rule.R001]\n            check = 'allow'\n            list.filename = '/T1/ALLOW.csv'\n            list.column = 'label'\n            path = '012A.a'\n        ")],
      toml := [(bs "\n            [rule.R001]\n            check = 'allow'\n            list.filename = '/T1/ALLOW.csv'\n            list.column = 'label'\n            path = '012A.a'\n        ",
      some [(bs "rule", .table [(bs "R001", .table [(bs "check", .str (bs "allow")), (bs "list",
      .table [(bs "filename", .str (bs "/T1/ALLOW.csv")), (bs "column", .str (bs "label"))]),
      (bs "path", .str (bs "012A.a"))])])])], lists := [(bs "/T1/ALLOW.csv", some [(bs "hsg",
      [some (bs "004"), some (bs "010")]), (bs "label", [some (bs "Informatik"),
      some (bs "Bibliografien")])])] }
    = ⟨.ok, bs "ppn,rule,level,message\n123456789X,R001,error,informatik\n", none, []⟩ := by decide +kernel

-- tests/check/datetime.rs, invalid
example : Req.run
    { cmd := "check", files := [("-", bs "003@ \x1f0123456789X\x1e010@ \x1fD2025-02-29\x1e\n")],
      rules := [some (bs "\n            [rule.R1]\n            check = \"datetime\"\n            path = \"010@.D\"\n        ")],
      toml := [(bs "\n            [rule.R1]\n            check = \"datetime\"\n            path = \"010@.D\"\n        ",
      some [(bs "rule", .table [(bs "R1", .table [(bs "check", .str (bs "datetime")), (bs "path",
      .str (bs "010@.D"))])])])], dates := [(bs "%Y-%m-%d", bs "2025-02-29", false)] }
    = ⟨.ok, bs "ppn,rule,level,message\n123456789X,R1,error,2025-02-29\n", none, []⟩ := by decide +kernel

-- tests/check/datetime.rs, message
example : Req.run
    { cmd := "check", files := [("-", bs "003@ \x1f0123456789X\x1e010@ \x1fDXYZ\x1fDABC\x1e\n")],
      rules := [some (bs "\n            [rule.R1]\n            check = \"datetime\"\n            path = \"010@.D\"\n        ")],
      toml := [(bs "\n            [rule.R1]\n            check = \"datetime\"\n            path = \"010@.D\"\n        ",
      some [(bs "rule", .table [(bs "R1", .table [(bs "check", .str (bs "datetime")), (bs "path",
      .str (bs "010@.D"))])])])], dates := [(bs "%Y-%m-%d", bs "XYZ", false), (bs "%Y-%m-%d",
      bs "ABC", false)] }
    = ⟨.ok, bs "ppn,rule,level,message\n123456789X,R1,error,\"XYZ, ABC\"\n", none, []⟩ := by decide +kernel

-- tests/check/datetime.rs, offset
example : Req.run
    { cmd := "check", files := [("-", bs "003@ \x1f0123456789X\x1e010@ \x1fDXYZ2025-02-29\x1e\n")],
      rules := [some (bs "\n            [rule.R3]\n            check = \"datetime\"\n            path = \"010@.D\"\n            offset = 3\n        ")],
      toml := [(bs "\n            [rule.R3]\n            check = \"datetime\"\n            path = \"010@.D\"\n            offset = 3\n        ",
      some [(bs "rule", .table [(bs "R3", .table [(bs "check", .str (bs "datetime")), (bs "path",
      .str (bs "010@.D")), (bs "offset", .int 3)])])])], dates := [(bs "%Y-%m-%d", bs "2025-02-29",
      false)] }
    = ⟨.ok, bs "ppn,rule,level,message\n123456789X,R3,error,XYZ2025-02-29\n", none, []⟩ := by decide +kernel

-- tests/check/datetime.rs, format
example : Req.run
    { cmd := "check", files := [("-", bs "003@ \x1f0123456789X\x1e010@ \x1fD25-02-29\x1e\n")],
      rules := [some (bs "\n            [rule.R4]\n            check = \"datetime\"\n            format = \"%y-%m-%d\"\n            path = \"010@.D\"\n        ")],
      toml := [(bs "\n            [rule.R4]\n            check = \"datetime\"\n            format = \"%y-%m-%d\"\n            path = \"010@.D\"\n        ",
      some [(bs "rule", .table [(bs "R4", .table [(bs "check", .str (bs "datetime")), (bs "format",
      .str (bs "%y-%m-%d")), (bs "path", .str (bs "010@.D"))])])])], dates := [(bs "%y-%m-%d",
      bs "25-02-29", false)] }
    = ⟨.ok, bs "ppn,rule,level,message\n123456789X,R4,error,25-02-29\n", none, []⟩ := by decide +kernel

-- tests/check/datetime.rs, case_ignore
example : Req.run
    { cmd := "check", files := [("-", bs "003@ \x1f0123456789X\x1e010@ \x1fD25-02-29\x1fXFoo\x1e\n")],
      rules := [some (bs "\n            [rule.R5]\n            check = 'datetime'\n            case-ignore = true\n            path = '010@{ D | X == \"foo\" }'\n        ")],
      toml := [(bs "\n            [rule.R5]\n            check = 'datetime'\n            case-ignore = true\n            path = '010@{ D | X == \"foo\" }'\n        ",
      some [(bs "rule", .table [(bs "R5", .table [(bs "check", .str (bs "datetime")),
      (bs "case-ignore", .bool true), (bs "path", .str (bs "010@{ D | X == \"foo\" }"))])])])],
      dates := [(bs "%Y-%m-%d", bs "25-02-29", false)] }
    = ⟨.ok, bs "ppn,rule,level,message\n123456789X,R5,error,25-02-29\n", none, []⟩ := by decide +kernel

-- tests/check/duplicates.rs, check_duplicates_path
example : Req.run
    { cmd := "check", files := [("-",
      bs "003@ \x1f0123456789X\x1e045Z \x1fbjelc\x1faD63\x1faD63\x1e\n")],
      rules := [some (bs "\n            [rule.R001]\n            check = 'duplicates'\n            query = '045Z{ a | b == \"jelc\" }'\n        ")],
      toml := [(bs "\n            [rule.R001]\n            check = 'duplicates'\n            query = '045Z{ a | b == \"jelc\" }'\n        ",
      some [(bs "rule", .table [(bs "R001", .table [(bs "check", .str (bs "duplicates")), (bs "query",
      .str (bs "045Z{ a | b == \"jelc\" }"))])])])] }
    = ⟨.ok, bs "ppn,rule,level,message\n123456789X,R001,error,D63\n", none, []⟩ := by decide +kernel

-- tests/check/duplicates.rs, check_duplicates_query
example : Req.run
    { cmd := "check", files := [("-",
      bs "003@ \x1f0123456789X\x1e045E \x1fe100\x1fEi\x1fHdnb\x1e045E \x1fe110\x1fEi\x1fHdnb\x1e\n")],
      rules := [some (bs "\n            [rule.R001]\n            check = 'duplicates'\n            query = '045E{ E, H }'\n        ")],
      toml := [(bs "\n            [rule.R001]\n            check = 'duplicates'\n            query = '045E{ E, H }'\n        ",
      some [(bs "rule", .table [(bs "R001", .table [(bs "check", .str (bs "duplicates")), (bs "query",
      .str (bs "045E{ E, H }"))])])])] }
    = ⟨.ok, bs "ppn,rule,level,message\n123456789X,R001,error,i|dnb\n", none, []⟩ := by decide +kernel

-- tests/check/duplicates.rs, check_duplicates_threshold
example : Req.run
    { cmd := "check", files := [("-",
      bs "003@ \x1f0123456789X\x1e045E \x1fe100\x1fEi\x1fHdnb\x1e045E \x1fe110\x1fEi\x1fHdnb\x1e045E \x1fe200\x1fEi\x1fHdnb\x1e\n")],
      rules := [some (bs "\n            [rule.R001]\n            check = 'duplicates'\n            threshold = 3\n            query = '045E{ E, H }'\n        ")],
      toml := [(bs "\n            [rule.R001]\n            check = 'duplicates'\n            threshold = 3\n            query = '045E{ E, H }'\n        ",
      some [(bs "rule", .table [(bs "R001", .table [(bs "check", .str (bs "duplicates")),
      (bs "threshold", .int 3), (bs "query", .str (bs "045E{ E, H }"))])])])] }
    = ⟨.ok, bs "ppn,rule,level,message\n123456789X,R001,error,i|dnb\n", none, []⟩ := by decide +kernel

-- tests/check/duplicates.rs, check_duplicates_ignore_case
example : Req.run
    { cmd := "check", files := [("-",
      bs "003@ \x1f0123456789X\x1e045Z \x1fbjelc\x1faD63\x1faD63\x1e\n")],
      rules := [some (bs "\n            [rule.R001]\n            check = 'duplicates'\n            case-ignore = true\n            query = '045Z{ a | b =^ \"JEL\" }'\n        ")],
      toml := [(bs "\n            [rule.R001]\n            check = 'duplicates'\n            case-ignore = true\n            query = '045Z{ a | b =^ \"JEL\" }'\n        ",
      some [(bs "rule", .table [(bs "R001", .table [(bs "check", .str (bs "duplicates")),
      (bs "case-ignore", .bool true), (bs "query", .str (bs "045Z{ a | b =^ \"JEL\" }"))])])])] }
    = ⟨.ok, bs "ppn,rule,level,message\n123456789X,R001,error,D63\n", none, []⟩ := by decide +kernel

-- tests/check/duplicates.rs, check_duplicates_separator
example : Req.run
    { cmd := "check", files := [("-",
      bs "003@ \x1f0123456789X\x1e045E \x1fe100\x1fEi\x1fHdnb\x1e045E \x1fe110\x1fEi\x1fHdnb\x1e\n")],
      rules := [some (bs "\n            [rule.R001]\n            check = 'duplicates'\n            separator = '+'\n            query = '045E{ E, H }'\n        ")],
      toml := [(bs "\n            [rule.R001]\n            check = 'duplicates'\n            separator = '+'\n            query = '045E{ E, H }'\n        ",
      some [(bs "rule", .table [(bs "R001", .table [(bs "check", .str (bs "duplicates")),
      (bs "separator", .str (bs "+")), (bs "query", .str (bs "045E{ E, H }"))])])])] }
    = ⟨.ok, bs "ppn,rule,level,message\n123456789X,R001,error,i+dnb\n", none, []⟩ := by decide +kernel

-- tests/check/filter.rs, invalid
example : Req.run
    { cmd := "check", files := [("-", bs "003@ \x1f0123456789X\x1e017C \x1fax\x1e\n")],
      rules := [some (bs "\n            [rule.R1]\n            check = \"filter\"\n            filter = '017C.a not in [\"a\",\"d\",\"f\",\"i\",\"m\",\"n\",\"t\"]'\n        ")],
      toml := [(bs "\n            [rule.R1]\n            check = \"filter\"\n            filter = '017C.a not in [\"a\",\"d\",\"f\",\"i\",\"m\",\"n\",\"t\"]'\n        ",
      some [(bs "rule", .table [(bs "R1", .table [(bs "check", .str (bs "filter")), (bs "filter",
      .str (bs "017C.a not in [\"a\",\"d\",\"f\",\"i\",\"m\",\"n\",\"t\"]"))])])])] }
    = ⟨.ok, bs "ppn,rule,level,message\n123456789X,R1,error,\n", none, []⟩ := by decide +kernel

-- tests/check/filter.rs, invert_match
example : Req.run
    { cmd := "check", files := [("-", bs "003@ \x1f0123456789X\x1e012A \x1fadef\x1e\n")],
      rules := [some (bs "\n            [rule.R2]\n            check = \"filter\"\n            filter = '012A.a == \"abc\"'\n            invert-match = true\n        ")],
      toml := [(bs "\n            [rule.R2]\n            check = \"filter\"\n            filter = '012A.a == \"abc\"'\n            invert-match = true\n        ",
      some [(bs "rule", .table [(bs "R2", .table [(bs "check", .str (bs "filter")), (bs "filter",
      .str (bs "012A.a == \"abc\"")), (bs "invert-match", .bool true)])])])] }
    = ⟨.ok, bs "ppn,rule,level,message\n123456789X,R2,error,\n", none, []⟩ := by decide +kernel

-- tests/check/filter.rs, case_ignore
example : Req.run
    { cmd := "check", files := [("-", bs "003@ \x1f0123456789X\x1e012A \x1faABC\x1e\n")],
      rules := [some (bs "\n            [rule.R3]\n            check = \"filter\"\n            filter = '012A.a == \"abc\"'\n            case-ignore = true\n        ")],
      toml := [(bs "\n            [rule.R3]\n            check = \"filter\"\n            filter = '012A.a == \"abc\"'\n            case-ignore = true\n        ",
      some [(bs "rule", .table [(bs "R3", .table [(bs "check", .str (bs "filter")), (bs "filter",
      .str (bs "012A.a == \"abc\"")), (bs "case-ignore", .bool true)])])])] }
    = ⟨.ok, bs "ppn,rule,level,message\n123456789X,R3,error,\n", none, []⟩ := by decide +kernel

-- tests/check/isni.rs, orcid
example : Req.run
    { cmd := "check", files := [("-",
      bs "003@ \x1f0123456789X\x1e028A \x1fy0000-0002-9079-5939\x1e\n")],
      rules := [some (bs "\n            [rule.R1]\n            check = \"isni\"\n            path = \"028[AC]/*.y\"\n        ")],
      toml := [(bs "\n            [rule.R1]\n            check = \"isni\"\n            path = \"028[AC]/*.y\"\n        ",
      some [(bs "rule", .table [(bs "R1", .table [(bs "check", .str (bs "isni")), (bs "path",
      .str (bs "028[AC]/*.y"))])])])] }
    = ⟨.ok, bs "ppn,rule,level,message\n123456789X,R1,error,0000-0002-9079-5939\n", none, []⟩ := by decide +kernel

-- tests/check/isni.rs, isni
example : Req.run
    { cmd := "check", files := [("-",
      bs "003@ \x1f0123456789X\x1e028A \x1fy0000-0001-2146-4389\x1e\n")],
      rules := [some (bs "\n            [rule.R2]\n            check = \"isni\"\n            path = \"028[AC]/*.y\"\n        ")],
      toml := [(bs "\n            [rule.R2]\n            check = \"isni\"\n            path = \"028[AC]/*.y\"\n        ",
      some [(bs "rule", .table [(bs "R2", .table [(bs "check", .str (bs "isni")), (bs "path",
      .str (bs "028[AC]/*.y"))])])])] }
    = ⟨.ok, bs "ppn,rule,level,message\n123456789X,R2,error,0000-0001-2146-4389\n", none, []⟩ := by decide +kernel

-- tests/check/isni.rs, prefix
example : Req.run
    { cmd := "check", files := [("-",
      bs "003@ \x1f0123456789X\x1e028A \x1fy(isni)0000-0001-2146-4389\x1e\n")],
      rules := [some (bs "\n            [rule.R3]\n            check = \"isni\"\n            path = \"028[AC]/*.y\"\n            prefix = \"(isni)\"\n        ")],
      toml := [(bs "\n            [rule.R3]\n            check = \"isni\"\n            path = \"028[AC]/*.y\"\n            prefix = \"(isni)\"\n        ",
      some [(bs "rule", .table [(bs "R3", .table [(bs "check", .str (bs "isni")), (bs "path",
      .str (bs "028[AC]/*.y")), (bs "prefix", .str (bs "(isni)"))])])])] }
    = ⟨.ok, bs "ppn,rule,level,message\n123456789X,R3,error,(isni)0000-0001-2146-4389\n", none, []⟩ := by decide +kernel

-- tests/check/isni.rs, case_ignore
example : Req.run
    { cmd := "check", files := [("-",
      bs "003@ \x1f0123456789X\x1e028A \x1fy(isni)0000-0001-2146-4389\x1e\n")],
      rules := [some (bs "\n            [rule.R3]\n            check = \"isni\"\n            path = '028[AC]/*{ y | y =? \"ISNI\" }'\n            case-ignore = true\n            prefix = \"(isni)\"\n        ")],
      toml := [(bs "\n            [rule.R3]\n            check = \"isni\"\n            path = '028[AC]/*{ y | y =? \"ISNI\" }'\n            case-ignore = true\n            prefix = \"(isni)\"\n        ",
      some [(bs "rule", .table [(bs "R3", .table [(bs "check", .str (bs "isni")), (bs "path",
      .str (bs "028[AC]/*{ y | y =? \"ISNI\" }")), (bs "case-ignore", .bool true), (bs "prefix",
      .str (bs "(isni)"))])])])] }
    = ⟨.ok, bs "ppn,rule,level,message\n123456789X,R3,error,(isni)0000-0001-2146-4389\n", none, []⟩ := by decide +kernel

-- tests/check/iso639.rs, default
example : Req.run
    { cmd := "check", files := [("-", bs "003@ \x1f0123456789X\x1e010@ \x1fadeu\x1e\n")],
      rules := [some (bs "\n            [rule.R001]\n            check = 'iso639-2b'\n            path = '010@.a'\n        ")],
      toml := [(bs "\n            [rule.R001]\n            check = 'iso639-2b'\n            path = '010@.a'\n        ",
      some [(bs "rule", .table [(bs "R001", .table [(bs "check", .str (bs "iso639-2b")), (bs "path",
      .str (bs "010@.a"))])])])] }
    = ⟨.ok, bs "ppn,rule,level,message\n123456789X,R001,error,deu\n", none, []⟩ := by decide +kernel

-- tests/check/iso639.rs, case_ignore
example : Req.run
    { cmd := "check", files := [("-", bs "003@ \x1f0123456789X\x1e010@ \x1fadeu\x1e\n")],
      rules := [some (bs "\n            [rule.R001]\n            check = 'iso639-2b'\n            path = '010@{ a | a in [\"DEU\", \"GER\"]}'\n            case-ignore = true\n        ")],
      toml := [(bs "\n            [rule.R001]\n            check = 'iso639-2b'\n            path = '010@{ a | a in [\"DEU\", \"GER\"]}'\n            case-ignore = true\n        ",
      some [(bs "rule", .table [(bs "R001", .table [(bs "check", .str (bs "iso639-2b")), (bs "path",
      .str (bs "010@{ a | a in [\"DEU\", \"GER\"]}")), (bs "case-ignore", .bool true)])])])] }
    = ⟨.ok, bs "ppn,rule,level,message\n123456789X,R001,error,deu\n", none, []⟩ := by decide +kernel

-- tests/check/jelc.rs, check_jel_default
example : Req.run
    { cmd := "check", files := [("-", bs "003@ \x1f0123456789X\x1e045Z \x1fbjelc\x1fa<D63>\x1e\n")],
      rules := [some (bs "\n            [rule.R001]\n            check = 'jelc'\n            path = '045Z{ a | b == \"jelc\" }'\n        ")],
      toml := [(bs "\n            [rule.R001]\n            check = 'jelc'\n            path = '045Z{ a | b == \"jelc\" }'\n        ",
      some [(bs "rule", .table [(bs "R001", .table [(bs "check", .str (bs "jelc")), (bs "path",
      .str (bs "045Z{ a | b == \"jelc\" }"))])])])] }
    = ⟨.ok, bs "ppn,rule,level,message\n123456789X,R001,error,<D63>\n", none, []⟩ := by decide +kernel

-- tests/check/jelc.rs, check_jel_case_ignore
example : Req.run
    { cmd := "check", files := [("-", bs "003@ \x1f0123456789X\x1e045Z \x1fbjelc\x1fa<D63>\x1e\n")],
      rules := [some (bs "\n            [rule.R001]\n            check = 'jelc'\n            case-ignore = true\n            path = '045Z{ a | b =^ \"JEL\" }'\n        ")],
      toml := [(bs "\n            [rule.R001]\n            check = 'jelc'\n            case-ignore = true\n            path = '045Z{ a | b =^ \"JEL\" }'\n        ",
      some [(bs "rule", .table [(bs "R001", .table [(bs "check", .str (bs "jelc")), (bs "case-ignore",
      .bool true), (bs "path", .str (bs "045Z{ a | b =^ \"JEL\" }"))])])])] }
    = ⟨.ok, bs "ppn,rule,level,message\n123456789X,R001,error,<D63>\n", none, []⟩ := by decide +kernel

-- tests/check/mod.rs, check_skip_invalid
example : Req.run
    { cmd := "check", files := [("/repo/tests/data/invalid.dat", dataInvalidDat),
      ("/repo/tests/data/ada.dat", dataAdaDat)],
      rules := [some (bs "\n            scope = '003@.0 != \"123456789X\"'\n        ")],
      toml := [(bs "\n            scope = '003@.0 != \"123456789X\"'\n        ", some [(bs "scope",
      .str (bs "003@.0 != \"123456789X\""))])] }
    = ⟨.failed, [], none, []⟩ := by decide +kernel

-- tests/check/mod.rs, check_scope
example : Req.run
    { cmd := "check", files := [("-", [0x30, 0x30, 0x33, 0x40, 0x20, 0x1F, 0x30, 0x31, 0x32, 0x33,
      0x34, 0x35, 0x36, 0x37, 0x38, 0x39, 0x58, 0x1E, 0x30, 0x31, 0x32, 0x41, 0x20, 0x1F, 0x30, 0x00,
      0x9F, 0x1E, 0x0A])],
      rules := [some (bs "\n            scope = '003@.0 != \"123456789X\"'\n            \n            [rule.UNICODE]\n            check = \"unicode\"\n        ")],
      toml := [(bs "\n            scope = '003@.0 != \"123456789X\"'\n            \n            [rule.UNICODE]\n            check = \"unicode\"\n        ",
      some [(bs "scope", .str (bs "003@.0 != \"123456789X\"")), (bs "rule", .table [(bs "UNICODE",
      .table [(bs "check", .str (bs "unicode"))])])])] }
    = ⟨.ok, [], none, []⟩ := by decide +kernel

-- tests/check/mod.rs, check_limit
example : Req.run
    { cmd := "check", files := [("/repo/tests/data/ada.dat", dataAdaDat),
      ("/repo/tests/data/invalid.dat", dataInvalidDat)], limit := 1,
      rules := [some (bs "\n            scope = '003@.0 != \"123456789X\"'\n        ")],
      toml := [(bs "\n            scope = '003@.0 != \"123456789X\"'\n        ", some [(bs "scope",
      .str (bs "003@.0 != \"123456789X\""))])] }
    = ⟨.ok, [], none, []⟩ := by decide +kernel

-- tests/check/mod.rs, check_where
example : Req.run
    { cmd := "check", files := [("/repo/tests/data/algebra.dat", dataAlgebraDat),
      ("/repo/tests/data/ada.dat", dataAdaDat)],
      rules := [some (bs "\n            [rule.R001]\n            check = \"filter\"\n            filter = '004B.a != \"pik\"'\n        ")],
      toml := [(bs "\n            [rule.R001]\n            check = \"filter\"\n            filter = '004B.a != \"pik\"'\n        ",
      some [(bs "rule", .table [(bs "R001", .table [(bs "check", .str (bs "filter")), (bs "filter",
      .str (bs "004B.a != \"pik\""))])])])] }
    = ⟨.ok, bs "ppn,rule,level,message\n040011569,R001,error,\n", none, []⟩ := by decide +kernel

-- tests/check/mod.rs, check_termination
example : Req.run
    { cmd := "check", files := [("-", [0x30, 0x30, 0x33, 0x40, 0x20, 0x1F, 0x30, 0x31, 0x32, 0x33,
      0x34, 0x35, 0x36, 0x37, 0x38, 0x39, 0x58, 0x1E, 0x30, 0x31, 0x32, 0x41, 0x20, 0x1F, 0x30, 0x00,
      0x9F, 0x1E, 0x0A])],
      rules := [some (bs "\n            termination = 'default'\n\n            [rule.R001]\n            check = \"unicode\"\n\n            [rule.R002]\n            check = \"unicode\"\n        ")],
      toml := [(bs "\n            termination = 'default'\n\n            [rule.R001]\n            check = \"unicode\"\n\n            [rule.R002]\n            check = \"unicode\"\n        ",
      some [(bs "termination", .str (bs "default")), (bs "rule", .table [(bs "R001",
      .table [(bs "check", .str (bs "unicode"))]), (bs "R002", .table [(bs "check",
      .str (bs "unicode"))])])])] }
    = ⟨.ok, bs "ppn,rule,level,message\n123456789X,R001,error,\n123456789X,R002,error,\n", none, []⟩ := by decide +kernel

-- tests/check/mod.rs, check_translit
example : Req.run
    { cmd := "config", files := [("-", [])], value := some (bs "nfd"), name := bs "normalization" }
    = ⟨.saved ⟨false, some .nfd⟩, [], none, []⟩ := by decide +kernel

-- tests/check/mod.rs, check_rule_filter
example : Req.run
    { cmd := "check", files := [("/repo/tests/data/algebra.dat", dataAlgebraDat),
      ("/repo/tests/data/ada.dat", dataAdaDat)],
      rules := [some (bs "\n            [rule.R001]\n            check = \"filter\"\n            filter = '004B.a != \"pik\"'\n        ")],
      ruleFilter := [bs "^R0\\d+"],
      toml := [(bs "\n            [rule.R001]\n            check = \"filter\"\n            filter = '004B.a != \"pik\"'\n        ",
      some [(bs "rule", .table [(bs "R001", .table [(bs "check", .str (bs "filter")), (bs "filter",
      .str (bs "004B.a != \"pik\""))])])])] }
    = ⟨.ok, bs "ppn,rule,level,message\n040011569,R001,error,\n", none, []⟩ := by decide +kernel

-- tests/check/mod.rs, check_tags_filter
example : Req.run
    { cmd := "check", files := [("/repo/tests/data/ada.dat", dataAdaDat)],
      rules := [some (bs "\n            [rule.R001]\n            check = \"filter\"\n            tags = [\"foo\", \"bar\"]\n            filter = '002@.0 == \"Tp1\"'\n\n            [rule.R002]\n            check = \"filter\"\n            tags = [\"bar\", \"baz\"]\n            filter = '002@.0 == \"Tpz\"'\n        ")],
      toml := [(bs "\n            [rule.R001]\n            check = \"filter\"\n            tags = [\"foo\", \"bar\"]\n            filter = '002@.0 == \"Tp1\"'\n\n            [rule.R002]\n            check = \"filter\"\n            tags = [\"bar\", \"baz\"]\n            filter = '002@.0 == \"Tpz\"'\n        ",
      some [(bs "rule", .table [(bs "R001", .table [(bs "check", .str (bs "filter")), (bs "tags",
      .arr [.str (bs "foo"), .str (bs "bar")]), (bs "filter", .str (bs "002@.0 == \"Tp1\""))]),
      (bs "R002", .table [(bs "check", .str (bs "filter")), (bs "tags", .arr [.str (bs "bar"),
      .str (bs "baz")]), (bs "filter", .str (bs "002@.0 == \"Tpz\""))])])])] }
    = ⟨.ok, bs "ppn,rule,level,message\n119232022,R001,error,\n", none, []⟩ := by decide +kernel

-- tests/check/unicode.rs, invalid
example : Req.run
    { cmd := "check", files := [("-", [0x30, 0x30, 0x33, 0x40, 0x20, 0x1F, 0x30, 0x31, 0x32, 0x33,
      0x34, 0x35, 0x36, 0x37, 0x38, 0x39, 0x58, 0x1E, 0x30, 0x31, 0x32, 0x41, 0x20, 0x1F, 0x30, 0x00,
      0x9F, 0x1E, 0x0A])],
      rules := [some (bs "\n            [rule.UNICODE]\n            check = \"unicode\"\n        ")],
      toml := [(bs "\n            [rule.UNICODE]\n            check = \"unicode\"\n        ",
      some [(bs "rule", .table [(bs "UNICODE", .table [(bs "check", .str (bs "unicode"))])])])] }
    = ⟨.ok, bs "ppn,rule,level,message\n123456789X,UNICODE,error,\n", none, []⟩ := by decide +kernel

-- tests/check/unicode.rs, normalization
example : Req.run
    { cmd := "check", files := [("-", bs "003@ \x1f0123456789X\x1e012A \x1f0ä\x1e\n")],
      rules := [some (bs "\n            [rule.UNICODE]\n            check = \"unicode\"\n            normalization = \"nfd\"\n        ")],
      toml := [(bs "\n            [rule.UNICODE]\n            check = \"unicode\"\n            normalization = \"nfd\"\n        ",
      some [(bs "rule", .table [(bs "UNICODE", .table [(bs "check", .str (bs "unicode")),
      (bs "normalization", .str (bs "nfd"))])])])], tr := [(.nfd, bs "ä", bs "ä")] }
    = ⟨.ok, bs "ppn,rule,level,message\n123456789X,UNICODE,error,ä\n", none, []⟩ := by decide +kernel

end Pica.Conformance
