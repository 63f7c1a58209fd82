import Verif.Conformance.Commands
import Verif.Conformance.Data

/-! The calls in the tests of `select` of the repository, evaluated on the model: what is
written is what the tests expect. Generated from /repo/crates/pica-cli/tests. -/

namespace Pica.Conformance

-- tests/select/format.rs, format_string_simple
example : Req.run
    { cmd := "select", files := [("/repo/tests/data/ada.dat", dataAdaDat)],
      query := bs "003@.0,028A{ a <$> (', ' d <*> ' (' c ')' ) }" }
    = ⟨.ok, bs "119232022,\"Lovelace, Ada King (of)\"\n", none, []⟩ := by decide +kernel

-- tests/select/format.rs, format_string_with_predicate
example : Req.run
    { cmd := "select", files := [("/repo/tests/data/ada.dat", dataAdaDat)],
      query := bs "003@.0,028R{a <$> (', ' d <*> ' (' v ')') | v in ['Vater', 'Mutter']}" }
    = ⟨.ok,
      bs "119232022,\"Byron, George Gordon Byron (Vater)\"\n119232022,\"Byron, Anne Isabella Milbanke Byron (Mutter)\"\n",
      none, []⟩ := by decide +kernel

-- tests/select/format.rs, format_string_uppercase
example : Req.run
    { cmd := "select", files := [("/repo/tests/data/ada.dat", dataAdaDat)],
      query := bs "003@.0,028A{?u a <$> (', ' d <*> ' (' c ')' ) }" }
    = ⟨.ok, bs "119232022,\"LOVELACE, Ada King (of)\"\n", none, []⟩ := by decide +kernel

-- tests/select/format.rs, format_string_lowercase
example : Req.run
    { cmd := "select", files := [("/repo/tests/data/ada.dat", dataAdaDat)],
      query := bs "003@.0,028A{?l a <$> (', ' d <*> ' (' c ')' ) }" }
    = ⟨.ok, bs "119232022,\"lovelace, Ada King (of)\"\n", none, []⟩ := by decide +kernel

-- tests/select/format.rs, format_string_strip_whitespaces
example : Req.run
    { cmd := "select", files := [("/repo/tests/data/ada.dat", dataAdaDat)],
      query := bs "003@.0,028A{ a <$> (?w ', ' d <*> ' (' c ')' ) }" }
    = ⟨.ok, bs "119232022,\"Lovelace,AdaKing(of)\"\n", none, []⟩ := by decide +kernel

-- tests/select/format.rs, format_string_trim
example : Req.run
    { cmd := "select", files := [("/repo/tests/data/ada.dat", dataAdaDat)],
      query := bs "003@.0,028A{a <$> (?t ', ' d <*> ' (' c ') ' ) }" }
    = ⟨.ok, bs "119232022,\"Lovelace, Ada King (of)\"\n", none, []⟩ := by decide +kernel

-- tests/select/format.rs, format_strip_overread_char
example : Req.run
    { cmd := "select", files := [("-", bs "021A \x1fa@abc\x1e\n")], query := bs "021A{?o a }" }
    = ⟨.ok, bs "abc\n", none, []⟩ := by decide +kernel

-- tests/select/mod.rs, select_csv_stdout
example : Req.run
    { cmd := "select", files := [("/repo/tests/data/algebra.dat", dataAlgebraDat),
      ("/repo/tests/data/ada.dat", dataAdaDat)], query := bs "003@.0,002@.0" }
    = ⟨.ok, bs "040011569,Ts1\n119232022,Tp1\n", none, []⟩ := by decide +kernel

-- tests/select/mod.rs, select_tsv_stdout
example : Req.run
    { cmd := "select", files := [("/repo/tests/data/algebra.dat", dataAlgebraDat),
      ("/repo/tests/data/ada.dat", dataAdaDat)], tsv := true, query := bs "003@.0,002@.0" }
    = ⟨.ok, bs "040011569\tTs1\n119232022\tTp1\n", none, []⟩ := by decide +kernel

-- tests/select/mod.rs, select_stdin
example : Req.run
    { cmd := "select", files := [("-", bs "003@ \x1f0123\x1e012B \x1f0bar\x1e\n")],
      query := bs "003@.0,012B.0" }
    = ⟨.ok, bs "123,bar\n", none, []⟩ := by decide +kernel

-- tests/select/mod.rs, select_skip_invalid
example : Req.run
    { cmd := "select", files := [("/repo/tests/data/invalid.dat", dataInvalidDat)],
      query := bs "002@.0" }
    = ⟨.failed, [], none, []⟩ := by decide +kernel

-- tests/select/mod.rs, select_squash
example : Req.run
    { cmd := "select", files := [("/repo/tests/data/math.dat.gz", dataMathDat)], squash := true,
      query := bs "003@.0,008A.a" }
    = ⟨.ok, bs "040379442,s|g\n", none, []⟩ := by decide +kernel

-- tests/select/mod.rs, select_merge
example : Req.run
    { cmd := "select", files := [("/repo/tests/data/algebra.dat", dataAlgebraDat),
      ("/repo/tests/data/ada.dat", dataAdaDat)], merge := true, query := bs "003@.0,008A.a,008B.a" }
    = ⟨.ok, bs "040011569,s,w|z|o\n119232022,s|z|f,w|k|v\n", none, []⟩ := by decide +kernel

-- tests/select/mod.rs, select_no_empty_columns
example : Req.run
    { cmd := "select", files := [("/repo/tests/data/algebra.dat", dataAlgebraDat),
      ("/repo/tests/data/ada.dat", dataAdaDat)], noEmptyColumns := true, query := bs "003@.0,028A.a" }
    = ⟨.ok, bs "119232022,Lovelace\n", none, []⟩ := by decide +kernel

-- tests/select/mod.rs, select_unique
example : Req.run
    { cmd := "select", files := [("/repo/tests/data/math.dat.gz", dataMathDat),
      ("/repo/tests/data/algebra.dat", dataAlgebraDat), ("/repo/tests/data/ada.dat", dataAdaDat)],
      unique := true, query := bs "004B.a" }
    = ⟨.ok, bs "saz\npik\n", none, []⟩ := by decide +kernel

-- tests/select/mod.rs, select_ignore_case
example : Req.run
    { cmd := "select", files := [("/repo/tests/data/algebra.dat", dataAlgebraDat)],
      ignoreCase := true, query := bs "003@.0,041[A@]{ a | a == 'algebra'}" }
    = ⟨.ok, bs "040011569,Algebra\n", none, []⟩ := by decide +kernel

-- tests/select/mod.rs, select_strsim_threshold
example : Req.run
    { cmd := "select", files := [("/repo/tests/data/algebra.dat", dataAlgebraDat)],
      query := bs "003@.0,041[AP]{ a | a =* 'Algebra'}" }
    = ⟨.ok, bs "040011569,Algebra\n040011569,Algebra\n", none, []⟩ := by decide +kernel

-- tests/select/mod.rs, select_limit
example : Req.run
    { cmd := "select", files := [("/repo/tests/data/math.dat.gz", dataMathDat),
      ("/repo/tests/data/algebra.dat", dataAlgebraDat), ("/repo/tests/data/ada.dat", dataAdaDat)],
      limit := 2, query := bs "003@.0,002@.0" }
    = ⟨.ok, bs "040379442,Tsz\n040011569,Ts1\n", none, []⟩ := by decide +kernel

-- tests/select/mod.rs, select_translit
example : Req.run
    { cmd := "select", files := [("/repo/tests/data/algebra.dat", dataAlgebraDat)],
      query := bs "041@{ a | a =^ 'H'}" }
    = ⟨.ok, bs "Höhere Algebra\n", none, []⟩ := by decide +kernel

-- tests/select/mod.rs, select_where
example : Req.run
    { cmd := "select", files := [("/repo/tests/data/algebra.dat", dataAlgebraDat),
      ("/repo/tests/data/ada.dat", dataAdaDat)], pred := some (bs "003@.0 != '040011569'"),
      query := bs "003@.0,002@.0" }
    = ⟨.ok, bs "119232022,Tp1\n", none, []⟩ := by decide +kernel

-- tests/select/mod.rs, select_where_and
example : Req.run
    { cmd := "select", files := [("/repo/tests/data/algebra.dat", dataAlgebraDat),
      ("/repo/tests/data/ada.dat", dataAdaDat)], ands := [bs "002@.0 =^ 'Tp'"],
      pred := some (bs "003@.0 != '040011569'"), query := bs "003@.0,002@.0" }
    = ⟨.ok, bs "119232022,Tp1\n", none, []⟩ := by decide +kernel

-- tests/select/mod.rs, select_where_not
example : Req.run
    { cmd := "select", files := [("/repo/tests/data/algebra.dat", dataAlgebraDat),
      ("/repo/tests/data/ada.dat", dataAdaDat)], nots := [bs "002@.0 == 'Ts1'"],
      pred := some (bs "003@.0 != '040011569'"), query := bs "003@.0,002@.0" }
    = ⟨.ok, bs "119232022,Tp1\n", none, []⟩ := by decide +kernel

-- tests/select/mod.rs, select_where_and_not
example : Req.run
    { cmd := "select", files := [("/repo/tests/data/algebra.dat", dataAlgebraDat),
      ("/repo/tests/data/ada.dat", dataAdaDat)], ands := [bs "002@.0 =^ 'Tp'"],
      nots := [bs "002@.0 == 'Ts1'"], pred := some (bs "003@.0 != '040011569'"),
      query := bs "003@.0,002@.0" }
    = ⟨.ok, bs "119232022,Tp1\n", none, []⟩ := by decide +kernel

-- tests/select/mod.rs, select_where_or
example : Req.run
    { cmd := "select", files := [("/repo/tests/data/algebra.dat", dataAlgebraDat),
      ("/repo/tests/data/ada.dat", dataAdaDat)], ors := [bs "002@.0 == 'Tp1'"],
      pred := some (bs "002@.0 == 'Ts1'"), query := bs "003@.0,002@.0" }
    = ⟨.ok, bs "040011569,Ts1\n119232022,Tp1\n", none, []⟩ := by decide +kernel

-- tests/select/mod.rs, select_deny
example : Req.run
    { cmd := "select", files := [("/repo/tests/data/algebra.dat", dataAlgebraDat),
      ("/repo/tests/data/ada.dat", dataAdaDat)], skip := true, deny := [bs "/T1/deny.csv"],
      query := bs "002@.0", lists := [(bs "/T1/deny.csv", some [(bs "idn", [some (bs "040011569")])])] }
    = ⟨.ok, bs "Tp1\n", none, []⟩ := by decide +kernel

-- tests/select/mod.rs, select_query_const
example : Req.run
    { cmd := "select", files := [("/repo/tests/data/ada.dat", dataAdaDat)],
      query := bs "003@.0, 'abc'" }
    = ⟨.ok, bs "119232022,abc\n", none, []⟩ := by decide +kernel

-- tests/select/mod.rs, select_query_path
example : Req.run
    { cmd := "select", files := [("/repo/tests/data/ada.dat", dataAdaDat)],
      query := bs "003@.0,002@.0" }
    = ⟨.ok, bs "119232022,Tp1\n", none, []⟩ := by decide +kernel

-- tests/select/mod.rs, select_quote_style
example : Req.run
    { cmd := "select", files := [("/repo/tests/data/ada.dat", dataAdaDat)],
      query := bs "028@{ d | d =? ',' }" }
    = ⟨.ok, bs "\"Ada King, Countess of\"\n", none, []⟩ := by decide +kernel

end Pica.Conformance
