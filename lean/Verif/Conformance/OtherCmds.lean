import Verif.Conformance.Commands
import Verif.Conformance.Data

/-! The calls in the tests of `concat`, `config`, `convert`, `count`, `explode`, `frequency`, `hash`, `invalid`, `partition`, `print`, `sample`, `split` of the repository, evaluated on the model: what is
written is what the tests expect. Generated from /repo/crates/pica-cli/tests. -/

namespace Pica.Conformance

-- tests/concat/mod.rs, single_file_write_stdout
example : Req.run
    { cmd := "concat", files := [("/repo/tests/data/ada.dat", dataAdaDat)] }
    = ⟨.ok, dataAdaDat, none, []⟩ := by decide +kernel

-- tests/concat/mod.rs, read_stdin
example : Req.run
    { cmd := "concat", files := [("-", dataAdaDat)] }
    = ⟨.ok, dataAdaDat, none, []⟩ := by decide +kernel

-- tests/concat/mod.rs, write_gzip
example : Req.run
    { cmd := "concat", files := [("/T1/out.dat.gz", dataAdaDat)] }
    = ⟨.ok, dataAdaDat, none, []⟩ := by decide +kernel

-- tests/concat/mod.rs, single_file_write_tee
example : Req.run
    { cmd := "concat", files := [("/repo/tests/data/ada.dat", dataAdaDat)], tee := true }
    = ⟨.ok, dataAdaDat, some (dataAdaDat), []⟩ := by decide +kernel

-- tests/concat/mod.rs, skip_invalid
example : Req.run
    { cmd := "concat", files := [("/repo/tests/data/invalid.dat", dataInvalidDat),
      ("/repo/tests/data/ada.dat", dataAdaDat)], skip := true }
    = ⟨.ok, dataAdaDat, none, []⟩ := by decide +kernel

-- tests/config/mod.rs, get_option
example : Req.run
    { cmd := "config", files := [("-", [])], name := bs "skip-invalid" }
    = ⟨.ok, bs "false\n", none, []⟩ := by decide +kernel

-- tests/config/mod.rs, unset_option
example : Req.run
    { cmd := "config", files := [("-", [])], name := bs "normalization" }
    = ⟨.ok, bs "None\n", none, []⟩ := by decide +kernel

-- tests/config/mod.rs, invalid_option
example : Req.run
    { cmd := "config", files := [("-", [])], value := some (bs "true"), name := bs "foobar" }
    = ⟨.refused, [], none, []⟩ := by decide +kernel

-- tests/convert/mod.rs, convert_from_plus_to_json
example : Req.run
    { cmd := "convert", files := [("/repo/tests/data/ada.dat", dataAdaDat)], «to» := .json }
    = ⟨.ok, dataAdaJson, none, []⟩ := by decide +kernel

-- tests/convert/mod.rs, convert_from_plus_to_plus
example : Req.run
    { cmd := "convert", files := [("/repo/tests/data/ada.dat", dataAdaDat)] }
    = ⟨.ok, dataAdaDat, none, []⟩ := by decide +kernel

-- tests/convert/mod.rs, convert_from_plus_to_plain
example : Req.run
    { cmd := "convert", files := [("/repo/tests/data/ada.dat", dataAdaDat)], «to» := .plain }
    = ⟨.ok, dataAdaPlain, none, []⟩ := by decide +kernel

-- tests/convert/mod.rs, convert_from_plus_to_import
example : Req.run
    { cmd := "convert", files := [("/repo/tests/data/ada.dat", dataAdaDat)], «to» := .«import» }
    = ⟨.ok, dataAdaImport, none, []⟩ := by decide +kernel

-- tests/convert/mod.rs, convert_from_plus_to_binary
example : Req.run
    { cmd := "convert", files := [("/repo/tests/data/ada.dat", dataAdaDat)], «to» := .binary }
    = ⟨.ok, dataAdaBin, none, []⟩ := by decide +kernel

-- tests/convert/mod.rs, convert_skip_invalid
example : Req.run
    { cmd := "convert", files := [("/repo/tests/data/invalid.dat", dataInvalidDat)], skip := true,
      «to» := .json }
    = ⟨.ok, bs "[]", none, []⟩ := by decide +kernel

-- tests/count/mod.rs, count_skip_invalid
example : Req.run
    { cmd := "count", files := [("/repo/tests/data/invalid.dat", dataInvalidDat)], skip := true,
      records := true }
    = ⟨.ok, bs "0\n", none, []⟩ := by decide +kernel

-- tests/explode/mod.rs, explode_stdout
example : Req.run
    { cmd := "explode", files := [("/repo/tests/data/ada.dat", dataAdaDat)], level := .main }
    = ⟨.ok, dataAdaDat, none, []⟩ := by decide +kernel

-- tests/explode/mod.rs, explode_local
example : Req.run
    { cmd := "explode", files := [("/repo/tests/data/COPY.dat.gz", dataCOPYDat)], level := .«local» }
    = ⟨.ok,
      bs "003@ \x1f0123456789\x1e002@ \x1f0Abvz\x1e101@ \x1fa1\x1e203@/01 \x1f00123456789\x1e203@/02 \x1f01234567890\x1e\n003@ \x1f0123456789\x1e002@ \x1f0Abvz\x1e101@ \x1fa2\x1e203@/01 \x1f0345678901\x1e\n",
      none, []⟩ := by decide +kernel

-- tests/explode/mod.rs, explode_copy
example : Req.run
    { cmd := "explode", files := [("/repo/tests/data/COPY.dat.gz", dataCOPYDat)], level := .copy }
    = ⟨.ok,
      bs "003@ \x1f0123456789\x1e002@ \x1f0Abvz\x1e101@ \x1fa1\x1e203@/01 \x1f00123456789\x1e\n003@ \x1f0123456789\x1e002@ \x1f0Abvz\x1e101@ \x1fa1\x1e203@/02 \x1f01234567890\x1e\n003@ \x1f0123456789\x1e002@ \x1f0Abvz\x1e101@ \x1fa2\x1e203@/01 \x1f0345678901\x1e\n",
      none, []⟩ := by decide +kernel

-- tests/explode/mod.rs, explode_gzip
example : Req.run
    { cmd := "explode", files := [("/repo/tests/data/ada.dat", dataAdaDat)], gzip := true,
      level := .main }
    = ⟨.ok, dataAdaDat, none, []⟩ := by decide +kernel

-- tests/explode/mod.rs, explode_limit
example : Req.run
    { cmd := "explode", files := [("/repo/tests/data/COPY.dat.gz", dataCOPYDat)], limit := 2,
      level := .copy }
    = ⟨.ok,
      bs "003@ \x1f0123456789\x1e002@ \x1f0Abvz\x1e101@ \x1fa1\x1e203@/01 \x1f00123456789\x1e\n003@ \x1f0123456789\x1e002@ \x1f0Abvz\x1e101@ \x1fa1\x1e203@/02 \x1f01234567890\x1e\n",
      none, []⟩ := by decide +kernel

-- tests/explode/mod.rs, explode_skip_invalid
example : Req.run
    { cmd := "explode", files := [("/repo/tests/data/invalid.dat", dataInvalidDat)], level := .main }
    = ⟨.failed, [], none, []⟩ := by decide +kernel

-- tests/explode/mod.rs, explode_where
example : Req.run
    { cmd := "explode", files := [("/repo/tests/data/COPY.dat.gz", dataCOPYDat)],
      pred := some (bs "101@.a == '1'"), level := .copy }
    = ⟨.ok,
      bs "003@ \x1f0123456789\x1e002@ \x1f0Abvz\x1e101@ \x1fa1\x1e203@/01 \x1f00123456789\x1e\n003@ \x1f0123456789\x1e002@ \x1f0Abvz\x1e101@ \x1fa1\x1e203@/02 \x1f01234567890\x1e\n",
      none, []⟩ := by decide +kernel

-- tests/explode/mod.rs, explode_where_and
example : Req.run
    { cmd := "explode", files := [("/repo/tests/data/COPY.dat.gz", dataCOPYDat)],
      ands := [bs "002@.0 == 'Abvz'"], pred := some (bs "101@.a == '1'"), level := .copy }
    = ⟨.ok,
      bs "003@ \x1f0123456789\x1e002@ \x1f0Abvz\x1e101@ \x1fa1\x1e203@/01 \x1f00123456789\x1e\n003@ \x1f0123456789\x1e002@ \x1f0Abvz\x1e101@ \x1fa1\x1e203@/02 \x1f01234567890\x1e\n",
      none, []⟩ := by decide +kernel

-- tests/explode/mod.rs, explode_where_and_not
example : Req.run
    { cmd := "explode", files := [("/repo/tests/data/COPY.dat.gz", dataCOPYDat)],
      ands := [bs "002@.0 == 'Abvz'"], nots := [bs "203@/*.0 == '1234567890'"],
      pred := some (bs "101@.a == '1'"), level := .copy }
    = ⟨.ok,
      bs "003@ \x1f0123456789\x1e002@ \x1f0Abvz\x1e101@ \x1fa1\x1e203@/01 \x1f00123456789\x1e\n",
      none, []⟩ := by decide +kernel

-- tests/explode/mod.rs, explode_where_not
example : Req.run
    { cmd := "explode", files := [("/repo/tests/data/COPY.dat.gz", dataCOPYDat)],
      nots := [bs "203@/*.0 =$ '0'"], pred := some (bs "101@.a == '1'"), level := .copy }
    = ⟨.ok,
      bs "003@ \x1f0123456789\x1e002@ \x1f0Abvz\x1e101@ \x1fa1\x1e203@/01 \x1f00123456789\x1e\n",
      none, []⟩ := by decide +kernel

-- tests/explode/mod.rs, explode_where_or
example : Req.run
    { cmd := "explode", files := [("/repo/tests/data/COPY.dat.gz", dataCOPYDat)],
      ors := [bs "203@/*.0 == '345678901'"], pred := some (bs "203@/*.0 == '0123456789'"),
      level := .copy }
    = ⟨.ok,
      bs "003@ \x1f0123456789\x1e002@ \x1f0Abvz\x1e101@ \x1fa1\x1e203@/01 \x1f00123456789\x1e\n003@ \x1f0123456789\x1e002@ \x1f0Abvz\x1e101@ \x1fa2\x1e203@/01 \x1f0345678901\x1e\n",
      none, []⟩ := by decide +kernel

-- tests/explode/mod.rs, explode_allow
example : Req.run
    { cmd := "explode", files := [("/repo/tests/data/COPY.dat.gz", dataCOPYDat)],
      allow := [bs "/T1/ALLOW.csv"], level := .main, lists := [(bs "/T1/ALLOW.csv", some [(bs "ppn",
      [some (bs "123456789")])])] }
    = ⟨.ok, dataCOPYDat, none, []⟩ := by decide +kernel

-- tests/explode/mod.rs, explode_deny
example : Req.run
    { cmd := "explode", files := [("/repo/tests/data/COPY.dat.gz", dataCOPYDat)],
      deny := [bs "/T1/ALLOW.csv"], level := .main, lists := [(bs "/T1/ALLOW.csv", some [(bs "ppn",
      [some (bs "123456789")])])] }
    = ⟨.ok, [], none, []⟩ := by decide +kernel

-- tests/explode/mod.rs, explode_filter_set_column
example : Req.run
    { cmd := "explode", files := [("/repo/tests/data/COPY.dat.gz", dataCOPYDat)],
      allow := [bs "/T1/ALLOW.csv"], column := some (bs "id"), level := .main,
      lists := [(bs "/T1/ALLOW.csv", some [(bs "id", [some (bs "123456789")])])] }
    = ⟨.ok, dataCOPYDat, none, []⟩ := by decide +kernel

-- tests/explode/mod.rs, explode_filter_set_source
example : Req.run
    { cmd := "explode", files := [("/repo/tests/data/COPY.dat.gz", dataCOPYDat)],
      allow := [bs "/T1/ALLOW.csv"], column := some (bs "eln"), source := some (bs "203@/*.0"),
      level := .copy, lists := [(bs "/T1/ALLOW.csv", some [(bs "eln", [some (bs "345678901")])])] }
    = ⟨.ok, bs "003@ \x1f0123456789\x1e002@ \x1f0Abvz\x1e101@ \x1fa2\x1e203@/01 \x1f0345678901\x1e\n",
      none, []⟩ := by decide +kernel

-- tests/explode/mod.rs, explode_keep
example : Req.run
    { cmd := "explode", files := [("/repo/tests/data/COPY.dat.gz", dataCOPYDat)],
      keep := some (bs "003@,101@,203@/*"), level := .«local» }
    = ⟨.ok,
      bs "003@ \x1f0123456789\x1e101@ \x1fa1\x1e203@/01 \x1f00123456789\x1e203@/02 \x1f01234567890\x1e\n003@ \x1f0123456789\x1e101@ \x1fa2\x1e203@/01 \x1f0345678901\x1e\n",
      none, []⟩ := by decide +kernel

-- tests/explode/mod.rs, explode_discard
example : Req.run
    { cmd := "explode", files := [("/repo/tests/data/COPY.dat.gz", dataCOPYDat)],
      discard := some (bs "002@"), level := .«local» }
    = ⟨.ok,
      bs "003@ \x1f0123456789\x1e101@ \x1fa1\x1e203@/01 \x1f00123456789\x1e203@/02 \x1f01234567890\x1e\n003@ \x1f0123456789\x1e101@ \x1fa2\x1e203@/01 \x1f0345678901\x1e\n",
      none, []⟩ := by decide +kernel

-- tests/frequency/mod.rs, frequency_skip_invalid
example : Req.run
    { cmd := "frequency", files := [("/repo/tests/data/invalid.dat", dataInvalidDat)],
      query := bs "002@.0" }
    = ⟨.failed, [], none, []⟩ := by decide +kernel

-- tests/frequency/mod.rs, frequency_unique
example : Req.run
    { cmd := "frequency", files := [("-", bs "003@ \x1f0118540238\x1e012A \x1f0abc\x1f0abc\x1e\n")],
      query := bs "012A.0" }
    = ⟨.ok, bs "abc,2\n", none, []⟩ := by decide +kernel

-- tests/frequency/mod.rs, frequency_squash
example : Req.run
    { cmd := "frequency", files := [("/repo/tests/data/ada.dat", dataAdaDat)], query := bs "008A.a" }
    = ⟨.ok, bs "f,1\ns,1\nz,1\n", none, []⟩ := by decide +kernel

-- tests/frequency/mod.rs, frequency_merge
example : Req.run
    { cmd := "frequency", files := [("/repo/tests/data/ada.dat", dataAdaDat)], query := bs "008[AB].a" }
    = ⟨.ok, bs "f,1\nk,1\ns,1\nv,1\nw,1\nz,1\n", none, []⟩ := by decide +kernel

-- tests/frequency/mod.rs, frequency_where
example : Req.run
    { cmd := "frequency", files := [("/repo/tests/data/algebra.dat", dataAlgebraDat),
      ("/repo/tests/data/ada.dat", dataAdaDat)], skip := true, pred := some (bs "002@.0 =^ 'Ts'"),
      query := bs "002@.0" }
    = ⟨.ok, bs "Ts1,1\n", none, []⟩ := by decide +kernel

-- tests/frequency/mod.rs, frequency_where_and
example : Req.run
    { cmd := "frequency", files := [("/repo/tests/data/algebra.dat", dataAlgebraDat),
      ("/repo/tests/data/ada.dat", dataAdaDat)], skip := true, ands := [bs "002@.0 =$ 's1'"],
      pred := some (bs "002@.0 =^ 'T'"), query := bs "002@.0" }
    = ⟨.ok, bs "Ts1,1\n", none, []⟩ := by decide +kernel

-- tests/frequency/mod.rs, frequency_where_not
example : Req.run
    { cmd := "frequency", files := [("/repo/tests/data/algebra.dat", dataAlgebraDat),
      ("/repo/tests/data/ada.dat", dataAdaDat)], skip := true, nots := [bs "002@.0 == 'Tp1'"],
      pred := some (bs "002@.0 =^ 'T'"), query := bs "002@.0" }
    = ⟨.ok, bs "Ts1,1\n", none, []⟩ := by decide +kernel

-- tests/frequency/mod.rs, frequency_where_and_not
example : Req.run
    { cmd := "frequency", files := [("/repo/tests/data/algebra.dat", dataAlgebraDat),
      ("/repo/tests/data/ada.dat", dataAdaDat)], skip := true, ands := [bs "002@.0 =$ 's1'"],
      nots := [bs "002@.0 == 'Tp1'"], pred := some (bs "002@.0 =^ 'T'"), query := bs "002@.0" }
    = ⟨.ok, bs "Ts1,1\n", none, []⟩ := by decide +kernel

-- tests/frequency/mod.rs, frequency_translit
example : Req.run
    { cmd := "frequency", files := [("/repo/tests/data/algebra.dat", dataAlgebraDat)],
      query := bs "041@{ a | a =^ 'H'}" }
    = ⟨.ok, bs "Höhere Algebra,1\n", none, []⟩ := by decide +kernel

-- tests/frequency/mod.rs, frequency_deny
example : Req.run
    { cmd := "frequency", files := [("/repo/tests/data/algebra.dat", dataAlgebraDat),
      ("/repo/tests/data/ada.dat", dataAdaDat)], skip := true, deny := [bs "/T1/deny.csv"],
      query := bs "002@.0", lists := [(bs "/T1/deny.csv", some [(bs "ppn", [some (bs "040011569")])])] }
    = ⟨.ok, bs "Tp1,1\n", none, []⟩ := by decide +kernel

-- tests/hash/mod.rs, hash_single_record
example : Req.run
    { cmd := "hash", files := [("/repo/tests/data/ada.dat", dataAdaDat)], sha := [(dataAdaDat, [0x0F,
      0xF4, 0xC1, 0x24, 0xBB, 0x89, 0xF2, 0x7F, 0xB7, 0x35, 0x49, 0x84, 0x06, 0x54, 0xA0, 0xC0, 0xB6,
      0xCB, 0x7B, 0x4D, 0x66, 0xDC, 0x6A, 0x20, 0xA5, 0x7A, 0x4D, 0x49, 0x89, 0x5D, 0x62, 0xCA])] }
    = ⟨.ok,
      bs "ppn,hash\n119232022,0ff4c124bb89f27fb73549840654a0c0b6cb7b4d66dc6a20a57a4d49895d62ca\n",
      none, []⟩ := by decide +kernel

-- tests/hash/mod.rs, hash_tsv
example : Req.run
    { cmd := "hash", files := [("/repo/tests/data/ada.dat", dataAdaDat)], tsv := true,
      sha := [(dataAdaDat, [0x0F, 0xF4, 0xC1, 0x24, 0xBB, 0x89, 0xF2, 0x7F, 0xB7, 0x35, 0x49, 0x84,
      0x06, 0x54, 0xA0, 0xC0, 0xB6, 0xCB, 0x7B, 0x4D, 0x66, 0xDC, 0x6A, 0x20, 0xA5, 0x7A, 0x4D, 0x49,
      0x89, 0x5D, 0x62, 0xCA])] }
    = ⟨.ok,
      bs "ppn\thash\n119232022\t0ff4c124bb89f27fb73549840654a0c0b6cb7b4d66dc6a20a57a4d49895d62ca\n",
      none, []⟩ := by decide +kernel

-- tests/hash/mod.rs, hash_skip_invalid
example : Req.run
    { cmd := "hash", files := [("/repo/tests/data/invalid.dat", dataInvalidDat)], skip := true }
    = ⟨.ok, bs "ppn,hash\n", none, []⟩ := by decide +kernel

-- tests/hash/mod.rs, hash_header
example : Req.run
    { cmd := "hash", files := [("/repo/tests/data/ada.dat", dataAdaDat)],
      header := some (bs "idn,sha256"), sha := [(dataAdaDat, [0x0F, 0xF4, 0xC1, 0x24, 0xBB, 0x89,
      0xF2, 0x7F, 0xB7, 0x35, 0x49, 0x84, 0x06, 0x54, 0xA0, 0xC0, 0xB6, 0xCB, 0x7B, 0x4D, 0x66, 0xDC,
      0x6A, 0x20, 0xA5, 0x7A, 0x4D, 0x49, 0x89, 0x5D, 0x62, 0xCA])] }
    = ⟨.ok,
      bs "idn,sha256\n119232022,0ff4c124bb89f27fb73549840654a0c0b6cb7b4d66dc6a20a57a4d49895d62ca\n",
      none, []⟩ := by decide +kernel

-- tests/invalid/mod.rs, read_file_write_file
example : Req.run
    { cmd := "invalid", files := [("/repo/tests/data/invalid.dat", dataInvalidDat)] }
    = ⟨.ok, dataInvalidDat, none, []⟩ := by decide +kernel

-- tests/invalid/mod.rs, read_stdin_write_file
example : Req.run
    { cmd := "invalid", files := [("-", dataInvalidDat)] }
    = ⟨.ok, dataInvalidDat, none, []⟩ := by decide +kernel

-- tests/invalid/mod.rs, read_multiple_files
example : Req.run
    { cmd := "invalid", files := [("/repo/tests/data/ada.dat", dataAdaDat),
      ("/repo/tests/data/invalid.dat", dataInvalidDat), ("/repo/tests/data/ada.dat", dataAdaDat)] }
    = ⟨.ok, dataInvalidDat, none, []⟩ := by decide +kernel

-- tests/partition/mod.rs, partition_stdin
example : Req.run
    { cmd := "partition", files := [("-", dataAdaDat)], path := bs "003@.0" }
    = ⟨.ok, [], none, [(bs "119232022.dat", dataAdaDat)]⟩ := by decide +kernel

-- tests/partition/mod.rs, multiple_partitions
example : Req.run
    { cmd := "partition", files := [("/repo/tests/data/ada.dat", dataAdaDat)], path := bs "042A.a" }
    = ⟨.ok, [], none, [(bs "28p.dat", dataAdaDat), (bs "9.5p.dat", dataAdaDat)]⟩ := by decide +kernel

-- tests/print/mod.rs, print_stdout
example : Req.run
    { cmd := "print", files := [("/repo/tests/data/ada.dat", dataAdaDat)] }
    = ⟨.ok, dataAdaTxt, none, []⟩ := by decide +kernel

-- tests/print/mod.rs, print_limit
example : Req.run
    { cmd := "print", files := [("/repo/tests/data/ada.dat", dataAdaDat),
      ("/repo/tests/data/algebra.dat", dataAlgebraDat)], limit := 1 }
    = ⟨.ok, dataAdaTxt, none, []⟩ := by decide +kernel

-- tests/print/mod.rs, print_where
example : Req.run
    { cmd := "print", files := [("/repo/tests/data/ada.dat", dataAdaDat)],
      pred := some (bs "003@.0 == \"119232022\"") }
    = ⟨.ok, dataAdaTxt, none, []⟩ := by decide +kernel

-- tests/print/mod.rs, print_where_and
example : Req.run
    { cmd := "print", files := [("/repo/tests/data/ada.dat", dataAdaDat)],
      ands := [bs "002@.0 == \"Tp1\""], pred := some (bs "003@.0 == \"119232022\"") }
    = ⟨.ok, dataAdaTxt, none, []⟩ := by decide +kernel

-- tests/print/mod.rs, print_where_and_not
example : Req.run
    { cmd := "print", files := [("/repo/tests/data/ada.dat", dataAdaDat)],
      ands := [bs "002@.0 == \"Tp1\""], nots := [bs "002@.0 == \"Tpz\""],
      pred := some (bs "003@.0 == \"119232022\"") }
    = ⟨.ok, dataAdaTxt, none, []⟩ := by decide +kernel

-- tests/print/mod.rs, print_where_or
example : Req.run
    { cmd := "print", files := [("/repo/tests/data/ada.dat", dataAdaDat)],
      ors := [bs "003@.0 == \"119232022\""], pred := some (bs "003@.0 == \"119232023\"") }
    = ⟨.ok, dataAdaTxt, none, []⟩ := by decide +kernel

-- tests/print/mod.rs, print_where_not
example : Req.run
    { cmd := "print", files := [("/repo/tests/data/ada.dat", dataAdaDat)],
      nots := [bs "002@.0 == \"Tpz\""], pred := some (bs "003@.0 == \"119232022\"") }
    = ⟨.ok, dataAdaTxt, none, []⟩ := by decide +kernel

-- tests/print/mod.rs, print_allow
example : Req.run
    { cmd := "print", files := [("/repo/tests/data/algebra.dat", dataAlgebraDat),
      ("/repo/tests/data/ada.dat", dataAdaDat)], allow := [bs "/T1/ALLOW.csv"],
      lists := [(bs "/T1/ALLOW.csv", some [(bs "ppn", [some (bs "119232022")])])] }
    = ⟨.ok, dataAdaTxt, none, []⟩ := by decide +kernel

-- tests/print/mod.rs, print_deny
example : Req.run
    { cmd := "print", files := [("/repo/tests/data/algebra.dat", dataAlgebraDat),
      ("/repo/tests/data/ada.dat", dataAdaDat)], deny := [bs "/T1/DENY.csv"],
      lists := [(bs "/T1/DENY.csv", some [(bs "ppn", [some (bs "040011569")])])] }
    = ⟨.ok, dataAdaTxt, none, []⟩ := by decide +kernel

-- tests/print/mod.rs, print_translit_nfd
example : Req.run
    { cmd := "print", files := [("/repo/tests/data/algebra.dat", dataAlgebraDat)], nf := some .nfd,
      tr := [] }
    = ⟨.ok, dataAlgebraTxt, none, []⟩ := by decide +kernel

-- tests/print/mod.rs, print_translit_nfkd
example : Req.run
    { cmd := "print", files := [("/repo/tests/data/algebra.dat", dataAlgebraDat)], nf := some .nfkd,
      tr := [] }
    = ⟨.ok, dataAlgebraTxt, none, []⟩ := by decide +kernel

-- tests/print/mod.rs, print_skip_invalid
example : Req.run
    { cmd := "print", files := [("/repo/tests/data/invalid.dat", dataInvalidDat),
      ("/repo/tests/data/ada.dat", dataAdaDat)], skip := true }
    = ⟨.ok, dataAdaTxt, none, []⟩ := by decide +kernel

-- tests/sample/mod.rs, sample_stdout
example : Req.run
    { cmd := "sample", files := [("/repo/tests/data/ada.dat", dataAdaDat)], size := 1 }
    = ⟨.ok, dataAdaDat, none, []⟩ := by decide +kernel

-- tests/sample/mod.rs, sample_gzip
example : Req.run
    { cmd := "sample", files := [("/repo/tests/data/ada.dat", dataAdaDat)], size := 2 }
    = ⟨.ok, dataAdaDat, none, []⟩ := by decide +kernel

-- tests/split/mod.rs, split_skip_invalid
example : Req.run
    { cmd := "split", files := [("/repo/tests/data/invalid.dat", dataInvalidDat),
      ("/repo/tests/data/ada.dat", dataAdaDat)], skip := true, chunkSize := 5 }
    = ⟨.ok, [], none, [(bs "0.dat", dataAdaDat)]⟩ := by decide +kernel

end Pica.Conformance
