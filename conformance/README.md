Scripts that translate the tests of the repository into calls of the model.  They are not part of the
proofs.

* `stm.py`, `gen.py`: the unit tests, written to `lean/Verif/Conformance/{Subfield,Field,Rest}.lean`
* `cli.py`: interprets the tests of `crates/pica-cli/tests` and compares with the model.  It starts the
  driver `driver.txt` (Lean, to be saved as `/tmp/conf/driver.lean`) with `lake env lean --run`.
* `emit.py`, `gencmd.py`, `genmods.py`: write some of the calls to
  `lean/Verif/Conformance/{Data,Check,FilterCmd,SelectCmd,OtherCmds}.lean`

The paths in the scripts assume that they are in `/tmp/conf`.
