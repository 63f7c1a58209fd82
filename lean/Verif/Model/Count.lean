import Verif.Model.Command
import Verif.Model.Files

/-! Models `crates/pica-cli/src/commands/count.rs`. -/

namespace Pica

/-- what `Count` prints, count.rs:14-45 -/
inductive CountFormat
  | records | fields | subfields
  | csv (header : Bool) | tsv (header : Bool) | plain
deriving DecidableEq, Repr

/-- the options of `Count`, count.rs:14-57 -/
structure CountCmd where
  skip : Bool
  format : CountFormat
  sel : Selection

/-- the three counters, count.rs:84-86; overflow of `usize` is not modelled -/
structure CountState where
  records : Nat
  fields : Nat
  subfields : Nat
deriving DecidableEq, Repr

namespace CountCmd

/-- count.rs:114-121 -/
def step (s : CountState) (r : ByteRecord) : CountState :=
  ⟨s.records + 1, s.fields + r.record.length,
    s.subfields + (r.record.map (fun f => f.subfields.length)).sum⟩

/-- the loop, count.rs:88-125 -/
def loop (c : CountCmd) (files : List (String × Bytes)) : LoopResult CountState :=
  filesLoop c.skip id (selBody c.sel.test (fun s r => .next (step s r))) files ⟨0, 0, 0⟩

/-- count.rs:127-146 -/
def report (c : CountCmd) (s : CountState) : Bytes :=
  match c.format with
  | .records => decimal s.records ++ [LF]
  | .fields => decimal s.fields ++ [LF]
  | .subfields => decimal s.subfields ++ [LF]
  | .csv h => (if h then bs "records,fields,subfields" ++ [LF] else []) ++
      (decimal s.records ++ [0x2C] ++ decimal s.fields ++ [0x2C] ++ decimal s.subfields ++ [LF])
  | .tsv h => (if h then bs "records" ++ [0x09] ++ bs "fields" ++ [0x09] ++ bs "subfields" ++ [LF] else []) ++
      (decimal s.records ++ [0x09] ++ decimal s.fields ++ [0x09] ++ decimal s.subfields ++ [LF])
  | .plain => bs "records: " ++ decimal s.records ++ [LF] ++ (bs "fields: " ++ decimal s.fields ++ [LF]) ++
      (bs "subfields: " ++ decimal s.subfields ++ [LF])

/-- `Count::execute`, count.rs:59-151 -/
def run (c : CountCmd) (files : List (String × Bytes)) : LoopResult Bytes :=
  match c.loop files with
  | .ok s => .ok (c.report s)
  | .err e _ => .err e []
  | .panic => .panic

end CountCmd
end Pica
