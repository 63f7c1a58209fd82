import Verif.Model.Command
import Verif.Model.Concat
import Verif.Model.Utf8

/-! Models `crates/pica-cli/src/commands/print.rs` and `hash.rs`. -/

namespace Pica

/-- the options of `Print`, print.rs:14-33; `translit` is the transliteration -/
structure PrintCmd where
  skip : Bool
  limit : Nat
  translit : Bytes → Bytes
  sel : Selection

/-- text written and `count` -/
structure PrintState where
  out : Bytes
  count : Nat
deriving DecidableEq, Repr

namespace PrintCmd

/-- print.rs:86-94; `none` if `to_str().unwrap()` panics -/
def subfields (translit : Bytes → Bytes) : List Subfield → Option Bytes
  | [] => some []
  | s :: ss =>
    if utf8Valid s.value then
      (subfields translit ss).map (fun t => bs " $" ++ [s.code] ++ bs " " ++ translit s.value ++ t)
    else none

/-- print.rs:80-97 -/
def fields (translit : Bytes → Bytes) : List Field → Option Bytes
  | [] => some []
  | f :: fs =>
    match subfields translit f.subfields with
    | none => none
    | some t => (fields translit fs).map (fun u => f.tag ++ writeOcc f.occ ++ t ++ [LF] ++ u)

/-- print.rs:78-99 -/
def record (translit : Bytes → Bytes) (r : Record) : Option Bytes :=
  (fields translit r).map (fun t => t ++ [LF])

/-- the two tests, in the order of print.rs:68-76 -/
def test (s : Selection) (r : ByteRecord) : Option Bool :=
  match (match s.matcher with
    | none => some true
    | some m => m.eval s.E s.o r.record) with
  | none => none
  | some false => some false
  | some true => s.set.check s.E₀ r.record

/-- `Print::execute`, print.rs:36-118 -/
def run (c : PrintCmd) (files : List (String × Bytes)) : LoopResult PrintState :=
  filesLoop c.skip id
    (selBody (test c.sel)
      (resultBody c.limit PrintState.count (fun r => record c.translit r.record)
        (fun s t => ⟨s.out ++ t, s.count + 1⟩)))
    files ⟨[], 0⟩

end PrintCmd

/-- hash.rs:92-98 -/
def hexText (d : Bytes) : Bytes := d.flatMap hexByte

/-- the options of `Hash`, hash.rs:12-41; `sha` is SHA-256, `lossy` is `to_string`.
The header and the CSV encoding are in Model/Csv. -/
structure HashCmd where
  skip : Bool
  limit : Nat
  sha : Bytes → Bytes
  lossy : Bytes → Bytes
  sel : Selection

/-- rows written and `count` -/
structure HashState where
  out : List (Bytes × Bytes)
  count : Nat
deriving DecidableEq, Repr

namespace HashCmd

/-- the row of a record, hash.rs:92-107 -/
def row (c : HashCmd) (r : ByteRecord) : Option (Bytes × Bytes) :=
  (r.record.ppn c.sel.E₀ ⟨false⟩).map (fun ppn => (c.lossy (ppn.getD []), hexText (c.sha r.shaInput)))

/-- `Hash::execute`, hash.rs:44-124 -/
def run (c : HashCmd) (files : List (String × Bytes)) : LoopResult HashState :=
  filesLoop c.skip id
    (selBody c.sel.test
      (resultBody c.limit HashState.count c.row (fun s x => ⟨s.out ++ [x], s.count + 1⟩)))
    files ⟨[], 0⟩

end HashCmd
end Pica
