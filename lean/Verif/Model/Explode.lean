import Verif.Model.Command

/-! Models `crates/pica-cli/src/commands/explode.rs`. -/

namespace Pica

/-- the macro `push_record!`, explode.rs:46-65 (the variant without `local` is
the one with an empty `local`) -/
def pushRecord (records : List Record) (main loc acc : Record) : List Record :=
  if acc.isEmpty then records else records ++ [main ++ loc ++ acc]

/-- `if let Some(next) = iter.peek() && next.level() == Level::Local`,
explode.rs:90-92 and 131-133 -/
def peekLocal : List Field → Option Bool
  | [] => some false
  | f :: _ => f.level.map (fun l => decide (l = .local))

/-- `process_main`, explode.rs:67-72 -/
def processMain (r : Record) : Option (List Record) := some [r]

/-- the loop of `process_local`, explode.rs:82-101; `none` is a panic in
`level()` -/
def localLoop : List Field → Record → Record → List Record → Option (List Record)
  | [], main, acc, recs => some (pushRecord recs main [] acc)
  | f :: fs, main, acc, recs =>
    match f.level with
    | none => none
    | some .main => localLoop fs (main ++ [f]) acc recs
    | some .local => localLoop fs main (acc ++ [f]) recs
    | some .copy =>
      match peekLocal fs with
      | none => none
      | some true => localLoop fs main [] (pushRecord recs main [] (acc ++ [f]))
      | some false => localLoop fs main (acc ++ [f]) recs

/-- `process_local`, explode.rs:74-101 -/
def processLocal (r : Record) : Option (List Record) := localLoop r [] [] []

/-- the loop of `process_copy`, explode.rs:113-145 -/
def copyLoop : List Field → Record → Record → Record → Option Bytes → List Record →
    Option (List Record)
  | [], main, loc, cp, _, recs => some (pushRecord recs main loc cp)
  | f :: fs, main, loc, cp, count, recs =>
    match f.level with
    | none => none
    | some .main => copyLoop fs (main ++ [f]) loc cp count recs
    | some .local => copyLoop fs main (loc ++ [f]) cp count recs
    | some .copy =>
      let recs' := if count ≠ f.occ then pushRecord recs main loc cp else recs
      let count' := if count ≠ f.occ then f.occ else count
      let cp' := (if count ≠ f.occ then [] else cp) ++ [f]
      match peekLocal fs with
      | none => none
      | some true => copyLoop fs main [] [] none (pushRecord recs' main loc cp')
      | some false => copyLoop fs main loc cp' count' recs'

/-- `process_copy`, explode.rs:103-146 -/
def processCopy (r : Record) : Option (List Record) := copyLoop r [] [] [] none []

/-- explode.rs:168-172 -/
def explodeRecord : Level → Record → Option (List Record)
  | .main => processMain
  | .local => processLocal
  | .copy => processCopy

/-- the options of `Explode`, explode.rs:14-43 -/
structure ExplodeCmd where
  skip : Bool
  level : Level
  limit : Nat
  sel : Selection
  keep : List FieldPred
  discard : List FieldPred

namespace ExplodeCmd

/-- explode.rs:208-236 -/
def reduce (c : ExplodeCmd) (r : ByteRecord) : ByteRecord :=
  let r := if c.keep.isEmpty then r else r.retain (ByteRecord.keepPred c.keep)
  if c.discard.isEmpty then r else r.retain (ByteRecord.discardPred c.discard)

/-- `for record in process(record)`, explode.rs:187-245 -/
def each (c : ExplodeCmd) : List Record → Bytes × Nat → Step (Bytes × Nat)
  | [], s => .next s
  | x :: xs, s =>
    match ByteRecord.fromBytes (x.flatMap Field.write ++ [LF]) with
    | none => .panic
    | some r =>
      match selBody c.sel.test
          (fun s r => limitStep c.limit (s.2 + 1) (s.1 ++ (c.reduce r).write, s.2 + 1)) s r with
      | .next s' => each c xs s'
      | .stop s' => .stop s'
      | .panic => .panic

/-- explode.rs:185-246 -/
def body (c : ExplodeCmd) (s : Bytes × Nat) (r : ByteRecord) : Step (Bytes × Nat) :=
  match explodeRecord c.level r.record with
  | none => .panic
  | some xs => c.each xs s

/-- `Explode::execute`, explode.rs:148-252: the bytes written and the number of
records -/
def run (c : ExplodeCmd) (files : List (String × Bytes)) : LoopResult (Bytes × Nat) :=
  filesLoop c.skip id c.body files ([], 0)

end ExplodeCmd
end Pica
