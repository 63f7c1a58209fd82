import Verif.Model.FieldParser

/-! Models `src/path.rs`. -/

namespace Pica
open Parser

/-- `iter.filter(f).collect()` with a closure that may panic -/
def filterP {α : Type} (f : α → Option Bool) : List α → Option (List α)
  | [] => some []
  | x :: xs =>
    match f x with
    | none => none
    | some b => (filterP f xs).map (fun ys => if b then x :: ys else ys)

/-- `iter.map(f).collect()` with a closure that may panic -/
def mapP {α β : Type} (f : α → Option β) : List α → Option (List β)
  | [] => some []
  | x :: xs =>
    match f x with
    | none => none
    | some y => (mapP f xs).map (fun ys => y :: ys)

/-- `Path`, path.rs:31-37 -/
structure Path where
  tag : TagMatcher
  occ : OccMatcher
  sub : Option SubMatcher
  codes : List Bytes
  raw : Bytes
deriving DecidableEq, Repr

/-- `parse_path_simple`, path.rs:80-105 -/
def pPathSimple : Parser Path :=
  map (fun x => ⟨x.1.1, x.1.2.1, none, [x.1.2.2], x.2⟩)
    (withTaken (ws (seq pTagMatcher (seq pOccMatcher (preceded (byte 0x2E) pCodes)))))

/-- the code lists in braces, path.rs:127-136 (`parse_codes`, 107-119, is
`parse_subfield_codes`) -/
def pPathCodes : Parser (List Bytes) :=
  alt (separated1 pCodes (ws (byte 0x2C)))
    (delimited (ws (byte 0x28)) (separated1 pCodes (ws (byte 0x2C))) (ws (byte 0x29)))

/-- `opt(preceded(ws('|'), parse_subfield_matcher))`, path.rs:137, fmt/parser.rs:26 -/
def pFilterOpt (rx : Bytes → Bool) : TParser (Option SubMatcher) :=
  TParser.opt (TParser.preceded (TParser.lift (ws (byte 0x7C))) (pSubMatcher rx))

/-- `parse_path_curly`, path.rs:121-153 -/
def pPathCurly (rx : Bytes → Bool) : TParser Path :=
  TParser.map (fun x => ⟨x.1.1, x.1.2.1, x.1.2.2.2, x.1.2.2.1, x.2⟩)
    (TParser.withTaken (tws
      (TParser.seq (TParser.lift pTagMatcher)
        (TParser.seq (TParser.lift pOccMatcher)
          (TParser.delimited (TParser.lift (ws (byte 0x7B)))
            (TParser.seq (TParser.lift pPathCodes) (pFilterOpt rx))
            (TParser.lift (ws (byte 0x7D))))))))

/-- `parse_path`, path.rs:155-158 -/
def pPath (rx : Bytes → Bool) : TParser Path :=
  TParser.alt (TParser.lift pPathSimple) (pPathCurly rx)

/-- `Path::new`, path.rs:57-61 -/
def Path.new (rx : Bytes → Bool) (s : Levels) (text : Bytes) : Option Path × Levels :=
  TParser.parseAll (pPath rx) s text

/-- The test of a field in `filter`, path.rs:289-302 (the same in query.rs:140-155
and fmt/mod.rs:417-432): the subfield filter is evaluated only if tag and
occurrence match. -/
def fieldTest (E : Env) (o : Opts) (t : TagMatcher) (oc : OccMatcher) (m : Option SubMatcher)
    (f : Field) : Option Bool :=
  match m with
  | none => some (fieldSel t oc f)
  | some sm => if fieldSel t oc f then sm.eval E o f.subfields else some false

namespace Path

/-- the closure of `filter_map`, path.rs:304-313 -/
def pick (p : Path) (s : Subfield) : Option Bytes :=
  if p.codes.any (fun cs => cs.contains s.code) then some s.value else none

/-- `PathExt::path` for records, path.rs:282-314, collected -/
def values (E : Env) (o : Opts) (p : Path) (r : Record) : Option (List Bytes) :=
  (filterP (fieldTest E o p.tag p.occ p.sub) r).map
    (fun fs => (fs.flatMap Field.subfields).filterMap p.pick)

/-- `PathExt::first`, path.rs:231-238: `path(..).next()`; later fields are not
looked at.  The outer option is a panic. -/
def first (E : Env) (o : Opts) (p : Path) : Record → Option (Option Bytes)
  | [] => some none
  | f :: fs =>
    match fieldTest E o p.tag p.occ p.sub f with
    | none => none
    | some false => first E o p fs
    | some true =>
      match f.subfields.filterMap p.pick with
      | v :: _ => some (some v)
      | [] => first E o p fs

/-- the static path `003@.0` of `ppn`, path.rs:258-259 -/
def ppnPath : Path := ⟨.tag (bs "003@"), .none, none, [bs "0"], bs "003@.0"⟩

end Path

/-- `PathExt::ppn`, path.rs:257-262 -/
def Record.ppn (E : Env) (o : Opts) (r : Record) : Option (Option Bytes) :=
  Path.first E o Path.ppnPath r

/-- `PathExt::path` for `StringRecord`, path.rs:336-346: `to_str().unwrap()` on
each value -/
def Path.stringValues (E : Env) (o : Opts) (p : Path) (r : Record) : Option (List Bytes) :=
  match p.values E o r with
  | none => none
  | some vs => if vs.all utf8Valid then some vs else none

end Pica
