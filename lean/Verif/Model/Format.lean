import Verif.Model.Path

/-! Models `src/fmt/mod.rs` and `src/fmt/parser.rs`. -/

namespace Pica
open Parser

/-- functions of other crates used by formats, besides those of `Env` -/
structure FmtEnv extends Env where
  /-- `bstr::ByteSlice::trim` -/
  trim : Bytes → Bytes
  /-- `bstr::ByteSlice::to_uppercase` -/
  upper : Bytes → Bytes

/-- `FormatOptions`, fmt/mod.rs:66-75 -/
structure FmtOpts where
  strip : Bool
  caseIgnore : Bool
deriving DecidableEq, Repr

/-- `From<&FormatOptions> for MatcherOptions`, fmt/mod.rs:142-150 -/
def FmtOpts.opts (o : FmtOpts) : Opts := ⟨o.caseIgnore⟩

/-- `Modifier`, fmt/mod.rs:286-303 -/
structure Modifier where
  lowercase : Bool
  uppercase : Bool
  removeWs : Bool
  trim : Bool
  strip : Bool
deriving DecidableEq, Repr

/-- `Modifier::default()` -/
def Modifier.default : Modifier := ⟨false, false, false, false, false⟩

/-- `Value`, fmt/mod.rs:197-204; `bound` is the end of the range -/
structure FmtValue where
  codes : Bytes
  pre : Option Bytes
  suf : Option Bytes
  bound : Nat
  modifier : Modifier
deriving DecidableEq, Repr

/-- `Fragments`, `Group`, `List`, fmt/mod.rs:152-157, 173-178, 248-252 -/
inductive Fragments where
  | group (f : Fragments) (bound : Nat) (modifier : Modifier)
  | value (v : FmtValue)
  | andThen (fs : List Fragments)
  | cons (fs : List Fragments)
deriving Repr

/-- `Format`, fmt/mod.rs:21-28 -/
structure Format where
  tag : TagMatcher
  occ : OccMatcher
  sub : Option SubMatcher
  raw : Bytes
  fragments : Fragments
deriving Repr

/-- `value.replacen("@", "", 1)` -/
def stripOverread : Bytes → Bytes
  | [] => []
  | b :: r => if b == 0x40 then r else b :: stripOverread r

/-- `Modifier::modify`, fmt/mod.rs:334-354 -/
def Modifier.modify (E : FmtEnv) (m : Modifier) (v : Bytes) : Bytes :=
  let v := if m.strip then stripOverread v else v
  let v := if m.trim then E.trim v else v
  let v := if m.removeWs then v.filter (fun b => b != 0x20) else v
  let v := if m.lowercase then E.lower v else v
  if m.uppercase then E.upper v else v

namespace FmtValue

/-- one turn of the loop, fmt/mod.rs:224-238 -/
def part (o : FmtOpts) (v : FmtValue) (s : Subfield) : Bytes :=
  (match v.pre with | some p => p | none => []) ++
  (if o.strip then stripOverread s.value else s.value) ++
  (match v.suf with | some p => p | none => [])

/-- the loop of `Value::fmt_field`, fmt/mod.rs:215-241 -/
def loop (o : FmtOpts) (v : FmtValue) : Nat → Bytes → List Subfield → Bytes
  | _, acc, [] => acc
  | cnt, acc, s :: ss =>
    if !decide (cnt < v.bound) then acc
    else if !v.codes.contains s.code then loop o v cnt acc ss
    else loop o v (cnt + 1) (acc ++ v.part o s) ss

/-- `Value::fmt_field`, fmt/mod.rs:207-245 -/
def run (E : FmtEnv) (o : FmtOpts) (v : FmtValue) (f : Field) : Bytes :=
  v.modifier.modify E (loop o v 0 [] f.subfields)

end FmtValue

namespace Fragments

mutual
/-- `Fragments::fmt_field`, fmt/mod.rs:160-170, `Group::fmt_field`, 181-194,
`List::fmt_field`, 255-283.  `none` is the `unreachable!()` of line 189: a group
directly in a group. -/
def run (E : FmtEnv) (o : FmtOpts) (f : Field) : Fragments → Option Bytes
  | .value v => some (v.run E o f)
  | .group (.group _ _ _) _ _ => none
  | .group (.value v) _ m => some (m.modify E (v.run E o f))
  | .group (.andThen fs) _ m => (runAndThen E o f [] fs).map (m.modify E)
  | .group (.cons fs) _ m => (runCons E o f [] fs).map (m.modify E)
  | .andThen fs => runAndThen E o f [] fs
  | .cons fs => runCons E o f [] fs

/-- the loop of `List::AndThen`, fmt/mod.rs:264-271 -/
def runAndThen (E : FmtEnv) (o : FmtOpts) (f : Field) : Bytes → List Fragments → Option Bytes
  | acc, [] => some acc
  | acc, x :: xs =>
    match run E o f x with
    | none => none
    | some v => if v.isEmpty then some acc else runAndThen E o f (acc ++ v) xs

/-- the loop of `List::Cons`, fmt/mod.rs:274-278 -/
def runCons (E : FmtEnv) (o : FmtOpts) (f : Field) : Bytes → List Fragments → Option Bytes
  | acc, [] => some acc
  | acc, x :: xs =>
    match run E o f x with
    | none => none
    | some v => runCons E o f (acc ++ v) xs
end

end Fragments

/-- `Format::fmt_field`, fmt/mod.rs:55-62; the outer option is a panic -/
def Format.fmtField (E : FmtEnv) (o : FmtOpts) (fm : Format) (f : Field) : Option (Option Bytes) :=
  match fm.fragments.run E o f with
  | none => none
  | some v => some (if !v.isEmpty then some v else none)

/-- `FormatExt::format` for records, fmt/mod.rs:410-434, collected -/
def Format.run (E : FmtEnv) (o : FmtOpts) (fm : Format) (r : Record) : Option (List Bytes) :=
  match filterP (fieldTest E.toEnv o.opts fm.tag fm.occ fm.sub) r with
  | none => none
  | some fs => (mapP (fm.fmtField E o) fs).map (fun vs => vs.filterMap id)

/-! ## Parser: src/fmt/parser.rs -/

/-- `usize::MAX` on a 64 bit machine -/
def usizeMax : Nat := 2 ^ 64 - 1

/-- `alt((preceded("..", number), "..".value(MAX), empty.value(dflt)))`,
fmt/parser.rs:84-93, 112-121 -/
def pBound (dflt : Nat) : Parser Nat :=
  alt (preceded (lit (bs "..")) pUsize)
    (alt (value usizeMax (lit (bs ".."))) (fun i => some (dflt, i)))

/-- `alt(('l', 'u', 't', 'w', 'o'))`, fmt/parser.rs:173 -/
def isModCode (b : Byte) : Bool :=
  b == 0x6C || b == 0x75 || b == 0x74 || b == 0x77 || b == 0x6F

/-- the closure of fmt/parser.rs:174-198 -/
def modOfCodes (cs : Bytes) : Modifier :=
  { lowercase := cs.contains 0x6C, uppercase := cs.contains 0x75, removeWs := cs.contains 0x77,
    trim := cs.contains 0x74, strip := cs.contains 0x6F }

/-- `parse_modifier`, fmt/parser.rs:170-202 -/
def pModifier : Parser (Option Modifier) :=
  opt (preceded (byte 0x3F) (map modOfCodes (repeat1 (oneOf isModCode))))

/-- `Option::unwrap_or_default` on modifiers -/
def Modifier.orDefault : Option Modifier → Modifier
  | some m => m
  | none => Modifier.default

/-- `parse_value`, fmt/parser.rs:103-136 -/
def pFmtValue : Parser FmtValue :=
  map (fun x => ⟨x.2.2.1, x.2.1, x.2.2.2.2, x.2.2.2.1, Modifier.orDefault x.1⟩)
    (seq (ws pModifier) (seq (opt (ws pString)) (seq pCodes (seq (pBound 1) (opt (ws pString))))))

/-- `group_level_inc`, fmt/parser.rs:58-67 -/
def fmtInc : TParser Unit := fun s i =>
  let s' := { s with fmt := s.fmt + 1 }
  if s'.fmt ≥ 32 then (none, s') else (some ((), i), s')

/-- `group_level_dec`, fmt/parser.rs:69-73 -/
def fmtDec : Levels → Levels := fun s => { s with fmt := s.fmt - 1 }

/-- loop of `separated` for parsers with state, see `separatedAux` -/
def TParser.separatedAux {α β : Type} (p : TParser α) (sep : Parser β) : Nat → TParser (List α)
  | 0, s, i => (some ([], i), s)
  | n + 1, s, i =>
    match sep i with
    | none => (some ([], i), s)
    | some (_, r) =>
      match p s r with
      | (none, s') => (some ([], i), s')
      | (some (a, r'), s') =>
        match TParser.separatedAux p sep n s' r' with
        | (some (as, r''), s'') => (some (a :: as, r''), s'')
        | (none, s'') => (none, s'')

/-- `separated(min.., p, sep)` for `min ≥ 1`: as `separated(1.., p, sep)`, an error if
there are less than `min` items -/
def TParser.separated {α β : Type} (min : Nat) (p : TParser α) (sep : Parser β) :
    TParser (List α) := fun s i =>
  match p s i with
  | (none, s') => (none, s')
  | (some (a, r), s') =>
    match TParser.separatedAux p sep (r.length + 1) s' r with
    | (some (as, r'), s'') => if min ≤ as.length + 1 then (some (a :: as, r'), s'') else (none, s'')
    | (none, s'') => (none, s'')

/-- `parse_list_and_then`, fmt/parser.rs:157-168, for a group parser `g` -/
def pAndThen (g : TParser Fragments) : TParser Fragments :=
  TParser.map .andThen (TParser.separated 2
    (TParser.alt g (TParser.lift (map .value pFmtValue))) (ws (lit (bs "<$>"))))

/-- `parse_list_cons`, fmt/parser.rs:143-155, for a group parser `g` -/
def pCons (g : TParser Fragments) : TParser Fragments :=
  TParser.map .cons (TParser.separated 2
    (TParser.alt (pAndThen g) (TParser.alt g (TParser.lift (map .value pFmtValue))))
    (ws (lit (bs "<*>"))))

/-- `parse_list`, fmt/parser.rs:139-141, for a group parser `g` -/
def pFmtList (g : TParser Fragments) : TParser Fragments := TParser.alt (pCons g) (pAndThen g)

/-- `parse_group`, fmt/parser.rs:75-101.  The first argument bounds the nesting
depth; every level consumes a byte. -/
def pFmtGroup : Nat → TParser Fragments
  | 0 => TParser.fail
  | k + 1 =>
    TParser.map (fun x => .group x.2.1 x.2.2 (Modifier.orDefault x.1))
      (TParser.preceded (TParser.terminated (TParser.lift (ws (byte 0x28))) fmtInc)
        (TParser.seq (TParser.lift pModifier)
          (TParser.seq
            (TParser.alt (tws (pFmtList (pFmtGroup k)))
              (TParser.lift (ws (map .value pFmtValue))))
            (TParser.preceded
              (TParser.terminated (TParser.lift (ws (byte 0x29))) (TParser.update fmtDec))
              (TParser.lift (pBound usizeMax))))))

/-- `parse_fragments`, fmt/parser.rs:45-52 -/
def pFragments (k : Nat) : TParser Fragments :=
  TParser.alt (tws (pFmtList (pFmtGroup k)))
    (TParser.alt (tws (pFmtGroup k)) (TParser.lift (ws (map .value pFmtValue))))

/-- `parse_format`, fmt/parser.rs:18-43 -/
def pFormat (rx : Bytes → Bool) : TParser Format := fun s i =>
  TParser.map (fun x => ⟨x.1.1, x.1.2.1, x.1.2.2.2, trimAscii x.2, x.1.2.2.1⟩)
    (TParser.withTaken
      (TParser.seq (TParser.lift pTagMatcher)
        (TParser.seq (TParser.lift pOccMatcher)
          (TParser.delimited (TParser.lift (ws (byte 0x7B)))
            (TParser.seq (pFragments (i.length + 1)) (pFilterOpt rx))
            (TParser.lift (ws (byte 0x7D)))))))
    s i

/-- `Format::new`, fmt/mod.rs:48-52 -/
def Format.new (rx : Bytes → Bool) (s : Levels) (text : Bytes) : Option Format × Levels :=
  TParser.parseAll (pFormat rx) s text

end Pica
