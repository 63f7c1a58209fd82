import Verif.Base.Bytes

/-!
# Parsers with thread-local state

The matcher and format parsers count open groups in thread-local variables.
`alt`, `opt` and `repeat` reset the input after a failure, but not these
variables.  A `TParser` therefore returns the new levels also when it fails.
-/

namespace Pica

/-- The thread-local group counters:
`SUBFIELD_MATCHER_GROUP_LEVEL` (matcher/subfield/parser.rs:283-286),
`FIELD_MATCHER_GROUP_LEVEL` (matcher/field/parser.rs:230-233) and the
`GROUP_LEVEL` of fmt/parser.rs:54-57.  They are `u32` in Rust; the model uses
natural numbers, i.e. it ignores an overflow after 2^32 increments. -/
structure Levels where
  sub : Nat
  fld : Nat
  fmt : Nat
deriving DecidableEq, Repr

/-- the counters of a new thread -/
def Levels.zero : Levels := ⟨0, 0, 0⟩

/-- A winnow parser with access to the group counters. -/
abbrev TParser (α : Type) := Levels → Bytes → Option (α × Bytes) × Levels

namespace TParser

variable {α β γ : Type}

/-- a parser without side effects -/
def lift (p : Parser α) : TParser α := fun s i => (p i, s)

/-- `parser.map(f)` -/
def map (f : α → β) (p : TParser α) : TParser β := fun s i =>
  match p s i with
  | (some (a, r), s') => (some (f a, r), s')
  | (none, s') => (none, s')

/-- `(p, q)`, sequencing -/
def seq (p : TParser α) (q : TParser β) : TParser (α × β) := fun s i =>
  match p s i with
  | (none, s') => (none, s')
  | (some (a, r), s') =>
    match q s' r with
    | (none, s'') => (none, s'')
    | (some (b, r'), s'') => (some ((a, b), r'), s'')

/-- `preceded(p, q)` -/
def preceded (p : TParser α) (q : TParser β) : TParser β := map Prod.snd (seq p q)
/-- `terminated(p, q)` -/
def terminated (p : TParser α) (q : TParser β) : TParser α := map Prod.fst (seq p q)
/-- `delimited(p, q, r)` -/
def delimited (p : TParser α) (q : TParser β) (r : TParser γ) : TParser β :=
  preceded p (terminated q r)

/-- `p.with_taken()` for parsers with state -/
def withTaken (p : TParser α) : TParser (α × Bytes) := fun s i =>
  match p s i with
  | (some (a, r), s') => (some ((a, i.take (i.length - r.length)), r), s')
  | (none, s') => (none, s')

/-- `alt((p, q))` -/
def alt (p q : TParser α) : TParser α := fun s i =>
  match p s i with
  | (some x, s') => (some x, s')
  | (none, s') => q s' i

/-- a parser that always fails -/
def fail : TParser α := fun s _ => (none, s)

/-- `opt(p)` -/
def opt (p : TParser α) : TParser (Option α) := fun s i =>
  match p s i with
  | (some (a, r), s') => (some (some a, r), s')
  | (none, s') => (some (none, i), s')

/-- Loop of `repeat(0.., p)`, as in `Parser.repeat0Aux` -/
def repeat0Aux (p : TParser α) : Nat → TParser (List α)
  | 0, s, i => (some ([], i), s)
  | n + 1, s, i =>
    match p s i with
    | (none, s') => (some ([], i), s')
    | (some (a, r), s') =>
      if r.length < i.length then
        match repeat0Aux p n s' r with
        | (some (as, r'), s'') => (some (a :: as, r'), s'')
        | (none, s'') => (none, s'')
      else (none, s')

/-- `repeat(0.., p)` -/
def repeat0 (p : TParser α) : TParser (List α) := fun s i => repeat0Aux p (i.length + 1) s i

/-- `repeat(1.., p)` -/
def repeat1 (p : TParser α) : TParser (List α) := fun s i =>
  match p s i with
  | (none, s') => (none, s')
  | (some (a, r), s') =>
    match repeat0 p s' r with
    | (some (as, r'), s'') => (some (a :: as, r'), s'')
    | (none, s'') => (none, s'')

/-- an update of the counters that does not touch the input -/
def update (f : Levels → Levels) : TParser Unit := fun s i => (some ((), i), f s)

/-- `p.parse(input)`: the whole input has to be consumed -/
def parseAll (p : TParser α) (s : Levels) (i : Bytes) : Option α × Levels :=
  match p s i with
  | (some (a, []), s') => (some a, s')
  | (_, s') => (none, s')

end TParser

/-- `AsChar::is_space`-class of `multispace0`: space, tab, CR, LF -/
def isMultispace (b : Byte) : Bool := b == 0x20 || b == 0x09 || b == 0x0D || b == 0x0A

/-- `multispace0` -/
def multispace0 : Parser Bytes := fun i => some (i.takeWhile isMultispace, i.dropWhile isMultispace)

/-- `multispace1` -/
def multispace1 : Parser Bytes := Parser.takeWhileM 1 isMultispace

/-- `ws`, parser.rs:105-119 -/
def ws {α : Type} (p : Parser α) : Parser α := Parser.delimited multispace0 p multispace0

/-- `ws`, parser.rs:105-119, for parsers with state -/
def tws {α : Type} (p : TParser α) : TParser α :=
  TParser.delimited (TParser.lift multispace0) p (TParser.lift multispace0)

/-- `separated(1.., p, sep)`: after the first item, as long as a separator and
an item follow; if the item after a separator fails, the input is reset to
before the separator. -/
def separatedAux {α β : Type} (p : Parser α) (sep : Parser β) : Nat → Parser (List α)
  | 0, i => some ([], i)
  | n + 1, i =>
    match sep i with
    | none => some ([], i)
    | some (_, r) =>
      match p r with
      | none => some ([], i)
      | some (a, r') =>
        match separatedAux p sep n r' with
        | some (as, r'') => some (a :: as, r'')
        | none => none

/-- `separated(1.., p, sep)`; the fuel suffices when `sep` consumes input -/
def separated1 {α β : Type} (p : Parser α) (sep : Parser β) : Parser (List α) := fun i =>
  match p i with
  | none => none
  | some (a, r) =>
    match separatedAux p sep (r.length + 1) r with
    | some (as, r') => some (a :: as, r')
    | none => none

end Pica
