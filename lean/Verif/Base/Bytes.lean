/-!
# Bytes and the winnow combinators used by pica-rs

`Parser α` models a winnow parser `fn(&mut &[u8]) -> ModalResult<α>`.
`none` is `ErrMode::Backtrack`: no parser of the crate uses `cut_err`, so this
is the only kind of failure.  On success the remaining input is returned (the
`&mut &[u8]` argument after the call).  On failure the position of the input
is irrelevant, because every combinator which goes on after a failure
(`alt`, `opt`, `repeat`, `separated`) resets the input first.

The combinators are modelled from the documented behaviour of winnow 1.0; the
source of winnow is not part of the repository (trusted base).
-/

namespace Pica

abbrev Byte := UInt8
abbrev Bytes := List UInt8

/-- The UTF-8 bytes of a string literal; only used to write down constants. -/
def bs (s : String) : Bytes := s.toUTF8.toList

/-- A winnow parser without side effects. -/
abbrev Parser (α : Type) := Bytes → Option (α × Bytes)

namespace Parser

variable {α β γ : Type}

/-- `parser.map(f)` -/
def map (f : α → β) (p : Parser α) : Parser β := fun i =>
  match p i with
  | some (a, r) => some (f a, r)
  | none => none

/-- `(p, q)`, sequencing -/
def seq (p : Parser α) (q : Parser β) : Parser (α × β) := fun i =>
  match p i with
  | none => none
  | some (a, r) =>
    match q r with
    | none => none
    | some (b, r') => some ((a, b), r')

/-- `preceded(p, q)` -/
def preceded (p : Parser α) (q : Parser β) : Parser β := map Prod.snd (seq p q)

/-- `terminated(p, q)` -/
def terminated (p : Parser α) (q : Parser β) : Parser α := map Prod.fst (seq p q)

/-- `delimited(p, q, r)` -/
def delimited (p : Parser α) (q : Parser β) (r : Parser γ) : Parser β :=
  preceded p (terminated q r)

/-- `alt((p, q))` -/
def alt (p q : Parser α) : Parser α := fun i =>
  match p i with
  | some x => some x
  | none => q i

/-- `opt(p)` -/
def opt (p : Parser α) : Parser (Option α) := fun i =>
  match p i with
  | some (a, r) => some (some a, r)
  | none => some (none, i)

/-- `p.verify(f)` -/
def verify (f : α → Bool) (p : Parser α) : Parser α := fun i =>
  match p i with
  | some (a, r) => if f a then some (a, r) else none
  | none => none

/-- `p.verify_map(f)` -/
def verifyMap (f : α → Option β) (p : Parser α) : Parser β := fun i =>
  match p i with
  | some (a, r) => (f a).map (·, r)
  | none => none

/-- `p.value(v)` -/
def value (v : β) (p : Parser α) : Parser β := map (fun _ => v) p

/-- `one_of(f)` -/
def oneOf (f : Byte → Bool) : Parser Byte
  | [] => none
  | b :: r => if f b then some (b, r) else none

/-- a byte literal -/
def byte (b : Byte) : Parser Byte := oneOf (· == b)

/-- a string literal (`literal`/`tag`) -/
def lit : Bytes → Parser Unit
  | [], i => some ((), i)
  | _ :: _, [] => none
  | c :: cs, b :: r => if b == c then lit cs r else none

/-- `take_till(0.., f)`: the longest prefix without a byte satisfying `f` -/
def takeTill0 (f : Byte → Bool) : Parser Bytes := fun i =>
  some (i.takeWhile (fun b => !f b), i.dropWhile (fun b => !f b))

/-- `take_while(m..=n, f)`: greedy, at most `n` bytes, fails below `m` -/
def takeWhileMN (m n : Nat) (f : Byte → Bool) : Parser Bytes := fun i =>
  let t := (i.take n).takeWhile f
  if m ≤ t.length then some (t, i.drop t.length) else none

/-- `take_while(m.., f)` -/
def takeWhileM (m : Nat) (f : Byte → Bool) : Parser Bytes := fun i =>
  let t := i.takeWhile f
  if m ≤ t.length then some (t, i.dropWhile f) else none

/-- `p.take()` / `with_taken`: the consumed slice together with the result -/
def withTaken (p : Parser α) : Parser (α × Bytes) := fun i =>
  match p i with
  | some (a, r) => some ((a, i.take (i.length - r.length)), r)
  | none => none

/-- Loop of `repeat(0.., p)`.  Stops at the first failure of `p`; a success
that does not consume input makes winnow fail ("`repeat` parsers must always
consume").  `fuel` larger than the length of the input is never used up. -/
def repeat0Aux (p : Parser α) : Nat → Parser (List α)
  | 0, i => some ([], i)
  | n + 1, i =>
    match p i with
    | none => some ([], i)
    | some (a, r) =>
      if r.length < i.length then
        match repeat0Aux p n r with
        | some (as, r') => some (a :: as, r')
        | none => none
      else none

/-- `repeat(0.., p)` -/
def repeat0 (p : Parser α) : Parser (List α) := fun i => repeat0Aux p (i.length + 1) i

/-- `repeat(1.., p)` -/
def repeat1 (p : Parser α) : Parser (List α) := fun i =>
  match p i with
  | none => none
  | some (a, r) =>
    match repeat0 p r with
    | some (as, r') => some (a :: as, r')
    | none => none

/-- `p.parse(input)`: the whole input has to be consumed -/
def parseAll (p : Parser α) (i : Bytes) : Option α :=
  match p i with
  | some (a, []) => some a
  | _ => none

end Parser

/-- `u8::is_ascii_digit` -/
def isDigit (b : Byte) : Bool := 0x30 ≤ b && b ≤ 0x39
/-- `u8::is_ascii_uppercase` -/
def isUpper (b : Byte) : Bool := 0x41 ≤ b && b ≤ 0x5A
/-- `u8::is_ascii_lowercase` -/
def isLower (b : Byte) : Bool := 0x61 ≤ b && b ≤ 0x7A
/-- `u8::is_ascii_alphanumeric` -/
def isAlnum (b : Byte) : Bool := isDigit b || isUpper b || isLower b

/-- newline, end of a record (`b'\n'`) -/
def LF : Byte := 0x0A
/-- record/field separator `b'\x1e'` -/
def RS : Byte := 0x1E
/-- subfield separator `b'\x1f'` -/
def US : Byte := 0x1F
/-- space -/
def SP : Byte := 0x20
/-- slash -/
def SLASH : Byte := 0x2F

end Pica
