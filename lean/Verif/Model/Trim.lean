import Verif.Model.Utf8

/-!
# White space at both ends

`str::trim` (standard library) and `ByteSlice::trim` (crate `bstr`) are not part of the repository.
They remove the characters with the property White_Space at both ends; used in
`parse_predicates` (utils.rs:212), for the header of a table (select.rs:160, frequency.rs:200,
hash.rs:64), for the list of tags (check/mod.rs:85) and by the modifier of a format that trims
(src/fmt/mod.rs:339-341).
-/

namespace Pica

/-- the encodings of the characters with the property White_Space -/
def whiteSpaces : List Bytes :=
  [[0x09], [0x0A], [0x0B], [0x0C], [0x0D], [0x20], [0xC2, 0x85], [0xC2, 0xA0], [0xE1, 0x9A, 0x80],
   [0xE2, 0x80, 0x80], [0xE2, 0x80, 0x81], [0xE2, 0x80, 0x82], [0xE2, 0x80, 0x83], [0xE2, 0x80, 0x84],
   [0xE2, 0x80, 0x85], [0xE2, 0x80, 0x86], [0xE2, 0x80, 0x87], [0xE2, 0x80, 0x88], [0xE2, 0x80, 0x89],
   [0xE2, 0x80, 0x8A], [0xE2, 0x80, 0xA8], [0xE2, 0x80, 0xA9], [0xE2, 0x80, 0xAF], [0xE2, 0x81, 0x9F],
   [0xE3, 0x80, 0x80]]

/-- remove members of the list from the beginning; each one has at least one byte -/
def stripLoop (ws : List Bytes) : Nat → Bytes → Bytes
  | 0, b => b
  | n + 1, b =>
    match ws.find? (fun w => w.isPrefixOf b) with
    | some w => stripLoop ws n (b.drop w.length)
    | none => b

/-- `trim_start` -/
def trimStart (b : Bytes) : Bytes := stripLoop whiteSpaces b.length b

/-- `trim_end` -/
def trimEnd (b : Bytes) : Bytes := (stripLoop (whiteSpaces.map List.reverse) b.length b.reverse).reverse

/-- `trim` -/
def trimText (b : Bytes) : Bytes := trimEnd (trimStart b)

end Pica
