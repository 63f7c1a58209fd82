import Verif.Model.Utf8

/-!
# Byte strings as text

`to_string` of a `BStr` or `BString` (crate `bstr`, not part of the repository) writes the valid
parts as they are and U+FFFD for each maximal invalid part, like `String::from_utf8_lossy`.
Values are turned into text this way in `record_key` (concat.rs:76-87), in the name of the files of
`partition` (partition.rs:118-124), in `hash` (hash.rs:99-102), in `convert`
(convert/json.rs:33-57), in the messages of the checks (check/checks/*.rs), in the printed
parts of a record (src/primitives/*.rs) in the transliteration of values and
in the comparison by similarity (subfield/mod.rs:353-354).
-/

namespace Pica

/-- U+FFFD, the replacement character -/
def fffd : Bytes := [0xEF, 0xBF, 0xBD]

/-- the first step of the decoder on `b0 :: r`: the number of bytes, and whether they are a character -/
def utf8Step (b0 : Byte) (r : Bytes) : Nat × Bool :=
  if b0 < 0x80 then (1, true)
  else if 0xC2 ≤ b0 && b0 ≤ 0xDF then
    match r with
    | b1 :: _ => if isCont b1 then (2, true) else (1, false)
    | [] => (1, false)
  else if 0xE0 ≤ b0 && b0 ≤ 0xEF then
    match r with
    | b1 :: r =>
      if second3 b0 b1 then
        match r with
        | b2 :: _ => if isCont b2 then (3, true) else (2, false)
        | [] => (2, false)
      else (1, false)
    | [] => (1, false)
  else if 0xF0 ≤ b0 && b0 ≤ 0xF4 then
    match r with
    | b1 :: r =>
      if second4 b0 b1 then
        match r with
        | b2 :: r =>
          if isCont b2 then
            match r with
            | b3 :: _ => if isCont b3 then (4, true) else (3, false)
            | [] => (3, false)
          else (2, false)
        | [] => (2, false)
      else (1, false)
    | [] => (1, false)
  else (1, false)

/-- the loop of the decoder; each step takes at least one byte -/
def lossyLoop : Nat → Bytes → Bytes
  | 0, _ => []
  | _, [] => []
  | n + 1, b0 :: r =>
    let x := utf8Step b0 r
    (if x.2 then (b0 :: r).take x.1 else fffd) ++ lossyLoop n ((b0 :: r).drop x.1)

/-- `to_string` of a byte string -/
def lossyText (b : Bytes) : Bytes := lossyLoop b.length b

end Pica
