import Verif.Base.TParser
import Verif.Model.Matcher
import Verif.Model.Utf8

/-!
# Lexical parsers

Models `src/parser.rs`, and the operator and quantifier parsers.  The crate
feature `compat` is off by default; `Model/Compat` has its parsers.
-/

namespace Pica
open Parser

/-- `parse_subfield_code_range`, parser.rs:19-30 -/
def pCodeRange : Parser Bytes :=
  map (fun x => byteRange x.1 x.2)
    (verify (fun x => decide (x.1 < x.2)) (separatedPair pSubfieldCode (byte 0x2D) pSubfieldCode))

/-- `parse_subfield_code_list`, parser.rs:33-52 -/
def pCodeList : Parser Bytes :=
  delimited (byte 0x5B)
    (map List.flatten (repeat1 (alt pCodeRange (map (fun c => [c]) pSubfieldCode))))
    (byte 0x5D)

/-- `SUBFIELD_CODES`, parser.rs:58-59 -/
def allCodes : Bytes := bs "0123456789abcdefghijklmnopqrstuvwxyzABCDEFGHIJKLMNOPQRSTUVWXYZ"

/-- `parse_subfield_code_all`, parser.rs:55-68 -/
def pCodeAll : Parser Bytes := value allCodes (byte 0x2A)

/-- `parse_subfield_codes`, parser.rs:71-81 -/
def pCodes : Parser Bytes :=
  alt pCodeList (alt (map (fun c => [c]) pSubfieldCode) pCodeAll)

/-- `parse_literal`, parser.rs:127-139: `take_till(1.., [quote, '\\'])` -/
def pLiteral (q : Byte) : Parser Bytes :=
  takeWhileM 1 (fun b => !(b == q || b == 0x5C))

/-- `parse_escaped_char`, parser.rs:141-165 -/
def pEscapedChar (q : Byte) : Parser Byte :=
  preceded (byte 0x5C)
    (alt (value 0x0A (byte 0x6E))
      (alt (value 0x0D (byte 0x72))
        (alt (value 0x09 (byte 0x74))
          (alt (value 0x08 (byte 0x62))
            (alt (value 0x0C (byte 0x66))
              (alt (value 0x5C (byte 0x5C))
                (alt (value 0x2F (byte 0x2F)) (value q (byte q)))))))))

/-- `parse_quoted_fragment`, parser.rs:174-184, followed by the step of the fold
in lines 198-205 -/
def pQuotedFragment (q : Byte) : Parser Bytes :=
  alt (pLiteral q)
    (alt (map (fun c => [c]) (pEscapedChar q))
      (value [] (preceded (byte 0x5C) multispace1)))

/-- `parse_quoted_string`, parser.rs:186-211 -/
def pQuoted (q : Byte) : Parser Bytes :=
  delimited (byte q) (map List.flatten (repeat0 (pQuotedFragment q))) (byte q)

/-- `parse_string`, parser.rs:227-231 -/
def pString : Parser Bytes := verify utf8Valid (alt (pQuoted 0x27) (pQuoted 0x22))

/-- `parse_relational_operator`, operator.rs:133-154 -/
def pRelOp : Parser RelOp :=
  alt (value .eq (lit (bs "=="))) (alt (value .ne (lit (bs "!=")))
    (alt (value .startsWith (lit (bs "=^"))) (alt (value .startsNotWith (lit (bs "!^")))
      (alt (value .endsWith (lit (bs "=$"))) (alt (value .endsNotWith (lit (bs "!$")))
        (alt (value .similar (lit (bs "=*"))) (alt (value .ge (lit (bs ">=")))
          (alt (value .gt (lit (bs ">"))) (alt (value .le (lit (bs "<=")))
            (value .lt (lit (bs "<"))))))))))))

/-- `parse_quantifier`, quantifier.rs:33-38 -/
def pQuantifier : Parser Quantifier :=
  alt (value .all (lit (bs "ALL"))) (value .any (lit (bs "ANY")))

/-- `Option::unwrap_or_default` on quantifiers -/
def Quantifier.orDefault : Option Quantifier → Quantifier
  | some q => q
  | none => .any

/-- `str::parse::<usize>` on a non-empty string of digits; `None` on overflow
(64 bit) -/
def parseUsize (ds : Bytes) : Option Nat :=
  let n := ds.foldl (fun n b => n * 10 + (b.toNat - 0x30)) 0
  if n < 2 ^ 64 then some n else none

/-- `digit1.verify_map(..).verify_map(|v| v.parse::<usize>().ok())` -/
def pUsize : Parser Nat := verifyMap parseUsize (takeWhileM 1 isDigit)

/-- `str::trim_end` on a text whose trailing white space is ASCII -/
def trimEndAscii (b : Bytes) : Bytes := (b.reverse.dropWhile isMultispace).reverse

/-- `str::trim` on a text whose outer white space is ASCII -/
def trimAscii (b : Bytes) : Bytes :=
  trimEndAscii (b.dropWhile isMultispace)

/-- `s.chars().map(|c| c.to_string().as_bytes().to_vec())` on valid UTF-8: each
byte that is no continuation byte starts a character -/
def utf8Chars : Bytes → List Bytes
  | [] => []
  | b :: r =>
    match utf8Chars r with
    | [] => [[b]]
    | c :: cs =>
      match c with
      | d :: _ => if isCont d then (b :: c) :: cs else [b] :: c :: cs
      | [] => [b] :: cs

end Pica
