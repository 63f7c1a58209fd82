import Verif.Model.Record

/-! Models `src/matcher/tag.rs` and `src/matcher/occurrence.rs`. -/

namespace Pica
open Parser

/-- `separated_pair(p, sep, q)` of winnow -/
def Parser.separatedPair {α β γ : Type} (p : Parser α) (sep : Parser β) (q : Parser γ) :
    Parser (α × γ) := seq p (preceded sep q)

/-- `(min..=max).collect::<Vec<u8>>()` -/
def byteRange (min max : Byte) : Bytes :=
  (List.range (max.toNat + 1 - min.toNat)).map (fun k => UInt8.ofNat (min.toNat + k))

/-! ## Tags -/

/-- `TagMatcher`, tag.rs:16-20; `raw` is the text of the pattern -/
inductive TagMatcher where
  | tag (t : Bytes)
  | pattern (p0 p1 p2 p3 : Bytes) (raw : Bytes)
deriving DecidableEq, Repr

/-- Does the class contain the `k`-th byte of the tag?  `tag[k]` panics (in the
slice index) for a tag shorter than four bytes; no such `TagRef` exists. -/
def inClass (p tag : Bytes) (k : Nat) : Bool :=
  match tag[k]? with
  | some b => p.contains b
  | none => false

/-- `TagMatcher::is_match`, tag.rs:63-73 -/
def TagMatcher.isMatch : TagMatcher → Bytes → Bool
  | .tag t, x => t == x
  | .pattern p0 p1 p2 p3 _, x =>
    inClass p0 x 0 && inClass p1 x 1 && inClass p2 x 2 && inClass p3 x 3

/-- range or single byte inside `[..]`, tag.rs:140-150 -/
def pClassItem (allowed : Bytes) : Parser Bytes :=
  alt
    (map (fun x => byteRange x.1 x.2)
      (verify (fun x => decide (x.1 < x.2))
        (separatedPair (oneOf (allowed.contains ·)) (byte 0x2D) (oneOf (allowed.contains ·)))))
    (map (fun c => [c]) (oneOf (allowed.contains ·)))

/-- `parse_tag_matcher_pattern_fragment`, tag.rs:129-161 -/
def pTagFragment (allowed : Bytes) : Parser Bytes :=
  alt (map (fun c => [c]) (oneOf (allowed.contains ·)))
    (alt (value allowed (byte 0x2E))
      (delimited (byte 0x5B) (map List.flatten (repeat1 (pClassItem allowed))) (byte 0x5D)))

/-- `b"012"` -/
def allowed0 : Bytes := [0x30, 0x31, 0x32]
/-- `b"0123456789"` -/
def allowedDigit : Bytes := [0x30, 0x31, 0x32, 0x33, 0x34, 0x35, 0x36, 0x37, 0x38, 0x39]
/-- `b"ABCDEFGHIJKLMNOPQRSTUVWXYZ@"` -/
def allowed3 : Bytes :=
  [0x41, 0x42, 0x43, 0x44, 0x45, 0x46, 0x47, 0x48, 0x49, 0x4A, 0x4B, 0x4C, 0x4D, 0x4E,
   0x4F, 0x50, 0x51, 0x52, 0x53, 0x54, 0x55, 0x56, 0x57, 0x58, 0x59, 0x5A, 0x40]

/-- `parse_tag_matcher_pattern`, tag.rs:164-179 -/
def pTagPattern : Parser TagMatcher :=
  map (fun x => .pattern x.1.1 x.1.2.1 x.1.2.2.1 x.1.2.2.2 x.2)
    (withTaken (seq (pTagFragment allowed0)
      (seq (pTagFragment allowedDigit) (seq (pTagFragment allowedDigit) (pTagFragment allowed3)))))

/-- `parse_tag_matcher`, tag.rs:181-186 -/
def pTagMatcher : Parser TagMatcher := alt (map .tag pTag) pTagPattern

/-- `TagMatcher::new`, tag.rs:41-47 -/
def TagMatcher.new (text : Bytes) : Option TagMatcher := parseAll pTagMatcher text

/-! ## Occurrences -/

/-- `OccurrenceMatcher`, occurrence.rs:13-19 -/
inductive OccMatcher where
  | exact (o : Bytes)
  | range (min max : Bytes)
  | none
  | any
deriving DecidableEq, Repr

/-- `OccurrenceMatcher::is_match`, occurrence.rs:69-82.  `<`, `≤` on byte
slices is lexicographic. -/
def OccMatcher.isMatch (m : OccMatcher) : Option Bytes → Bool
  | Option.none => match m with
    | .any => true
    | .none => true
    | _ => false
  | some occ => match m with
    | .any => true
    | .none => occ == [0x30, 0x30]
    | .exact o => occ == o
    | .range min max => decide (min ≤ occ) && decide (occ ≤ max)

/-- `parse_occurrence_matcher_exact`, occurrence.rs:118-125 -/
def pOccExact : Parser OccMatcher :=
  map .exact (verify (fun o => o != [0x30, 0x30]) pOccurrence)

/-- `parse_occurrence_matcher_range`, occurrence.rs:128-139 -/
def pOccRange : Parser OccMatcher :=
  map (fun x => .range x.1 x.2)
    (verify (fun x => x.1.length == x.2.length && decide (x.1 < x.2))
      (separatedPair pOccurrence (byte 0x2D) pOccurrence))

/-- `parse_occurrence_matcher`, occurrence.rs:141-157 -/
def pOccMatcher : Parser OccMatcher :=
  alt
    (preceded (byte SLASH)
      (alt pOccRange
        (alt pOccExact
          (alt (value .none (lit [0x30, 0x30])) (value .any (lit [0x2A]))))))
    (fun i => some (.none, i))

/-- `OccurrenceMatcher::new`, occurrence.rs:41-49 -/
def OccMatcher.new (text : Bytes) : Option OccMatcher := parseAll pOccMatcher text

end Pica
