import Verif.Spec.Utf8
import Verif.Spec.Grammar

/-!
# JSON

The grammar of RFC 8259 for texts encoded in UTF-8, without reference to a writer:
`JsonText t v` says that `t` is a JSON text with the value `v`.  A string with one half of
a surrogate pair has no value.
-/

namespace Pica.Spec

open Pica

/-- values; a number is kept as it is written, the order of members is kept -/
inductive Json
  | null
  | bool (b : Bool)
  | num (text : Bytes)
  | str (v : Bytes)
  | arr (items : List Json)
  | obj (members : List (Bytes × Json))

/-- `ws`, section 2 -/
def JsonWs (t : Bytes) : Prop := ∀ c ∈ t, c = 0x20 ∨ c = 0x09 ∨ c = 0x0A ∨ c = 0x0D

/-- one or more digits -/
def JsonDigits (t : Bytes) : Prop := t ≠ [] ∧ ∀ c ∈ t, 0x30 ≤ c ∧ c ≤ 0x39

/-- `number`, section 6: sign, integer without leading zeros, fraction, exponent -/
inductive JsonNumber : Bytes → Prop
  | mk {s i f e : Bytes} (hs : s = [] ∨ s = [0x2D])
      (hi : i = [0x30] ∨ JsonDigits i ∧ i.head? ≠ some 0x30)
      (hf : f = [] ∨ ∃ ds, f = 0x2E :: ds ∧ JsonDigits ds)
      (he : e = [] ∨ ∃ c g ds, e = c :: (g ++ ds) ∧ (c = 0x65 ∨ c = 0x45) ∧
        (g = [] ∨ g = [0x2B] ∨ g = [0x2D]) ∧ JsonDigits ds) :
      JsonNumber (s ++ i ++ f ++ e)

/-- a hexadecimal digit with its value -/
def HexDigit (c : Byte) (n : Nat) : Prop :=
  (0x30 ≤ c ∧ c ≤ 0x39 ∧ n + 0x30 = c.toNat) ∨ (0x41 ≤ c ∧ c ≤ 0x46 ∧ n + 0x37 = c.toNat) ∨
    (0x61 ≤ c ∧ c ≤ 0x66 ∧ n + 0x57 = c.toNat)

/-- four hexadecimal digits -/
inductive HexUnit : Bytes → Nat → Prop
  | mk {a b c d : Byte} {i j k l : Nat} (ha : HexDigit a i) (hb : HexDigit b j) (hc : HexDigit c k)
      (hd : HexDigit d l) : HexUnit [a, b, c, d] (((16 * i + j) * 16 + k) * 16 + l)

/-- the two-character escapes: the character after the backslash, and the character meant -/
def jsonShort : List (Byte × Byte) :=
  [(0x22, 0x22), (0x5C, 0x5C), (0x2F, 0x2F), (0x62, 0x08), (0x66, 0x0C), (0x6E, 0x0A), (0x72, 0x0D), (0x74, 0x09)]

/-- the characters of a string, section 7 -/
inductive JsonChars : Bytes → Bytes → Prop
  | nil : JsonChars [] []
  | plain {c t v} (hc : 0x20 ≤ c) (hq : c ≠ 0x22) (hb : c ≠ 0x5C) (h : JsonChars t v) :
      JsonChars (c :: t) (c :: v)
  | short {e c t v} (he : (e, c) ∈ jsonShort) (h : JsonChars t v) :
      JsonChars (0x5C :: e :: t) (c :: v)
  | unit {ds t v} {c : Char} (hd : HexUnit ds c.toNat) (h : JsonChars t v) :
      JsonChars (0x5C :: 0x75 :: (ds ++ t)) (String.utf8EncodeChar c ++ v)
  | pair {ds es t v} {m n : Nat} {c : Char} (hd : HexUnit ds (0xD800 + m)) (he : HexUnit es (0xDC00 + n))
      (hm : m < 0x400) (hn : n < 0x400) (hc : c.toNat = 0x10000 + m * 0x400 + n) (h : JsonChars t v) :
      JsonChars (0x5C :: 0x75 :: (ds ++ (0x5C :: 0x75 :: (es ++ t)))) (String.utf8EncodeChar c ++ v)

/-- `string`, section 7 -/
inductive JsonString : Bytes → Bytes → Prop
  | mk {t v} (h : JsonChars t v) : JsonString (0x22 :: (t ++ [0x22])) v

mutual
/-- `value`, section 3 -/
inductive JsonValue : Bytes → Json → Prop
  | null : JsonValue (bs "null") .null
  | true : JsonValue (bs "true") (.bool true)
  | false : JsonValue (bs "false") (.bool false)
  | num {t} (h : JsonNumber t) : JsonValue t (.num t)
  | str {t v} (h : JsonString t v) : JsonValue t (.str v)
  | noItems {a} (ha : JsonWs a) : JsonValue (0x5B :: (a ++ [0x5D])) (.arr [])
  | arr {t l} (h : JsonItems t l) : JsonValue (0x5B :: (t ++ [0x5D])) (.arr l)
  | noMembers {a} (ha : JsonWs a) : JsonValue (0x7B :: (a ++ [0x7D])) (.obj [])
  | obj {t l} (h : JsonMembers t l) : JsonValue (0x7B :: (t ++ [0x7D])) (.obj l)

/-- the values of an array, section 5 -/
inductive JsonItems : Bytes → List Json → Prop
  | one {a t b v} (ha : JsonWs a) (h : JsonValue t v) (hb : JsonWs b) : JsonItems (a ++ (t ++ b)) [v]
  | more {a t b s v l} (ha : JsonWs a) (h : JsonValue t v) (hb : JsonWs b) (hl : JsonItems s l) :
      JsonItems (a ++ (t ++ (b ++ 0x2C :: s))) (v :: l)

/-- the members of an object, section 4 -/
inductive JsonMembers : Bytes → List (Bytes × Json) → Prop
  | one {a k b c t d n v} (ha : JsonWs a) (hk : JsonString k n) (hb : JsonWs b) (hc : JsonWs c)
      (h : JsonValue t v) (hd : JsonWs d) : JsonMembers (a ++ (k ++ (b ++ 0x3A :: (c ++ (t ++ d))))) [(n, v)]
  | more {a k b c t d s n v l} (ha : JsonWs a) (hk : JsonString k n) (hb : JsonWs b) (hc : JsonWs c)
      (h : JsonValue t v) (hd : JsonWs d) (hl : JsonMembers s l) :
      JsonMembers (a ++ (k ++ (b ++ 0x3A :: (c ++ (t ++ (d ++ 0x2C :: s)))))) ((n, v) :: l)
end

/-- `JSON-text`, section 2, and its encoding, section 8.1 -/
def JsonText (t : Bytes) (v : Json) : Prop :=
  IsUtf8 t ∧ ∃ a s b, t = a ++ (s ++ b) ∧ JsonWs a ∧ JsonWs b ∧ JsonValue s v

/-- what PICA JSON says of a field: tag, occurrence, and codes and values in turn -/
def picaJsonField (f : Field) : Json :=
  .arr (.str f.tag :: (match f.occ with | some o => .str (0x2F :: o) | none => .null) ::
    f.subfields.flatMap (fun s => [.str [s.code], .str s.value]))

/-- a file of records -/
def picaJson (rs : List Record) : Json := .arr (rs.map (fun r => .arr (r.map picaJsonField)))

end Pica.Spec
