import Verif.Base.Bytes
import Verif.Model.Utf8

/-!
# XML 1.0, as far as it is needed

The grammar of the text of a document, without reference to a writer.  `XmlReads t ks`
says that a processor reads the text `t`, which is encoded in UTF-8, as the tokens `ks`.
Comments, CDATA, processing instructions and empty-element tags are left out; `>` and the
quotation marks of attributes are only allowed as references.
-/

namespace Pica.Spec

open Pica

/-- `Char`, production 2, for characters of one byte -/
def XmlByte (c : Byte) : Prop := 0x20 ≤ c ∨ c = 0x09 ∨ c = 0x0A ∨ c = 0x0D

instance (c : Byte) : Decidable (XmlByte c) := by unfold XmlByte; infer_instance

/-- U+FFFE and U+FFFF, which are not allowed by production 2 -/
def NonChar (t : Bytes) : Prop := [0xEF, 0xBF, 0xBE] <:+: t ∨ [0xEF, 0xBF, 0xBF] <:+: t

/-- the bytes of a text whose characters are allowed -/
def XmlChars (t : Bytes) : Prop := (∀ c ∈ t, XmlByte c) ∧ ¬ NonChar t

/-- `Reference`, production 67: the predefined entities and characters given by their number -/
inductive XmlRef : Bytes → Byte → Prop
  | lt : XmlRef (bs "&lt;") 0x3C
  | gt : XmlRef (bs "&gt;") 0x3E
  | amp : XmlRef (bs "&amp;") 0x26
  | apos : XmlRef (bs "&apos;") 0x27
  | quot : XmlRef (bs "&quot;") 0x22
  | num {ds : Bytes} {c : Byte} (hd : ∀ d ∈ ds, 0x30 ≤ d ∧ d ≤ 0x39)
      (hv : ds.foldl (fun n d => 10 * n + (d.toNat - 0x30)) 0 = c.toNat) (h : XmlByte c) (h' : c < 0x80) :
      XmlRef (0x26 :: 0x23 :: (ds ++ [0x3B])) c

/-- a text with references; `P` are the bytes that stand for themselves -/
inductive RefText (P : Byte → Prop) : Bytes → Bytes → Prop
  | nil : RefText P [] []
  | char {c t v} (hc : P c) (ha : c ≠ 0x26) (h : RefText P t v) : RefText P (c :: t) (c :: v)
  | ref {r c t v} (hr : XmlRef r c) (h : RefText P t v) : RefText P (r ++ t) (c :: v)

/-- `CharData`, production 14 -/
def TextByte (c : Byte) : Prop := c ≠ 0x3C ∧ c ≠ 0x3E

instance (c : Byte) : Decidable (TextByte c) := by unfold TextByte; infer_instance

/-- `AttValue`, production 10, without white space that is normalised -/
def AttrByte (c : Byte) : Prop := 0x20 ≤ c ∧ c ≠ 0x3C ∧ c ≠ 0x3E ∧ c ≠ 0x22

instance (c : Byte) : Decidable (AttrByte c) := by unfold AttrByte; infer_instance

/-- `NameChar`, production 4a, as far as ASCII is concerned -/
def NameByte (c : Byte) : Prop :=
  (0x61 ≤ c ∧ c ≤ 0x7A) ∨ (0x41 ≤ c ∧ c ≤ 0x5A) ∨ (0x30 ≤ c ∧ c ≤ 0x39) ∨ c = 0x3A ∨ c = 0x5F ∨ c = 0x2D ∨ c = 0x2E

instance (c : Byte) : Decidable (NameByte c) := by unfold NameByte; infer_instance

/-- `Name`, production 5 -/
def XmlName (n : Bytes) : Prop :=
  (∀ c ∈ n, NameByte c) ∧ ∃ c t, n = c :: t ∧ ¬ (0x30 ≤ c ∧ c ≤ 0x39) ∧ c ≠ 0x2D ∧ c ≠ 0x2E

/-- `(S Attribute)*`, productions 40 and 41 -/
inductive XmlAttrs : Bytes → List (Bytes × Bytes) → Prop
  | nil : XmlAttrs [] []
  | cons {n t v ts as} (hn : XmlName n) (h : RefText AttrByte t v) (hs : XmlAttrs ts as)
      (hu : ∀ a ∈ as, a.1 ≠ n) : XmlAttrs (SP :: (n ++ 0x3D :: 0x22 :: (t ++ 0x22 :: ts))) ((n, v) :: as)

/-- what a processor gets to see -/
inductive XmlToken
  | decl
  | start (name : Bytes) (attrs : List (Bytes × Bytes))
  | stop (name : Bytes)
  | text (v : Bytes)
deriving DecidableEq, Repr

/-- declarations and tags, productions 23, 40 and 42 -/
inductive XmlMarkup : Bytes → XmlToken → Prop
  | decl : XmlMarkup (bs "<?xml version=\"1.0\" encoding=\"UTF-8\"?>") .decl
  | start {n t as} (hn : XmlName n) (h : XmlAttrs t as) : XmlMarkup (0x3C :: (n ++ t ++ [0x3E])) (.start n as)
  | stop {n} (hn : XmlName n) : XmlMarkup (0x3C :: 0x2F :: (n ++ [0x3E])) (.stop n)

/-- a sequence of tokens; a text reaches up to the next markup -/
inductive XmlTokens : Bytes → List XmlToken → Prop
  | nil : XmlTokens [] []
  | markup {m k t ks} (hm : XmlMarkup m k) (h : XmlTokens t ks) : XmlTokens (m ++ t) (k :: ks)
  | text {s v t ks} (hs : RefText TextByte s v) (hne : s ≠ []) (ht : t = [] ∨ ∃ r, t = 0x3C :: r)
      (h : XmlTokens t ks) : XmlTokens (s ++ t) (.text v :: ks)

/-- end-of-line handling, section 2.11: CR LF and CR are read as LF -/
def lineEnds : Bytes → Bytes
  | [] => []
  | c :: t => if c = 0x0D then (if t.head? = some LF then lineEnds t else LF :: lineEnds t) else c :: lineEnds t

/-- white space, production 3 -/
def xmlSpace (v : Bytes) : Bool := v.all (fun c => c == 0x20 || c == 0x09 || c == 0x0A || c == 0x0D)

/-- the tokens after the start of the elements `open`, the innermost one first: each element ends, in this
order, and after the last one there is only white space -/
def inElements : List Bytes → List XmlToken → Bool
  | [], ks => ks.all (fun k => match k with | .text v => xmlSpace v | _ => false)
  | _ :: _, [] => false
  | n :: st, .start m _ :: ks => inElements (m :: n :: st) ks
  | n :: st, .stop m :: ks => n == m && inElements st ks
  | n :: st, .text _ :: ks => inElements (n :: st) ks
  | _ :: _, .decl :: _ => false

/-- `document`, production 1: a declaration and one element -/
def XmlDocument (ks : List XmlToken) : Prop :=
  ∃ n as ks', inElements [n] ks' = true ∧
    (ks = .decl :: .start n as :: ks' ∨ ∃ v, xmlSpace v = true ∧ ks = .decl :: .text v :: .start n as :: ks')

/-- a processor reads `t` as `ks` -/
def XmlReads (t : Bytes) (ks : List XmlToken) : Prop :=
  utf8Valid t = true ∧ XmlChars t ∧ XmlTokens (lineEnds t) ks ∧ XmlDocument ks

/-- the tokens without the white space that is not the text of a subfield -/
def picaTokens : Bool → List XmlToken → List XmlToken
  | _, [] => []
  | keep, .text v :: ks => if keep || !xmlSpace v then .text v :: picaTokens false ks else picaTokens false ks
  | _, .start n as :: ks => .start n as :: picaTokens (n == bs "subfield") ks
  | _, .stop n :: ks => .stop n :: picaTokens false ks
  | _, .decl :: ks => .decl :: picaTokens false ks

/-- a subfield as an element -/
def subfieldXml (code : Byte) (value : Bytes) : List XmlToken :=
  [.start (bs "subfield") [(bs "code", [code])]] ++ (if value = [] then [] else [.text value]) ++
    [.stop (bs "subfield")]

/-- a field as an element -/
def fieldXml (f : Bytes × List (Byte × Bytes)) : List XmlToken :=
  [.start (bs "datafield") [(bs "tag", f.1)]] ++ f.2.flatMap (fun s => subfieldXml s.1 s.2) ++
    [.stop (bs "datafield")]

/-- records in PICA XML: tags, codes and values -/
def picaXml (records : List (List (Bytes × List (Byte × Bytes)))) : List XmlToken :=
  [.decl, .start (bs "collection")
    [(bs "targetNamespace", bs "info:srw/schema/5/picaXML-v1.0"),
     (bs "xmlns:xs", bs "http://www.w3.org/2001/XMLSchema"),
     (bs "xmlns", bs "info:srw/schema/5/picaXML-v1.0")]] ++
  records.flatMap (fun r => [.start (bs "record") []] ++ r.flatMap fieldXml ++ [.stop (bs "record")]) ++
  [.stop (bs "collection")]

end Pica.Spec
