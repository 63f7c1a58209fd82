import Verif.Model.Convert

/-!
# The text of XML outputs

Models how convert/xml.rs uses `quick_xml::writer::Writer` with an indentation of four
spaces.  The writer of quick_xml 0.41 is modelled from its documentation and from
tests/data/ada.xml: markup begins a new line, unless it comes first or follows text, and
is indented by four spaces for each open element.
-/

namespace Pica.Convert

/-- `quick_xml::events::Event`, as far as it is used -/
inductive XEvent
  | decl
  | start (name : Bytes) (attrs : List (Bytes × Bytes))
  | stop (name : Bytes)
  | text (v : Bytes)
deriving DecidableEq, Repr

/-- `Writer::new_with_indent(inner, b' ', 4)`: the number of open elements, whether markup begins
a new line, and the text -/
structure XWriter where
  depth : Nat
  brk : Bool
  out : Bytes
deriving DecidableEq, Repr

/-- an attribute -/
def xmlAttr (esc : Byte → Bytes) (a : Bytes × Bytes) : Bytes :=
  SP :: a.1 ++ 0x3D :: 0x22 :: a.2.flatMap esc ++ [0x22]

/-- the line break and the indentation before markup -/
def XWriter.newline (w : XWriter) : Bytes :=
  if w.brk then LF :: List.replicate (4 * w.depth) SP else []

/-- `Writer::write_event`; `esc` is `quick_xml::escape::escape` of a character -/
def XWriter.event (esc : Byte → Bytes) (w : XWriter) : XEvent → XWriter
  | .decl => ⟨w.depth, true, w.out ++ w.newline ++ bs "<?xml version=\"1.0\" encoding=\"UTF-8\"?>"⟩
  | .start name attrs =>
    ⟨w.depth + 1, true, w.out ++ w.newline ++ 0x3C :: (name ++ attrs.flatMap (xmlAttr esc) ++ [0x3E])⟩
  | .stop name =>
    ⟨w.depth - 1, true, w.out ++ ({ w with depth := w.depth - 1 } : XWriter).newline ++
      0x3C :: 0x2F :: (name ++ [0x3E])⟩
  | .text v => ⟨w.depth, false, w.out ++ v.flatMap esc⟩

/-- the events of a subfield, xml.rs:68-82 -/
def subfieldEvents (s : Byte × Bytes) : List XEvent :=
  [.start (bs "subfield") [(bs "code", [s.1])], .text s.2, .stop (bs "subfield")]

/-- the events of a field, xml.rs:61-88 -/
def fieldEvents (f : Bytes × List (Byte × Bytes)) : List XEvent :=
  .start (bs "datafield") [(bs "tag", f.1)] :: f.2.flatMap subfieldEvents ++ [.stop (bs "datafield")]

/-- the events of a record, xml.rs:57-93 -/
def recordEvents (r : List (Bytes × List (Byte × Bytes))) : List XEvent :=
  .start (bs "record") [] :: r.flatMap fieldEvents ++ [.stop (bs "record")]

/-- the events of `XmlWriter::new`, xml.rs:26-46 -/
def headEvents : List XEvent :=
  [.decl, .start (bs "collection")
    [(bs "targetNamespace", bs "info:srw/schema/5/picaXML-v1.0"),
     (bs "xmlns:xs", bs "http://www.w3.org/2001/XMLSchema"),
     (bs "xmlns", bs "info:srw/schema/5/picaXML-v1.0")]]

/-- the events of `XmlWriter::finish`, xml.rs:97-102 -/
def tailEvents : List XEvent := [.stop (bs "collection")]

/-- the text of a `record` element, written after the head or after another record -/
def xmlRecordText (esc : Byte → Bytes) (r : List (Bytes × List (Byte × Bytes))) : Bytes :=
  ((recordEvents r).foldl (XWriter.event esc) ⟨1, true, []⟩).out

/-- `convert --to xml` with the texts of quick_xml -/
def xmlCmd (esc : Byte → Bytes) (skip : Bool) (lossy : Bytes → Bytes) : ConvertCmd :=
  ⟨skip, .xml, lossy, xmlRecordText esc, (headEvents.foldl (XWriter.event esc) ⟨0, false, []⟩).out,
    (tailEvents.foldl (XWriter.event esc) ⟨1, true, []⟩).out⟩

/-- `quick_xml::escape::escape` -/
def xmlEscape (c : Byte) : Bytes :=
  if c = 0x3C then bs "&lt;"
  else if c = 0x3E then bs "&gt;"
  else if c = 0x26 then bs "&amp;"
  else if c = 0x27 then bs "&apos;"
  else if c = 0x22 then bs "&quot;"
  else [c]

end Pica.Convert
