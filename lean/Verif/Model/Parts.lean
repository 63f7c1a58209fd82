import Verif.Model.Owned
import Verif.Model.Lexical

/-! Models the `Display` implementations of the parts of a record and of the operators.  A `BStr` is
printed with U+FFFD for everything that is not UTF-8 (`bstr`); `lossy` stands for it.

Printing a part is not writing it: `write_to` is modelled in `Model/Record.lean` and
`Model/Owned.lean`. -/

namespace Pica

/-- `Display for TagRef`, tag.rs:157-161, and for `Tag`, tag.rs:374-391 -/
def Tag.display (lossy : Bytes → Bytes) (t : Bytes) : Bytes := lossy t
/-- `Display for OccurrenceRef`, occurrence.rs:149-153 -/
def Occurrence.display (lossy : Bytes → Bytes) (o : Bytes) : Bytes := bs "/" ++ lossy o
/-- `Display for Occurrence`, occurrence.rs:241-245; without the slash -/
def OOcc.display (lossy : Bytes → Bytes) (o : OOcc) : Bytes := lossy o.bytes
/-- `PartialEq<&str> for TagRef`, tag.rs:206-208 and 225-227; for `Tag`, 329-331 -/
def Tag.eqStr (t s : Bytes) : Bool := t == s
/-- `PartialEq<T> for OccurrenceRef`, occurrence.rs:144-146; for `Occurrence`, 280-282 -/
def Occurrence.eqBytes (o s : Bytes) : Bool := o == s
/-- `Display for RelationalOp`, operator.rs:92-108 -/
def RelOp.display : RelOp → Bytes
  | .eq => bs "=="
  | .ne => bs "!="
  | .gt => bs ">"
  | .ge => bs ">="
  | .lt => bs "<"
  | .le => bs "<="
  | .startsWith => bs "=^"
  | .startsNotWith => bs "!^"
  | .endsWith => bs "=$"
  | .endsNotWith => bs "!$"
  | .similar => bs "=*"
/-- `Display for Quantifier`, quantifier.rs:13-20 -/
def Quantifier.display : Quantifier → Bytes
  | .all => bs "ALL"
  | .any => bs "ANY"

end Pica
