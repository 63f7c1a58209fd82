import Verif.Base.Bytes

/-!
# Comma-separated values (RFC 4180)

The grammar of the text, without reference to a writer: `CsvText d t rows` says that `t`
is a text of the rows `rows`, where `d` is the delimiter.
-/

namespace Pica.Spec

open Pica

/-- a text in which quotation marks are doubled -/
inductive Doubled : Bytes → Bytes → Prop
  | nil : Doubled [] []
  | quote {t v} (h : Doubled t v) : Doubled (0x22 :: 0x22 :: t) (0x22 :: v)
  | char {c t v} (hc : c ≠ 0x22) (h : Doubled t v) : Doubled (c :: t) (c :: v)

/-- a cell: text without special characters, or in quotes -/
inductive CsvCell (d : Byte) : Bytes → Bytes → Prop
  | plain {v} (h : ∀ c ∈ v, c ≠ d ∧ c ≠ 0x22 ∧ c ≠ 0x0D ∧ c ≠ LF) : CsvCell d v v
  | quoted {t v} (h : Doubled t v) : CsvCell d (0x22 :: t ++ [0x22]) v

/-- a row: at least one cell, with delimiters between the cells -/
inductive CsvRow (d : Byte) : Bytes → List Bytes → Prop
  | last {t v} (h : CsvCell d t v) : CsvRow d t [v]
  | cons {t v ts vs} (h : CsvCell d t v) (hs : CsvRow d ts vs) : CsvRow d (t ++ d :: ts) (v :: vs)

/-- rows that end with a line feed -/
inductive CsvText (d : Byte) : Bytes → List (List Bytes) → Prop
  | nil : CsvText d [] []
  | cons {t row ts rows} (h : CsvRow d t row) (hs : CsvText d ts rows) :
      CsvText d (t ++ LF :: ts) (row :: rows)

/-- a delimiter that can be told from the rest -/
def Delimiter (d : Byte) : Prop := d ≠ 0x22 ∧ d ≠ 0x0D ∧ d ≠ LF

end Pica.Spec
