import Verif.Spec.Expr
import Verif.Spec.TagPattern
import Verif.Spec.Grammar
import Verif.Spec.Utf8
import Verif.Model.Matcher

/-!
# The simple subfield matchers: texts and meanings

Stated with sets of codes, quantifiers and list predicates only.  `Env` supplies
the functions of other crates (lower case, similarity, regular expressions).
-/

namespace Pica.Spec
open Pica

/-- truth value of a proposition -/
noncomputable def truth (p : Prop) : Option Bool := open Classical in some (decide p)

/-! ## Codes and strings -/

/-- `a`, `[a-cx]` or `*` -/
inductive CodesText : Bytes → ByteSet → Prop
  | one (c) : IsCode c → CodesText [c] (fun b => b = c)
  | list {t S} : ClassText IsCode t S → CodesText ([0x5B] ++ t ++ [0x5D]) S
  | all : CodesText [0x2A] IsCode

/-- white space byte -/
def IsWs (b : Byte) : Prop := b = 0x20 ∨ b = 0x09 ∨ b = 0x0D ∨ b = 0x0A

/-- escape sequences in a string quoted by `q`: `\n \r \t \b \f \\ \/ \q` -/
def Escape (q e b : Byte) : Prop :=
  (e = 0x6E ∧ b = 0x0A) ∨ (e = 0x72 ∧ b = 0x0D) ∨ (e = 0x74 ∧ b = 0x09) ∨
  (e = 0x62 ∧ b = 0x08) ∨ (e = 0x66 ∧ b = 0x0C) ∨ (e = 0x5C ∧ b = 0x5C) ∨
  (e = 0x2F ∧ b = 0x2F) ∨ (e = q ∧ b = q)

/-- `Body q t s`: between quotes `q`, the text `t` denotes the bytes `s`.  A
backslash before white space removes all of the white space. -/
inductive Body (q : Byte) : Bytes → Bytes → Prop
  | nil : Body q [] []
  | lit {b t s} : b ≠ q → b ≠ 0x5C → Body q t s → Body q (b :: t) (b :: s)
  | esc {e b t s} : Escape q e b → Body q t s → Body q (0x5C :: e :: t) (b :: s)
  | skip {w t s} : w ≠ [] → Ws w → (∀ b, t.head? = some b → ¬ IsWs b) → Body q t s →
      Body q (0x5C :: (w ++ t)) s

/-- a string in single or double quotes -/
inductive StringText : Bytes → Bytes → Prop
  | mk {q t s} : q = 0x27 ∨ q = 0x22 → Body q t s → IsUtf8 s → StringText ([q] ++ t ++ [q]) s

/-- a comma between white space -/
def Sep (t : Bytes) : Prop := ∃ w w', t = w ++ [0x2C] ++ w' ∧ Ws w ∧ Ws w'

/-- items separated by commas -/
inductive ItemsText (R : Bytes → Bytes → Prop) : Bytes → List Bytes → Prop
  | one {t x} : R t x → ItemsText R t [x]
  | more {t x s t' xs} : R t x → Sep s → ItemsText R t' xs → ItemsText R (t ++ s ++ t') (x :: xs)

/-- `[x, y, ..]`, with an optional comma at the end -/
def ListText (R : Bytes → Bytes → Prop) (t : Bytes) (xs : List Bytes) : Prop :=
  ∃ w1 w2 items tail w3 w4, t = w1 ++ [0x5B] ++ w2 ++ items ++ tail ++ w3 ++ [0x5D] ++ w4 ∧
    Ws w1 ∧ Ws w2 ∧ ItemsText R items xs ∧ (tail = [] ∨ Sep tail) ∧ Ws w3 ∧ Ws w4

/-- white space, text, white space -/
def Padded (P : Bytes → Prop) (t : Bytes) : Prop :=
  ∃ w u w', t = w ++ u ++ w' ∧ Ws w ∧ P u ∧ Ws w'

/-- optional quantifier in front; `sp` says whether a space is needed after it -/
inductive QuantText (sp : Bool) : Bytes → Quantifier → Prop
  | none : QuantText sp [] .any
  | any {w w'} : Ws w → Ws w' → (sp = true → w' ≠ []) → QuantText sp (w ++ bs "ANY" ++ w') .any
  | all {w w'} : Ws w → Ws w' → (sp = true → w' ≠ []) → QuantText sp (w ++ bs "ALL" ++ w') .all

/-- operator signs -/
def relSign : RelOp → Bytes
  | .eq => bs "=="
  | .ne => bs "!="
  | .gt => bs ">"
  | .ge => bs ">="
  | .lt => bs "<"
  | .le => bs "<="
  | .startsWith => bs "=^"
  | .startsNotWith => bs "!^"
  | .endsWith => bs "=$"
  | .endsNotWith => bs "!$"
  | .similar => bs "=*"

/-! ## Meanings -/

/-- some / every subfield with a code in `S` has a value satisfying `P` -/
def Quant (q : Quantifier) (S : ByteSet) (P : Bytes → Prop) (sf : List Subfield) : Prop :=
  match q with
  | .any => ∃ s ∈ sf, S s.code ∧ P s.value
  | .all => ∀ s ∈ sf, S s.code → P s.value

/-- lower case if case is to be ignored -/
def fold (E : Env) (o : Opts) (v : Bytes) : Bytes := if o.caseIgnore then E.lower v else v

/-- Meaning of the operators on values, `x` on the right side.  With case
ignored `==` still needs equal lengths.  `>`, `<` and so on have no meaning. -/
def RelHolds (E : Env) (o : Opts) (op : RelOp) (x v : Bytes) : Prop :=
  match op with
  | .eq => v.length = x.length ∧ fold E o v = fold E o x
  | .ne => ¬ (v.length = x.length ∧ fold E o v = fold E o x)
  | .startsWith => ∃ z, fold E o v = fold E o x ++ z
  | .startsNotWith => ¬ ∃ z, fold E o v = fold E o x ++ z
  | .endsWith => ∃ z, fold E o v = z ++ fold E o x
  | .endsNotWith => ¬ ∃ z, fold E o v = z ++ fold E o x
  | .similar => E.similar o.caseIgnore x v = true
  | _ => False

/-- numeric comparison -/
def NumHolds (op : RelOp) (m n : Nat) : Prop :=
  match op with
  | .eq => m = n
  | .ne => m ≠ n
  | .gt => m > n
  | .ge => m ≥ n
  | .lt => m < n
  | .le => m ≤ n
  | _ => False

/-- string operators and number operators -/
def StrOp (op : RelOp) : Prop := op ≠ .gt ∧ op ≠ .ge ∧ op ≠ .lt ∧ op ≠ .le
def NumOp (op : RelOp) : Prop := op = .eq ∨ op = .ne ∨ op = .gt ∨ op = .ge ∨ op = .lt ∨ op = .le

/-- the positions in a list whose code is in `S`, counted -/
noncomputable def countCodes (S : ByteSet) (sf : List Subfield) : Nat :=
  open Classical in (sf.filter (fun s => decide (S s.code))).length

/-- Quantified test with a regular expression that may fail to compile
(`none`: panic). -/
noncomputable def rxDen (f : Option (Bytes → Bool)) (q : Quantifier) (S : ByteSet) (inv : Bool) :
    Den (List Subfield) := fun sf =>
  match f with
  | none => none
  | some f => truth (Quant q S (fun v => if inv then f v = false else f v = true) sf)

/-- a quoted regular expression which compiles -/
def RegexText (rx : Bytes → Bool) (t s : Bytes) : Prop := StringText t s ∧ rx s = true

/-- `SubText rx E o t v`: the text `t` is a simple subfield matcher with meaning `v`. -/
inductive SubText (rx : Bytes → Bool) (E : Env) (o : Opts) : Bytes → Den (List Subfield) → Prop
  | exists {c S} : CodesText c S →
      SubText rx E o (c ++ bs "?") (fun sf => truth (∃ s ∈ sf, S s.code))
  | relation {tq q c S to op ts x} : QuantText true tq q → Padded (CodesText · S) c →
      Padded (· = relSign op) to → StrOp op → Padded (StringText · x) ts →
      SubText rx E o (tq ++ c ++ to ++ ts) (fun sf => truth (Quant q S (RelHolds E o op x) sf))
  | contains {tq q c S to ts xs} : QuantText false tq q → Padded (CodesText · S) c →
      Padded (· = bs "=?") to →
      (ListText StringText ts xs ∨ ∃ x, xs = [x] ∧ Padded (StringText · x) ts) →
      SubText rx E o (tq ++ c ++ to ++ ts) (fun sf =>
        truth (Quant q S (fun v => ∃ x ∈ xs, ∃ y z, fold E o v = y ++ fold E o x ++ z) sf))
  | isIn {tq q c S tn inv ti ts xs} : QuantText false tq q → Padded (CodesText · S) c →
      ((inv = false ∧ tn = []) ∨ (inv = true ∧ Padded (· = bs "not") tn)) →
      Padded (· = bs "in") ti →
      (ListText StringText ts xs ∨
        ∃ cs : List Char, 1 < cs.length ∧ xs = cs.map String.utf8EncodeChar ∧
          StringText ts xs.flatten) →
      SubText rx E o (tq ++ c ++ tn ++ ti ++ ts) (fun sf =>
        truth (Quant q S (fun v =>
          if inv then ∀ x ∈ xs, fold E o v ≠ fold E o x else ∃ x ∈ xs, fold E o v = fold E o x) sf))
  | regex {tq q c S to inv ts x} : QuantText false tq q → Padded (CodesText · S) c →
      Padded (· = if inv then bs "!~" else bs "=~") to → RegexText rx ts x →
      SubText rx E o (tq ++ c ++ to ++ ts) (rxDen (E.regex o.caseIgnore x) q S inv)
  | regexSet {tq q c S to inv ts xs} : QuantText false tq q → Padded (CodesText · S) c →
      Padded (· = if inv then bs "!~" else bs "=~") to → ListText (RegexText rx) ts xs →
      SubText rx E o (tq ++ c ++ to ++ ts) (rxDen (E.regexSet o.caseIgnore xs) q S inv)
  | card {th c S to op ds} : Padded (· = bs "#") th → Padded (CodesText · S) c →
      Padded (· = relSign op) to → NumOp op → ds ≠ [] → (∀ b ∈ ds, 0x30 ≤ b ∧ b ≤ 0x39) →
      numVal ds < 2 ^ 64 →
      SubText rx E o (th ++ c ++ to ++ ds) (fun sf =>
        truth (NumHolds op (countCodes S sf) (numVal ds)))

/-- the simple matcher that may follow a `!` -/
inductive ExistsText : Bytes → Den (List Subfield) → Prop
  | mk {c S} : CodesText c S → ExistsText (c ++ bs "?") (fun sf => truth (∃ s ∈ sf, S s.code))

/-- `SubExprText rx E o t v`: the text `t` is a subfield expression with meaning `v` -/
abbrev SubExprText (rx : Bytes → Bool) (E : Env) (o : Opts) := OrT (SubText rx E o) ExistsText

end Pica.Spec

namespace Pica.Spec
open Pica

/-! ## Fields

Tags and occurrences are read by `TagMatcher.new` and `OccMatcher.new`, whose
meaning is the subject of C12 and C13. -/

/-- a tag pattern followed by an occurrence selector, both possibly with white
space around them (`pad`) -/
def Selects (t to : Bytes) (sel : Field → Prop) : Prop :=
  ∃ m om, TagMatcher.new t = some m ∧ OccMatcher.new to = some om ∧
    sel = fun f => m.isMatch f.tag = true ∧ om.isMatch f.occ = true

/-- Some / every selected field satisfies `v`; `none` if the evaluation of `v`
on a selected field that is reached panics. -/
noncomputable def FQuant (q : Quantifier) (sel : Field → Prop) (v : Den (List Subfield)) :
    Den (List Field)
  | [] => match q with
    | .any => some false
    | .all => some true
  | f :: fs =>
    open Classical in
    if sel f then
      match q, v f.subfields with
      | _, none => none
      | .any, some true => some true
      | .any, some false => FQuant q sel v fs
      | .all, some false => some false
      | .all, some true => FQuant q sel v fs
    else FQuant q sel v fs

/-- number of selected fields that satisfy `v`; `none` if `v` panics on one -/
noncomputable def FCount (sel : Field → Prop) (v : Den (List Subfield)) : List Field → Option Nat
  | [] => some 0
  | f :: fs =>
    open Classical in
    if sel f then
      match v f.subfields, FCount sel v fs with
      | some b, some n => some (if b then n + 1 else n)
      | _, _ => none
    else FCount sel v fs

/-- `FldText rx E o t v`: the text `t` is a simple field matcher with meaning `v` -/
inductive FldText (rx : Bytes → Bool) (E : Env) (o : Opts) : Bytes → Den (List Field) → Prop
  | exists {w t to w' sel} : Ws w → Selects t to sel → Ws w' →
      FldText rx E o (w ++ (t ++ to) ++ w' ++ bs "?") (fun fs => truth (∃ f ∈ fs, sel f))
  | dot {tq q t to sel w w' ts v} : QuantText false tq q → Selects t to sel → Ws w → Ws w' →
      SubText rx E o ts v →
      FldText rx E o (tq ++ t ++ to ++ w ++ bs "." ++ w' ++ ts) (FQuant q sel v)
  | braces {tq q t to sel tl ts tr v} : QuantText false tq q → Selects t to sel →
      Padded (· = bs "{") tl → SubExprText rx E o ts v → Padded (· = bs "}") tr →
      FldText rx E o (tq ++ t ++ to ++ tl ++ ts ++ tr) (FQuant q sel v)
  | card {th w1 t w2 w3 to w4 sel top op ds} : Padded (· = bs "#") th → Ws w1 → Selects t to sel →
      Ws w2 → Ws w3 → Ws w4 → Padded (· = relSign op) top → NumOp op → ds ≠ [] →
      (∀ b ∈ ds, 0x30 ≤ b ∧ b ≤ 0x39) → numVal ds < 2 ^ 64 →
      FldText rx E o (th ++ (w1 ++ t ++ w2) ++ (w3 ++ to ++ w4) ++ top ++ ds)
        (fun fs => (FCount sel (fun _ => some true) fs).bind
          (fun n => truth (NumHolds op n (numVal ds))))
  | cardSub {th w1 t w2 w3 to w4 sel tl ts tr v top op ds} : Padded (· = bs "#") th → Ws w1 →
      Selects t to sel → Ws w2 → Ws w3 → Ws w4 → Padded (· = bs "{") tl → SubExprText rx E o ts v →
      Padded (· = bs "}") tr → Padded (· = relSign op) top → NumOp op → ds ≠ [] →
      (∀ b ∈ ds, 0x30 ≤ b ∧ b ≤ 0x39) → numVal ds < 2 ^ 64 →
      FldText rx E o (th ++ (w1 ++ t ++ w2) ++ (w3 ++ to ++ w4) ++ tl ++ ts ++ tr ++ top ++ ds)
        (fun fs => (FCount sel v fs).bind (fun n => truth (NumHolds op n (numVal ds))))

/-- the field matchers that may follow a `!` without parentheses -/
inductive FldNegText (rx : Bytes → Bool) (E : Env) (o : Opts) : Bytes → Den (List Field) → Prop
  | exists {w t to w' sel} : Ws w → Selects t to sel → Ws w' →
      FldNegText rx E o (w ++ (t ++ to) ++ w' ++ bs "?") (fun fs => truth (∃ f ∈ fs, sel f))
  | dot {tq q t to sel w w' ts v} : QuantText false tq q → Selects t to sel → Ws w → Ws w' →
      ExistsText ts v →
      FldNegText rx E o (tq ++ t ++ to ++ w ++ bs "." ++ w' ++ ts) (FQuant q sel v)
  | braces {tq q t to sel tl ts tr v} : QuantText false tq q → Selects t to sel →
      Padded (· = bs "{") tl → SubExprText rx E o ts v → Padded (· = bs "}") tr →
      FldNegText rx E o (tq ++ t ++ to ++ tl ++ ts ++ tr) (FQuant q sel v)

/-- `FldExprText rx E o t v`: the text `t` is a field expression with meaning `v` -/
abbrev FldExprText (rx : Bytes → Bool) (E : Env) (o : Opts) :=
  OrT (FldText rx E o) (FldNegText rx E o)

end Pica.Spec
