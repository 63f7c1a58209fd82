import Verif.Base.List
import Verif.Model.RuleFile

/-! # Rule files: which rules a table of a TOML file describes

Everything is said about the entries of tables.  `X` tells which paths, queries and
matchers texts stand for. -/

namespace Pica.Spec
open Pica

/-- what the texts of expressions stand for -/
structure Exprs where
  path : Bytes → Path → Prop
  query : Bytes → Query → Prop
  matcher : Bytes → RecordMatcher → Prop

/-- the texts that are accepted, for some state of the counters -/
def Exprs.accepted (rx : Bytes → Bool) : Exprs where
  path t p := ∃ s s', Path.new rx s t = (some p, s')
  query t q := ∃ s s', Query.new rx s t = (some q, s')
  matcher t m := ∃ s s', FieldMatcher.new rx s t = (some m, s')

/-- the texts that are accepted whatever the counters are, with the same result -/
def Exprs.always (rx : Bytes → Bool) : Exprs where
  path t p := ∀ s, ∃ s', Path.new rx s t = (some p, s')
  query t q := ∀ s, ∃ s', Query.new rx s t = (some q, s')
  matcher t m := ∀ s, ∃ s', FieldMatcher.new rx s t = (some m, s')

/-- no key is given twice, in no table -/
inductive Proper : TVal → Prop
  | str {s} : Proper (.str s)
  | int {i} : Proper (.int i)
  | float {b} : Proper (.float b)
  | bool {b} : Proper (.bool b)
  | date : Proper .date
  | arr {l} : (∀ v ∈ l, Proper v) → Proper (.arr l)
  | table {l : TTable} : (l.map (·.1)).Nodup → (∀ e ∈ l, Proper e.2) → Proper (.table l)

/-- no string, except keys, has a parenthesis -/
inductive Plain : TVal → Prop
  | str {s} : 0x28 ∉ s → Plain (.str s)
  | int {i} : Plain (.int i)
  | float {b} : Plain (.float b)
  | bool {b} : Plain (.bool b)
  | date : Plain .date
  | arr {l} : (∀ v ∈ l, Plain v) → Plain (.arr l)
  | table {l : TTable} : (∀ e ∈ l, Plain e.2) → Plain (.table l)

section
variable {α : Type}

/-- the key is given, and its value stands for `a` -/
def Given (k : Bytes) (P : TVal → α → Prop) (t : TTable) (a : α) : Prop := ∃ v, (k, v) ∈ t ∧ P v a

/-- the key is not given -/
def Absent (k : Bytes) (t : TTable) : Prop := ∀ v, (k, v) ∉ t

/-- the key may be left out -/
def May (k : Bytes) (P : TVal → α → Prop) (t : TTable) (a : Option α) : Prop :=
  (∃ x, Given k P t x ∧ a = some x) ∨ (Absent k t ∧ a = none)

/-- the key may be left out, then it stands for `d` -/
def Else (k : Bytes) (P : TVal → α → Prop) (d : α) (t : TTable) (a : α) : Prop :=
  Given k P t a ∨ (Absent k t ∧ a = d)

end

/-- a string -/
def IsStr (v : TVal) (s : Bytes) : Prop := v = .str s
/-- a Boolean -/
def IsBool (v : TVal) (b : Bool) : Prop := v = .bool b
/-- a number that is not negative -/
def IsNat (v : TVal) (n : Nat) : Prop := v = .int n
/-- a number -/
def IsNumber (v : TVal) (x : Threshold) : Prop :=
  (∃ i, v = .int i ∧ x = .int i) ∨ ∃ b, v = .float b ∧ x = .float b
/-- an array of strings -/
def IsStrs (v : TVal) (l : List Bytes) : Prop := v = .arr (l.map .str)
/-- a table -/
def IsTable {α : Type} (P : TTable → α → Prop) (v : TVal) (a : α) : Prop := ∃ t, v = .table t ∧ P t a
/-- a string with one of the names -/
def IsLevel (v : TVal) (l : CheckLevel) : Prop :=
  v = .str (match l with | .error => bs "error" | .warning => bs "warning" | .info => bs "info")
/-- a string with one of the names -/
def IsTermination (v : TVal) (fast : Bool) : Prop := v = .str (if fast then bs "fast" else bs "default")
/-- a string with one of the names -/
def IsForm (v : TVal) (nf : NForm) : Prop := v = .str nf.print

section
variable (R : RuleEnv) (X : Exprs)

/-- the text of a path -/
def IsPath (v : TVal) (p : Path) : Prop := ∃ text, v = .str text ∧ X.path text p
/-- the text of a query -/
def IsQuery (v : TVal) (q : Query) : Prop := ∃ text, v = .str text ∧ X.query text q
/-- the text of a matcher -/
def IsMatcher (v : TVal) (m : RecordMatcher) : Prop := ∃ text, v = .str text ∧ X.matcher text m

/-- the threshold and the case option, which most checks have -/
structure Common (t : TTable) (th : Threshold) (ci : Bool) : Prop where
  threshold : Else (bs "strsim-threshold") IsNumber .default t th
  case : Else (bs "case-ignore") IsBool false t ci

/-- file and column of an allow list -/
def IsList (t : TTable) (x : Bytes × Bytes) : Prop :=
  Given (bs "filename") IsStr t x.1 ∧ Given (bs "column") IsStr t x.2

/-- the target of a link -/
def IsTarget (t : TTable) (x : Path × Option RecordMatcher) : Prop :=
  Given (bs "path") (IsPath X) t x.1 ∧ May (bs "filter") (IsMatcher X) t x.2

/-- `Describes R X name t c`: with `check = "name"`, the table describes the check `c`. -/
inductive Describes : Bytes → TTable → RawCheck → Prop
  | allow {t p x th ci} : Given (bs "path") (IsPath X) t p → Given (bs "list") (IsTable IsList) t x → Common t th ci →
      Describes (bs "allow") t (.allow (R.env th) ⟨ci⟩ p x.1 x.2)
  | datetime {t p th ci fmt n} : Given (bs "path") (IsPath X) t p → Common t th ci →
      Else (bs "format") IsStr (bs "%Y-%m-%d") t fmt → Else (bs "offset") IsNat 0 t n →
      Describes (bs "datetime") t (.other (.datetime (R.env th) ⟨ci⟩ p (R.strptime fmt) n))
  | duplicates {t q n th sep ci} : Given (bs "query") (IsQuery X) t q → Else (bs "threshold") IsNat 2 t n →
      Common t th ci → Else (bs "separator") IsStr (bs "|") t sep →
      Describes (bs "duplicates") t (.other (.duplicates (R.fmtEnv th) ci q n sep))
  | filter {t m th ci inv} : Given (bs "filter") (IsMatcher X) t m → Common t th ci →
      Else (bs "invert-match") IsBool false t inv →
      Describes (bs "filter") t (.other (.filter (R.env th) ⟨ci⟩ m inv))
  | isni {t p pre th ci} : Given (bs "path") (IsPath X) t p → May (bs "prefix") IsStr t pre → Common t th ci →
      Describes (bs "isni") t (.other (.isni (R.env th) ⟨ci⟩ p pre))
  | iso639 {t p th ci} : Given (bs "path") (IsPath X) t p → Common t th ci →
      Describes (bs "iso639-2b") t (.other (.iso639 (R.env th) ⟨ci⟩ p))
  | jel {t p th ci} : Given (bs "path") (IsPath X) t p → Common t th ci →
      Describes (bs "jelc") t (.other (.jel (R.env th) ⟨ci⟩ p))
  | link {t src tgt th ci} : Given (bs "source") (IsTable (fun u p => Given (bs "path") (IsPath X) u p)) t src →
      Given (bs "target") (IsTable (IsTarget X)) t tgt → Common t th ci →
      Describes (bs "link") t (.other (.link (R.env th) ⟨ci⟩ src tgt.1 tgt.2 ⟨[], []⟩))
  | unicode {t nf} : May (bs "normalization") IsForm t nf →
      Describes (bs "unicode") t (.other (.unicode (nf.map R.isForm)))

/-- the table of a rule -/
structure IsRule (t : TTable) (r : RawRule) : Prop where
  description : ∃ a, May (bs "description") IsStr t a
  link : ∃ a, May (bs "link") IsStr t a
  tags : May (bs "tags") IsStrs t r.tags
  level : Else (bs "level") IsLevel .error t r.level
  check : ∃ name, Given (bs "check") IsStr t name ∧ Describes R X name t r.check

/-- the tables of rules, each with its name -/
def IsRules (t : TTable) (rs : List (Bytes × RawRule)) : Prop :=
  All2 (fun e r => e.1 = r.1 ∧ IsTable (IsRule R X) e.2 r.2) t rs

/-- the table of a rule set -/
structure IsRuleSet (t : TTable) (rs : RawRuleSet) : Prop where
  scope : May (bs "scope") (IsMatcher X) t rs.scope
  termination : Else (bs "termination") IsTermination false t rs.fast
  rules : Else (bs "rule") (IsTable (IsRules R X)) [] t rs.rules

end

/-- the keys of a rule that have a meaning for some check -/
def ruleKeys : List Bytes :=
  [bs "description", bs "link", bs "tags", bs "level", bs "check", bs "path", bs "list", bs "strsim-threshold",
   bs "case-ignore", bs "format", bs "offset", bs "query", bs "threshold", bs "separator", bs "filter",
   bs "invert-match", bs "prefix", bs "source", bs "target", bs "normalization"]

/-- the keys of a rule set -/
def ruleSetKeys : List Bytes := [bs "scope", bs "termination", bs "rule"]

end Pica.Spec
