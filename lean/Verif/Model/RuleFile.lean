import Verif.Model.CheckOutput

/-!
# Rule files of the command `check`

Models how `RuleSet::new` (`crates/pica-cli/src/commands/check/set.rs:33-62`) gets rules
from a file: the derived `Deserialize` of `RuleSet`, `Rule`, `Checks` and of the nine
checks, and the `Deserialize` of paths, queries and record matchers.  Reading TOML is an
oracle: a text is a table or an error.

Simplified: the fields of a struct are read in the order in which they are declared, not
in the order of the file.  This matters only for the counters of the parsers (`Levels`).
A unit variant that is given as a table (`level = { error = {} }`) is an error.
-/

namespace Pica

/-- a value of a TOML document; `float` has the bits of the number, dates and times are
not told apart -/
inductive TVal where
  | str (s : Bytes)
  | int (i : Int)
  | float (bits : UInt64)
  | bool (b : Bool)
  | date
  | arr (l : List TVal)
  | table (l : List (Bytes × TVal))

/-- the entries of a table, in the order in which they are visited -/
abbrev TTable := List (Bytes × TVal)

/-- the value of a key -/
def TTable.get (t : TTable) (k : Bytes) : Option TVal := (t.find? (fun e => e.1 == k)).map (·.2)

/-- reading a value: an error ends the program, otherwise the counters of the parsers are
passed on -/
def De (α : Type) := Levels → Option (α × Levels)

instance : Monad De where
  pure a := fun s => some (a, s)
  bind x f := fun s => (x s).bind (fun y => f y.1 y.2)

/-- an error -/
def De.fail {α : Type} : De α := fun _ => none

/-- a value or an error -/
def De.ofOption {α : Type} : Option α → De α
  | some a => pure a
  | none => De.fail

/-- a parser that is called on a text -/
def De.parse {α : Type} (new : Levels → Bytes → Option α × Levels) (text : Bytes) : De α := fun s =>
  match new s text with
  | (some a, s') => some (a, s')
  | (none, _) => none

/-- a field that is required -/
def De.required {α : Type} (k : Bytes) (d : TVal → De α) (t : TTable) : De α :=
  match t.get k with
  | some v => d v
  | none => De.fail

/-- a field of the type `Option`: `None` if the key is missing -/
def De.optional {α : Type} (k : Bytes) (d : TVal → De α) (t : TTable) : De (Option α) :=
  match t.get k with
  | some v => do return some (← d v)
  | none => pure none

/-- a field with `#[serde(default)]` -/
def De.default {α : Type} (k : Bytes) (d : TVal → De α) (a : α) (t : TTable) : De α :=
  match t.get k with
  | some v => d v
  | none => pure a

/-! ## values -/

/-- `String`, `PathBuf` -/
def deString : TVal → De Bytes
  | .str s => pure s
  | _ => De.fail

/-- `bool` -/
def deBool : TVal → De Bool
  | .bool b => pure b
  | _ => De.fail

/-- `usize` -/
def deNat : TVal → De Nat
  | .int i => if 0 ≤ i then pure i.toNat else De.fail
  | _ => De.fail

/-- a threshold, `f64`: the default value of `strsim_threshold`, checks/mod.rs:11-13, or a
number of the file -/
inductive Threshold where
  | default
  | int (i : Int)
  | float (bits : UInt64)
deriving DecidableEq, Repr

/-- `f64`; integers are converted -/
def deFloat : TVal → De Threshold
  | .int i => pure (.int i)
  | .float b => pure (.float b)
  | _ => De.fail

/-- `Vec<String>`, the elements -/
def deStrings : List TVal → De (List Bytes)
  | [] => pure []
  | v :: vs => do
    let s ← deString v
    let l ← deStrings vs
    return s :: l

/-- `Vec<String>` -/
def deList : TVal → De (List Bytes)
  | .arr l => deStrings l
  | _ => De.fail

/-- a struct -/
def deStruct {α : Type} (d : TTable → De α) : TVal → De α
  | .table t => d t
  | _ => De.fail

/-- the name of a unit variant -/
def deVariant {α : Type} (names : List (Bytes × α)) (v : TVal) : De α := do
  let s ← deString v
  De.ofOption ((names.find? (fun e => e.1 == s)).map (·.2))

/-- `Level`, rule.rs:10-17 -/
def deLevel : TVal → De CheckLevel :=
  deVariant [(bs "error", .error), (bs "warning", .warning), (bs "info", .info)]

/-- `Termination`, set.rs:24-30; `true` is `Fast` -/
def deTermination : TVal → De Bool := deVariant [(bs "default", false), (bs "fast", true)]

/-- `NormalizationForm`, translit.rs:8-18 -/
def deForm : TVal → De NForm :=
  deVariant [(bs "nfc", .nfc), (bs "nfkc", .nfkc), (bs "nfd", .nfd), (bs "nfkd", .nfkd)]

/-! ## rules -/

/-- what is needed to read rules: the test of regular expressions, the environments for
a threshold, `strptime` for a format, the tests of normalization forms -/
structure RuleEnv where
  rx : Bytes → Bool
  env : Threshold → Env
  fmtEnv : Threshold → FmtEnv
  strptime : Bytes → Bytes → Bool
  isForm : NForm → Bytes → Bool

section
variable (R : RuleEnv)

/-- `Deserialize` of `Path`, src/path.rs:189-197 -/
def dePath (v : TVal) : De Path := do De.parse (Path.new R.rx) (← deString v)

/-- `Deserialize` of `Query`, src/query.rs:97-105 -/
def deQuery (v : TVal) : De Query := do De.parse (Query.new R.rx) (← deString v)

/-- `Deserialize` of `RecordMatcher`, src/matcher/record.rs:313-321 -/
def deMatcher (v : TVal) : De RecordMatcher := do De.parse (FieldMatcher.new R.rx) (← deString v)

/-- the threshold of a check -/
def deThreshold (t : TTable) : De Threshold := De.default (bs "strsim-threshold") deFloat .default t

/-- the field `case_ignore` of a check -/
def deCase (t : TTable) : De Bool := De.default (bs "case-ignore") deBool false t

/-- `List`, allow.rs:28-33 -/
def deAllowList (t : TTable) : De (Bytes × Bytes) := do
  let filename ← De.required (bs "filename") deString t
  let column ← De.required (bs "column") deString t
  return (filename, column)

/-- `Allow`, allow.rs:11-26 -/
def deAllow (t : TTable) : De RawCheck := do
  let path ← De.required (bs "path") (dePath R) t
  let l ← De.required (bs "list") (deStruct deAllowList) t
  let th ← deThreshold t
  let ci ← deCase t
  return .allow (R.env th) ⟨ci⟩ path l.1 l.2

/-- `DateTime`, datetime.rs:4-24 -/
def deDateTime (t : TTable) : De RawCheck := do
  let path ← De.required (bs "path") (dePath R) t
  let th ← deThreshold t
  let ci ← deCase t
  let fmt ← De.default (bs "format") deString (bs "%Y-%m-%d") t
  let offset ← De.default (bs "offset") deNat 0 t
  return .other (.datetime (R.env th) ⟨ci⟩ path (R.strptime fmt) offset)

/-- `Duplicates`, duplicates.rs:4-30 -/
def deDuplicates (t : TTable) : De RawCheck := do
  let query ← De.required (bs "query") (deQuery R) t
  let threshold ← De.default (bs "threshold") deNat 2 t
  let th ← deThreshold t
  let separator ← De.default (bs "separator") deString (bs "|") t
  let ci ← deCase t
  return .other (.duplicates (R.fmtEnv th) ci query threshold separator)

/-- `Filter`, filter.rs:3-17 -/
def deFilter (t : TTable) : De RawCheck := do
  let matcher ← De.required (bs "filter") (deMatcher R) t
  let th ← deThreshold t
  let ci ← deCase t
  let invert ← De.default (bs "invert-match") deBool false t
  return .other (.filter (R.env th) ⟨ci⟩ matcher invert)

/-- `Isni`, isni.rs:3-14 -/
def deIsni (t : TTable) : De RawCheck := do
  let path ← De.required (bs "path") (dePath R) t
  let pre ← De.optional (bs "prefix") deString t
  let th ← deThreshold t
  let ci ← deCase t
  return .other (.isni (R.env th) ⟨ci⟩ path pre)

/-- `Iso639`, iso639.rs:7-17 -/
def deIso639 (t : TTable) : De RawCheck := do
  let path ← De.required (bs "path") (dePath R) t
  let th ← deThreshold t
  let ci ← deCase t
  return .other (.iso639 (R.env th) ⟨ci⟩ path)

/-- `Jel`, jelc.rs:7-17 -/
def deJel (t : TTable) : De RawCheck := do
  let path ← De.required (bs "path") (dePath R) t
  let th ← deThreshold t
  let ci ← deCase t
  return .other (.jel (R.env th) ⟨ci⟩ path)

/-- `Source`, link.rs:24-28 -/
def deSource (t : TTable) : De Path := De.required (bs "path") (dePath R) t

/-- `Target`, link.rs:30-36 -/
def deTarget (t : TTable) : De (Path × Option RecordMatcher) := do
  let path ← De.required (bs "path") (dePath R) t
  let matcher ← De.optional (bs "filter") (deMatcher R) t
  return (path, matcher)

/-- `Link`, link.rs:5-22 -/
def deLink (t : TTable) : De RawCheck := do
  let source ← De.required (bs "source") (deStruct (deSource R)) t
  let target ← De.required (bs "target") (deStruct (deTarget R)) t
  let th ← deThreshold t
  let ci ← deCase t
  return .other (.link (R.env th) ⟨ci⟩ source target.1 target.2 ⟨[], []⟩)

/-- `Unicode`, unicode.rs:7-11 -/
def deUnicode (t : TTable) : De RawCheck := do
  let nf ← De.optional (bs "normalization") deForm t
  return .other (.unicode (nf.map R.isForm))

/-- `Checks`, checks/mod.rs:15-31: the key `check` tells which check it is -/
def deChecks (t : TTable) : De RawCheck := do
  let d ← De.required (bs "check") (deVariant [(bs "allow", deAllow R), (bs "datetime", deDateTime R),
    (bs "duplicates", deDuplicates R), (bs "filter", deFilter R), (bs "isni", deIsni R),
    (bs "iso639-2b", deIso639 R), (bs "jelc", deJel R), (bs "link", deLink R), (bs "unicode", deUnicode R)]) t
  d t

/-- `Rule`, rule.rs:19-38: all keys that are not fields of `Rule` go to `Checks`; no field
of a check has the name of a field of `Rule`, so the whole table can be given to it -/
def deRule (t : TTable) : De RawRule := do
  let _ ← De.optional (bs "description") deString t
  let _ ← De.optional (bs "link") deString t
  let tags ← De.optional (bs "tags") deList t
  let level ← De.default (bs "level") deLevel .error t
  let check ← deChecks R t
  return ⟨tags, level, check⟩

/-- `HashMap<String, Rule>` -/
def deRules : TTable → De (List (Bytes × RawRule))
  | [] => pure []
  | (id, v) :: t => do
    let r ← deStruct (deRule R) v
    let l ← deRules t
    return (id, r) :: l

/-- a rule set as it is read from TOML -/
structure RawRuleSet where
  scope : Option RecordMatcher
  fast : Bool
  rules : List (Bytes × RawRule)

/-- `RuleSet`, set.rs:12-22 -/
def deRuleSet (t : TTable) : De RawRuleSet := do
  let scope ← De.optional (bs "scope") (deMatcher R) t
  let fast ← De.default (bs "termination") deTermination false t
  let rules ← De.default (bs "rule") (deStruct (deRules R)) [] t
  return ⟨scope, fast, rules⟩

/-- `RuleSet::new`, set.rs:33-62; `text` is the content of the file, if it can be read,
`order` the order in which the hash map of the rules is iterated -/
def RuleSet.new (toml : Bytes → Option TTable) (tr : NForm → Bytes → Bytes) (tables : Bytes → Option Table)
    (order : List (Bytes × RawRule) → List (Bytes × RawRule)) (nf : Option NForm) (text : Option Bytes) :
    De RuleSet := do
  let content ← De.ofOption text
  if utf8Valid content then
    let t ← De.ofOption (toml (translit tr nf content))
    let rs ← deRuleSet R t
    De.ofOption (RuleSet.load tables rs.scope rs.fast (order rs.rules))
  else De.fail

/-- the rule sets of `--rule-set`, check/mod.rs:62-69 -/
def loadRuleSets (toml : Bytes → Option TTable) (tr : NForm → Bytes → Bytes) (tables : Bytes → Option Table)
    (order : List (Bytes × RawRule) → List (Bytes × RawRule)) (nf : Option NForm) :
    List (Option Bytes) → De (List RuleSet)
  | [] => pure []
  | text :: texts => do
    let s ← RuleSet.new R toml tr tables order nf text
    let l ← loadRuleSets toml tr tables order nf texts
    return s :: l

/-- `Check::execute`, check/mod.rs:50-150, with the texts of the rule files; `none` is an
error before any record is read -/
def CheckCmd.execute (toml : Bytes → Option TTable) (tr : NForm → Bytes → Bytes) (tables : Bytes → Option Table)
    (order : List (Bytes × RawRule) → List (Bytes × RawRule)) (nf : Option NForm) (texts : List (Option Bytes))
    (c : CheckCmd) (s : Levels) (files : List (String × Bytes)) : Option (LoopResult (List Report)) :=
  match loadRuleSets R toml tr tables order nf texts s with
  | none => none
  | some (sets, _) => some (CheckCmd.run { c with rulesets := sets } files)

end
end Pica
