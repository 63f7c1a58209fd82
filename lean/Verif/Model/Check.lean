import Verif.Model.Command
import Verif.Model.Query
import Verif.Model.CheckCodes
import Verif.Model.Predicates

/-!
# The command `check`

Models `crates/pica-cli/src/commands/check`.  Rule files are read in
`Model/RuleFile`, allow lists and the CSV text of the reports are in `Model/CheckOutput`.  Every check
has its own similarity threshold, hence its own environment `E`.  A result `none`
is a panic.
-/

namespace Pica

/-- `values.join(sep)` on strings -/
def joinText (sep : Bytes) (l : List Bytes) : Bytes := (l.intersperse sep).flatten

/-! ## isni -/

/-- isni.rs:39-43: bytes below `0` are dropped, from all others 48 is subtracted -/
def isniDigits (v : Bytes) : List Nat :=
  v.filterMap (fun c => if c ≥ 48 then some (c.toNat - 48) else none)

/-- isni.rs:51-59; the sum is a `u64` and small, so natural numbers are used -/
def isniCheckDigit (ds : List Nat) : Nat :=
  let total := (ds.take 15).foldl (fun acc item => (acc + item) * 2) 0
  let result := (12 - total % 11) % 11
  if result = 10 then 40 else result

/-- isni.rs:45-64: whether the value is not reported -/
def isniOk (v : Bytes) : Bool :=
  let ds := isniDigits v
  if ds.length ≠ 16 then false else isniCheckDigit ds == ds.getD 15 0

/-- isni.rs:29-37: values without the prefix are not looked at -/
def isniAccepts (pre : Option Bytes) (v : Bytes) : Bool :=
  match pre with
  | some p => if p.isPrefixOf v then isniOk (v.drop p.length) else true
  | none => isniOk v

/-! ## duplicates -/

/-- `freqs.entry(value).and_modify(|count| *count += 1).or_insert(1)`,
duplicates.rs:52-55 -/
def tallyAdd (t : List (Bytes × Nat)) (key : Bytes) : List (Bytes × Nat) :=
  if t.any (fun x => x.1 == key) then t.map (fun x => if x.1 == key then (x.1, x.2 + 1) else x)
  else t ++ [(key, 1)]

/-- the string that is counted for a row, duplicates.rs:44-51 -/
def duplicateKey (lossy : Bytes → Bytes) (sep : Bytes) (row : List Bytes) : Option Bytes :=
  if (row.map lossy).all List.isEmpty then none else some (joinText sep (row.map lossy))

/-- all strings that are counted, duplicates.rs:43-51 -/
def duplicateKeys (lossy : Bytes → Bytes) (sep : Bytes) (rows : Outcome) : List Bytes :=
  rows.filterMap (duplicateKey lossy sep)

/-! ## link -/

/-- the state of `Link`, link.rs:17-21; the map `unseen` is a list with distinct
keys -/
structure LinkState where
  unseen : List (Bytes × List Bytes)
  seen : List Bytes
deriving DecidableEq, Repr

/-- link.rs:77-80 -/
def unseenAdd (t : List (Bytes × List Bytes)) (ppn value : Bytes) : List (Bytes × List Bytes) :=
  if t.any (fun x => x.1 == ppn) then t.map (fun x => if x.1 == ppn then (x.1, x.2 ++ [value]) else x)
  else t ++ [(ppn, [value])]

/-- the loop of `Link::check`, link.rs:72-81 -/
def LinkState.note (s : LinkState) (ppn : Bytes) (values : List Bytes) : LinkState :=
  ⟨values.foldl (fun t v => if s.seen.contains v then t else unseenAdd t ppn v) s.unseen, s.seen⟩

/-- `Link::finish`, link.rs:86-103; `iter` is the order in which the hash map is
iterated -/
def LinkState.finish (lossy : Bytes → Bytes) (iter : List (Bytes × List Bytes) → List (Bytes × List Bytes))
    (s : LinkState) : List (Bytes × Option Bytes) :=
  (iter s.unseen).filterMap (fun x =>
    let message := joinText (bs ", ") ((x.2.filter (fun v => !s.seen.contains v)).map lossy)
    if !message.isEmpty then some (x.1, some message) else none)

/-! ## all checks -/

/-- `Checks`, checks/mod.rs:15-31.  `datetime` has `parses` for `strptime` with
the format of the check; `unicode` has the test of the normalization form. -/
inductive Checks where
  | allow (E : Env) (o : Opts) (path : Path) (values : List Bytes)
  | datetime (E : Env) (o : Opts) (path : Path) (parses : Bytes → Bool) (offset : Nat)
  | duplicates (E : FmtEnv) (caseIgnore : Bool) (query : Query) (threshold : Nat) (separator : Bytes)
  | filter (E : Env) (o : Opts) (matcher : RecordMatcher) (invert : Bool)
  | isni (E : Env) (o : Opts) (path : Path) (pre : Option Bytes)
  | iso639 (E : Env) (o : Opts) (path : Path)
  | jel (E : Env) (o : Opts) (path : Path)
  | link (E : Env) (o : Opts) (source target : Path) (matcher : Option RecordMatcher) (s : LinkState)
  | unicode (normalised : Option (Bytes → Bool))

/-- what a run of `check` needs besides the rules: the environment of the default
matcher options, `to_string` of a byte string, the iteration orders of the hash
maps of `Link` and `Duplicates`, and `str::trim` -/
structure CheckEnv where
  E₀ : Env
  lossy : Bytes → Bytes
  iterLink : List (Bytes × List Bytes) → List (Bytes × List Bytes)
  iterDup : List (Bytes × Nat) → List (Bytes × Nat)
  trim : Bytes → Bytes

/-- result and message, allow.rs:57-68, iso639.rs:94-105, jelc.rs:152-163 -/
def listCheck (lossy : Bytes → Bytes) (list values : List Bytes) : Bool × Option Bytes :=
  let message := joinText (bs ", ") ((values.filter (fun v => !list.contains v)).map lossy)
  if !message.isEmpty then (true, some message) else (false, none)

/-- result and message of the checks that report each bad value, isni.rs:46-73,
datetime.rs:38-57, unicode.rs:33-50 -/
def badValues (text : Bytes → Bytes) (bad : List Bytes) : Bool × Option Bytes :=
  if !bad.isEmpty then (true, some (joinText (bs ", ") (bad.map text))) else (false, none)

/-- result and message, duplicates.rs:58-69 -/
def duplicatesCheck (C : CheckEnv) (threshold : Nat) (keys : List Bytes) : Bool × Option Bytes :=
  let freqs := (keys.foldl tallyAdd []).filter (fun x => decide (x.2 ≥ threshold))
  if !freqs.isEmpty then (true, some (joinText (bs "; ") ((C.iterDup freqs).map (·.1)))) else (false, none)

/-- the slice `value[offset..]`; `none` is the panic for an offset behind the end -/
def sliceFrom (v : Bytes) (offset : Nat) : Option Bytes :=
  if offset ≤ v.length then some (v.drop offset) else none

/-- the test of datetime.rs:39-44 -/
def datetimeBad (parses : Bytes → Bool) (offset : Nat) (v : Bytes) : Option Bool :=
  if offset ≥ v.length then some true else (sliceFrom v offset).map (fun t => !parses t)

/-- `value.to_str().unwrap()`, unicode.rs:35; `none` is the panic for a value that is
not valid UTF-8 -/
def toStrUnwrap (v : Bytes) : Option Bytes := if utf8Valid v then some v else none

/-- all values of a record in order -/
def Record.allValues (r : Record) : List Bytes := r.flatMap (fun f => f.subfields.map (·.value))

/-- `Link::preprocess`, link.rs:39-61 -/
def linkPreprocess (E : Env) (o : Opts) (target : Path) (matcher : Option RecordMatcher) (s : LinkState)
    (r : Record) : Option LinkState :=
  match target.values E o r with
  | none => none
  | some values =>
    if values.isEmpty then some s
    else
      match (match matcher with
        | some m => m.eval E o r
        | none => some true) with
      | none => none
      | some false => some s
      | some true => some ⟨s.unseen, s.seen ++ values⟩

/-- `Rule::preprocess`, rule.rs:51-55 -/
def Checks.preprocess (r : Record) : Checks → Option Checks
  | .link E o source target matcher s =>
    (linkPreprocess E o target matcher s r).map (fun s' => .link E o source target matcher s')
  | c => some c

/-- the `check` functions, as called by `Rule::check`, rule.rs:62-72: the new
check, the result and the message -/
def Checks.check (C : CheckEnv) (r : Record) (c : Checks) : Option (Checks × Bool × Option Bytes) :=
  match c with
  | .allow E o path values =>
    (path.values E o r).map (fun vs => (c, listCheck C.lossy values vs))
  | .iso639 E o path => (path.values E o r).map (fun vs => (c, listCheck C.lossy iso639Codes vs))
  | .jel E o path => (path.values E o r).map (fun vs => (c, listCheck C.lossy jelCodes vs))
  | .datetime E o path parses offset =>
    match path.values E o r with
    | none => none
    | some vs => (filterP (datetimeBad parses offset) vs).map (fun bad => (c, badValues C.lossy bad))
  | .isni E o path pre =>
    (path.values E o r).map (fun vs => (c, badValues C.lossy (vs.filter (fun v => !isniAccepts pre v))))
  | .duplicates E caseIgnore query threshold separator =>
    (query.run E ⟨caseIgnore, bs "|", false, false⟩ r).map (fun rows =>
      (c, duplicatesCheck C threshold (duplicateKeys C.lossy separator rows)))
  | .filter E o matcher invert =>
    (matcher.eval E o r).map (fun b => (c, if invert then !b else b, none))
  | .unicode normalised =>
    if r.validate then
      match normalised with
      | none => some (c, false, none)
      | some nf =>
        (mapP toStrUnwrap r.allValues).map (fun vs => (c, badValues id (vs.filter (fun v => !nf v))))
    else some (c, true, none)
  | .link E o source target matcher s =>
    match r.ppn C.E₀ ⟨false⟩, source.values E o r with
    | some ppn, some vs => some (.link E o source target matcher (s.note (ppn.getD []) vs), false, none)
    | _, _ => none

/-! ## rules and rule sets -/

/-- `Level`, rule.rs:10-17 -/
inductive CheckLevel | error | warning | info
deriving DecidableEq, Repr

/-- `Rule`, rule.rs:19-38, without description and link -/
structure CheckRule where
  id : Bytes
  tags : Option (List Bytes)
  level : CheckLevel
  check : Checks

/-- `Record`, writer/mod.rs:9-15 -/
structure Report where
  ppn : Option Bytes
  rule : Bytes
  level : CheckLevel
  message : Option Bytes
deriving DecidableEq, Repr

namespace CheckRule

/-- `Rule::preprocess`, rule.rs:50-55 -/
def preprocess (r : Record) (c : CheckRule) : Option CheckRule :=
  (c.check.preprocess r).map (fun x => { c with check := x })

/-- `Rule::check`, rule.rs:57-84: the rule, the reports and the result -/
def run (C : CheckEnv) (r : Record) (c : CheckRule) : Option (CheckRule × List Report × Bool) :=
  match c.check.check C r with
  | none => none
  | some (x, false, _) => some ({ c with check := x }, [], false)
  | some (x, true, message) =>
    match r.ppn C.E₀ ⟨false⟩ with
    | none => none
    | some ppn => some ({ c with check := x }, [⟨ppn, c.id, c.level, message⟩], true)

/-- `Rule::finish`, rule.rs:86-109 -/
def finish (C : CheckEnv) (c : CheckRule) : List Report :=
  match c.check with
  | .link _ _ _ _ _ s =>
    (s.finish C.lossy C.iterLink).map (fun x =>
      ⟨if x.1.isEmpty then none else some x.1, c.id, c.level, x.2⟩)
  | _ => []

end CheckRule

/-- `RuleSet`, set.rs:12-30; `rules` is in the order in which the hash map is
iterated, `fast` is `Termination::Fast` -/
structure RuleSet where
  scope : Option RecordMatcher
  fast : Bool
  rules : List CheckRule

namespace RuleSet

/-- `RuleSet::preprocess`, set.rs:64-68 -/
def preprocess (r : Record) (s : RuleSet) : Option RuleSet :=
  (mapP (CheckRule.preprocess r) s.rules).map (fun rules => { s with rules := rules })

/-- the loop of `RuleSet::check`, set.rs:81-88 -/
def checkRules (C : CheckEnv) (fast : Bool) (r : Record) : List CheckRule → Option (List CheckRule × List Report)
  | [] => some ([], [])
  | c :: cs =>
    match c.run C r with
    | none => none
    | some (c', reports, result) =>
      if fast && result then some (c' :: cs, reports)
      else
        match checkRules C fast r cs with
        | none => none
        | some (cs', reports') => some (c' :: cs', reports ++ reports')

/-- `RuleSet::check`, set.rs:70-91 -/
def check (C : CheckEnv) (r : Record) (s : RuleSet) : Option (RuleSet × List Report) :=
  match (match s.scope with
    | some m => m.eval C.E₀ ⟨false⟩ r
    | none => some true) with
  | none => none
  | some false => some (s, [])
  | some true =>
    (checkRules C s.fast r s.rules).map (fun x => ({ s with rules := x.1 }, x.2))

/-- the body of the loop in check/mod.rs:127-128 -/
def step (C : CheckEnv) (r : Record) (s : RuleSet) : Option (RuleSet × List Report) :=
  match s.preprocess r with
  | none => none
  | some s' => s'.check C r

/-- `RuleSet::finish`, set.rs:93-102 -/
def finish (C : CheckEnv) (s : RuleSet) : List Report := s.rules.flatMap (CheckRule.finish C)

end RuleSet

/-- the options of `Check`, check/mod.rs:19-47; `filter` is the regex set of
`--rule`, `tags` the text of `--tags` -/
structure CheckCmd where
  skip : Bool
  limit : Nat
  sel : Selection
  C : CheckEnv
  filter : Option (Bytes → Bool)
  tags : Option Bytes
  rulesets : List RuleSet

/-- rule sets, reports written, `count` -/
structure CheckState where
  rulesets : List RuleSet
  out : List Report
  count : Nat

namespace CheckCmd

/-- the two calls of `retain`, check/mod.rs:71-98 -/
def keeps (c : CheckCmd) (r : CheckRule) : Bool :=
  (match c.filter with
    | some re => re r.id
    | none => true) &&
  (match c.tags with
    | some text =>
      match r.tags with
      | some tags => tags.any (fun t => ((splitComma text).map c.C.trim).contains t)
      | none => false
    | none => true)

/-- check/mod.rs:71-100 -/
def prepared (c : CheckCmd) : List RuleSet :=
  (c.rulesets.map (fun s => { s with rules := s.rules.filter c.keeps })).filter (fun s => !s.rules.isEmpty)

/-- check/mod.rs:126-129 -/
def record (C : CheckEnv) (r : Record) : List RuleSet → Option (List RuleSet × List Report)
  | [] => some ([], [])
  | s :: ss =>
    match s.step C r with
    | none => none
    | some (s', out) =>
      match record C r ss with
      | none => none
      | some (ss', out') => some (s' :: ss', out ++ out')

/-- check/mod.rs:126-136 -/
def body (c : CheckCmd) (s : CheckState) (r : ByteRecord) : Step CheckState :=
  match record c.C r.record s.rulesets with
  | none => .panic
  | some (ss, out) => limitStep c.limit (s.count + 1) ⟨ss, s.out ++ out, s.count + 1⟩

/-- `Check::execute`, check/mod.rs:50-150: the reports given to the writer -/
def run (c : CheckCmd) (files : List (String × Bytes)) : LoopResult (List Report) :=
  match filesLoop c.skip id (selBody c.sel.test c.body) files ⟨c.prepared, [], 0⟩ with
  | .ok s => .ok (s.out ++ s.rulesets.flatMap (RuleSet.finish c.C))
  | .err e s => .err e s.out
  | .panic => .panic

end CheckCmd
end Pica
