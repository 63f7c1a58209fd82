import Verif.Model.Execute
import Verif.Props.Args
import Verif.Spec.Query

/-!
# What the filter options of a command ask for

The meaning of the options is given by the texts on the command line and the grammar of
expressions and paths (Spec/Atoms, Spec/Path), not by the parsers.
-/

namespace Pica.Spec
open Pica Props

/-- comparisons where two texts are similar iff their score is above `t` -/
def scored (W : World) (t : W.Num) : Env :=
  ⟨W.base.lower, fun ci a b => W.above (W.score ci a b) t, W.base.regex, W.base.regexSet⟩

/-- the record has the values `vs` at the path written in the text -/
def PathValues (W : World) (t : W.Num) (ignoreCase : Bool) (text : Bytes) (r : Record) (vs : List Bytes) : Prop :=
  ∃ sel v css, PathText W.rx (scored W t) ⟨ignoreCase⟩ text sel v css ∧ vs = addressed sel v css r

/-- a value is in one of the lists -/
def Listed (W : World) (column : Option Bytes) (names : List Bytes) (v : Bytes) : Prop :=
  ∃ name ∈ names, ∃ t cells, W.list name = some t ∧ UsedColumn column t cells ∧ some v ∈ cells

/-- the lists let the record pass -/
def ListsAdmit (W : World) (l : FilterOpts) (r : Record) : Prop :=
  ∃ vs, PathValues W W.eighty false (l.source.getD (bs "003@.0")) r vs ∧ (∀ v ∈ vs, ¬ Listed W l.column l.deny v) ∧
    (l.allow = [] ∨ ∃ v ∈ vs, Listed W l.column l.allow v)

/-- the normalised expression holds for the record, with the options given -/
def Says (W : World) (cfg : Config) (ignoreCase : Bool) (percent : Nat) (text : Bytes) (r : Record) : Prop :=
  ∃ y v, Normalised W.tr cfg.normalization text y ∧
    FldExprText W.rx (scored W (W.percent percent)) ⟨ignoreCase⟩ y v ∧ v r = some true

/-- the expressions hold for the record as asked -/
def TextsHold (W : World) (cfg : Config) (l : FilterOpts) (r : Record) : Prop :=
  ∀ w, l.texts.where_ = some w →
    (l.texts.or = [] → Says W cfg l.ignoreCase l.strsimThreshold w r ∧
      (∀ x ∈ l.texts.and, Says W cfg l.ignoreCase l.strsimThreshold x r) ∧
      ∀ x ∈ l.texts.not, ¬ Says W cfg l.ignoreCase l.strsimThreshold x r) ∧
    (l.texts.or ≠ [] → Says W cfg l.ignoreCase l.strsimThreshold w r ∨
      ∃ x ∈ l.texts.or, Says W cfg l.ignoreCase l.strsimThreshold x r)

/-- the record is requested: the lists let it pass, and the expressions hold as asked -/
def Requested (W : World) (cfg : Config) (l : FilterOpts) (r : Record) : Prop :=
  ListsAdmit W l r ∧ TextsHold W cfg l r

/-- the options of `filter`, given to another command: the expression becomes `--where` -/
def sameOptions (a : FilterArgs) (l : FilterLists) : FilterOpts :=
  ⟨a.skip, a.limit, l.ignoreCase, l.strsimThreshold, l.allow, l.deny, l.column, l.source,
    ⟨some a.sources.1, a.and, a.or, a.not⟩⟩

/-- regular expressions that the parser accepts can be compiled with these options -/
def Compiles (W : World) (l : FilterOpts) : Prop :=
  RegexOk W.rx W.base.toEnv ⟨false⟩ ∧ RegexOk W.rx W.base.toEnv ⟨l.ignoreCase⟩

open Classical in
/-- the requested records of a list -/
noncomputable def requested (W : World) (cfg : Config) (l : FilterOpts) (rs : List ByteRecord) : List ByteRecord :=
  rs.filter (fun r => decide (Requested W cfg l r.record))

/-- the same comparisons, for formats -/
def scoredFmt (W : World) (t : W.Num) : FmtEnv :=
  ⟨scored W t, W.base.trim, W.base.upper⟩

/-- the normalised text is a query with these fragments: columns and rows, for the options given -/
def Asks (W : World) (cfg : Config) (l : FilterOpts) (o : QueryOpts) (text : Bytes)
    (ms : List (Nat × (Record → List (List Bytes)))) : Prop :=
  ∃ y, Normalised W.tr cfg.normalization text y ∧
    QueryText W.rx (scoredFmt W (W.percent l.strsimThreshold)) o y ms

/-- the rows of a query in a record -/
def queryRows (o : QueryOpts) (ms : List (Nat × (Record → List (List Bytes)))) (r : Record) : List (List Bytes) :=
  product (ms.map (fun m => if o.merge then merged o.separator m.1 (m.2 r) else m.2 r))

end Pica.Spec
