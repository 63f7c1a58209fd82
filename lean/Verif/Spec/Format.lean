import Verif.Spec.Path
import Verif.Model.Format

/-! # Formats: texts and meanings -/

namespace Pica.Spec
open Pica

/-- Effect of a list of modifier letters; their order does not matter.  First
`o` (drop the first `@`), then `t` (trim), `w` (no spaces), `l`, `u`. -/
def modified (E : FmtEnv) (letters : Bytes) (v : Bytes) : Bytes :=
  let on (c : Char) (f : Bytes → Bytes) (v : Bytes) : Bytes :=
    if UInt8.ofNat c.toNat ∈ letters then f v else v
  on 'u' E.upper (on 'l' E.lower (on 'w' (fun v => v.filter (fun b => decide (b ≠ 0x20)))
    (on 't' E.trim (on 'o' (fun v => v.erase 0x40) v))))

/-- `?` and one or more modifier letters, or nothing -/
inductive ModText (E : FmtEnv) : Bytes → (Bytes → Bytes) → Prop
  | none : ModText E [] id
  | some {ls} : ls ≠ [] → (∀ b ∈ ls, b ∈ bs "lutwo") → ModText E (bs "?" ++ ls) (modified E ls)

/-- `..`, `..n` or nothing; the default `d` in the last case -/
inductive BoundText (d : Nat) : Bytes → Nat → Prop
  | none : BoundText d [] d
  | open : BoundText d (bs "..") (2 ^ 64 - 1)
  | num {ds} : ds ≠ [] → (∀ b ∈ ds, 0x30 ≤ b ∧ b ≤ 0x39) → numVal ds < 2 ^ 64 →
      BoundText d (bs ".." ++ ds) (numVal ds)

/-- an optional string literal -/
inductive AffixText : Bytes → Bytes → Prop
  | none : AffixText [] []
  | some {t s} : Padded (StringText · s) t → AffixText t s

/-- The first `n` subfields with a code in `cs`, each between prefix and suffix,
without the first `@` if the option says so. -/
def taken (strip : Bool) (cs : Bytes) (n : Nat) (pre suf : Bytes) (f : Field) : Bytes :=
  (((f.subfields.filter (fun s => decide (s.code ∈ cs))).take n).map
    (fun s => pre ++ (if strip then s.value.erase 0x40 else s.value) ++ suf)).flatten

/-- if `t` ends with a letter of a modifier, `u` does not start with one -/
def Greedy (t u : Bytes) : Prop :=
  ∀ l, t.getLast? = some l → l ∈ bs "lutwo" → ∀ b, u.head? = some b → b ∉ bs "lutwo"

/-- `?l 'prefix' [codes]..n 'suffix'`; letters behind `?` belong to the modifier, as
far as they go. -/
inductive ValueText (E : FmtEnv) (o : FmtOpts) : Bytes → (Field → Bytes) → Prop
  | mk {tm m tp pre c cs tb n ts suf} : Padded (ModText E · m) tm → Greedy tm (tp ++ c) → AffixText tp pre →
      CodesOf c cs → BoundText 1 tb n → AffixText ts suf →
      ValueText E o (tm ++ tp ++ c ++ tb ++ ts) (fun f => m (taken o.strip cs n pre suf f))

/-- parts up to the first empty one -/
def andThen (gs : List (Field → Bytes)) (f : Field) : Bytes :=
  ((gs.map (fun g => g f)).takeWhile (fun v => decide (v ≠ []))).flatten

/-- all parts -/
def concat (gs : List (Field → Bytes)) (f : Field) : Bytes := (gs.map (fun g => g f)).flatten

/-- no modifier at the beginning, after white space -/
def Unmodified (t : Bytes) : Prop := ∀ w l u, Ws w → l ∈ bs "lutwo" → t ≠ w ++ bs "?" ++ [l] ++ u

mutual
/-- `(?l .. )..n`; the bound `..n` has no effect.  A modifier after the parenthesis
belongs to the group, not to its first part. -/
inductive GroupText (E : FmtEnv) (o : FmtOpts) : Bytes → (Field → Bytes) → Prop
  | mk {tl tm m t g tr tb n} : Padded (· = bs "(") tl → ModText E tm m → InnerText E o t g →
      (tm = [] → Unmodified t) → Greedy tm t →
      Padded (· = bs ")") tr → BoundText (2 ^ 64 - 1) tb n →
      GroupText E o (tl ++ tm ++ t ++ tr ++ tb) (fun f => m (g f))

/-- what may stand in parentheses: a list or a value, but no group -/
inductive InnerText (E : FmtEnv) (o : FmtOpts) : Bytes → (Field → Bytes) → Prop
  | list {w t g w'} : Ws w → FmtListText E o t g → Ws w' → InnerText E o (w ++ t ++ w') g
  | value {w t g w'} : Ws w → ValueText E o t g → Ws w' → InnerText E o (w ++ t ++ w') g

/-- two or more parts with `<*>`, or two or more parts with `<$>` -/
inductive FmtListText (E : FmtEnv) (o : FmtOpts) : Bytes → (Field → Bytes) → Prop
  | cons {t gs} : ConsText E o t gs → 2 ≤ gs.length → FmtListText E o t (concat gs)
  | andThen {t gs} : AndText E o t gs → 2 ≤ gs.length → FmtListText E o t (andThen gs)

/-- parts with `<$>` between them: groups and values -/
inductive AndText (E : FmtEnv) (o : FmtOpts) : Bytes → List (Field → Bytes) → Prop
  | one {t g} : PartText E o t g → AndText E o t [g]
  | more {t g s t' gs} : PartText E o t g → Padded (· = bs "<$>") s → AndText E o t' gs →
      AndText E o (t ++ s ++ t') (g :: gs)

/-- parts with `<*>` between them: groups, values and lists with `<$>` -/
inductive ConsText (E : FmtEnv) (o : FmtOpts) : Bytes → List (Field → Bytes) → Prop
  | one {t g} : ConsPartText E o t g → ConsText E o t [g]
  | more {t g s t' gs} : ConsPartText E o t g → Padded (· = bs "<*>") s → ConsText E o t' gs →
      ConsText E o (t ++ s ++ t') (g :: gs)

/-- a group or a value -/
inductive PartText (E : FmtEnv) (o : FmtOpts) : Bytes → (Field → Bytes) → Prop
  | group {t g} : GroupText E o t g → PartText E o t g
  | value {t g} : ValueText E o t g → PartText E o t g

/-- a group, a value or a list with `<$>` -/
inductive ConsPartText (E : FmtEnv) (o : FmtOpts) : Bytes → (Field → Bytes) → Prop
  | andThen {t gs} : AndText E o t gs → 2 ≤ gs.length → ConsPartText E o t (andThen gs)
  | item {t g} : PartText E o t g → ConsPartText E o t g
end

/-- what may stand in braces: a list, a group or a value -/
inductive FragsText (E : FmtEnv) (o : FmtOpts) : Bytes → (Field → Bytes) → Prop
  | inner {t g} : InnerText E o t g → FragsText E o t g
  | group {w t g w'} : Ws w → GroupText E o t g → Ws w' → FragsText E o (w ++ t ++ w') g

/-- `FormatText rx E o t sel v g`: the text `t` is a format that selects the
fields `sel`, filters them by `v` and renders them by `g`. -/
inductive FormatText (rx : Bytes → Bool) (E : FmtEnv) (o : FmtOpts) :
    Bytes → (Field → Prop) → Den (List Subfield) → (Field → Bytes) → Prop
  | mk {t to sel tl tg g tf v tr} : Selects t to sel → Padded (· = bs "{") tl →
      FragsText E o tg g → FilterText rx E.toEnv o.opts tf v → Padded (· = bs "}") tr →
      FormatText rx E o (t ++ to ++ (tl ++ (tg ++ tf) ++ tr)) sel v g

open Classical in
/-- the non-empty renderings of the selected fields, in order -/
noncomputable def rendered (sel : Field → Prop) (v : Den (List Subfield)) (g : Field → Bytes)
    (r : Record) : List Bytes :=
  ((r.filter (fun f => decide (sel f ∧ v f.subfields = some true))).map g).filter
    (fun x => decide (x ≠ []))

end Pica.Spec
