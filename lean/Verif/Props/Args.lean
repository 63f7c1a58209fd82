import Verif.Model.Args
import Verif.Props.Matcher
import Verif.Props.Filter
import Verif.Props.Predicates
import Verif.Props.Path

/-! # C59 to C62: arguments, filter options, configuration, filter lists -/

namespace Pica.Props
open Pica Spec

/-! ## C59: the positional arguments of `filter` -/

/-- **C59** without `--file`, the first argument is the expression and the others are
the files; standard input is read if there are none. -/
theorem C59_expr (a : FilterArgs) (x : Bytes) (xs : List Bytes) (h : a.exprFile = none) :
    (a.positionals (x :: xs)).sources = (x, if xs = [] then [bs "-"] else xs) := by
  unfold FilterArgs.positionals FilterArgs.sources
  dsimp only
  rw [h]
  cases xs <;> simp

/-- **C59** with `--file`, the expression is the content of the file and all
arguments are files; standard input is read if there are none.  Missing: two
arguments of which the second is `-`, see below. -/
theorem C59_file_partial (a : FilterArgs) (args : List Bytes) (content : Bytes) (h : a.exprFile = some content)
    (hne : ∀ x ∈ args, x ≠ []) (hdash : ∀ x, args ≠ [x, bs "-"]) :
    (a.positionals args).sources = (content, if args = [] then [bs "-"] else args) := by
  unfold FilterArgs.positionals FilterArgs.sources
  match args with
  | [] => dsimp only; rw [h]; rfl
  | [x] =>
    have hx : x.isEmpty = false := by simpa using hne x (by simp)
    dsimp only
    rw [h, hx]
    simp
  | x :: y :: ys =>
    have hx : x.isEmpty = false := by simpa using hne x (by simp)
    have hd : y :: ys ≠ [bs "-"] := fun he => hdash x (by rw [he])
    dsimp only
    rw [h, hx]
    simp only [List.isEmpty_cons, Bool.false_eq_true, if_false, Bool.not_false, if_true]
    rw [if_pos hd, if_neg (by simp)]

/-- **C59** is false for `filter --file FILE x -`: standard input is not read. -/
theorem C59_dash_false (a : FilterArgs) (x content : Bytes) (hx : x ≠ []) (h : a.exprFile = some content) :
    (a.positionals [x, bs "-"]).sources = (content, [x]) := by
  have hx : x.isEmpty = false := by simpa using hx
  unfold FilterArgs.positionals FilterArgs.sources
  dsimp only
  rw [h, hx]
  simp

/-! ## C60: filter expressions on the command line -/

/-- what `--where`, `--and`, `--or` and `--not` ask for: `H` says which expression
holds -/
def Asked (H : RecordMatcher → Prop) (w : RecordMatcher) (ands ors nots : List RecordMatcher) : Prop :=
  ((H w ∧ ∀ m ∈ ands, H m) ∨ ∃ m ∈ ors, H m) ∧ ∀ m ∈ nots, ¬ H m

/-- **C60** the matcher of `FilterOpts`: each text is normalised and parsed on its
own, and a record is selected iff it passes the lists and the texts hold as asked.
With the combinations that the command line accepts this is: `--where` and all
`--and` and no `--not`, or: `--where` or some `--or`. -/
theorem C60_selection (rx : Bytes → Bool) (f : Bytes → Bytes) (s s' : Levels) (t : FilterTexts) (ha : t.Accepted)
    (sel : Selection) (h : t.matcher rx f s = (some sel.matcher, s')) (hr : RegexOk rx sel.E sel.o) :
    (t.where_ = none ∧ ∀ r, Picked sel r ↔
      ∃ vs, sel.set.path.values sel.E₀ ⟨false⟩ r = some vs ∧ Admitted sel.set.allow sel.set.deny vs) ∨
    ∃ w mw mas mos mns, t.where_ = some w ∧ ParsesTo rx (f w) mw ∧ All2 (ParsesTo rx) (t.and.map f) mas ∧
      All2 (ParsesTo rx) (t.or.map f) mos ∧ All2 (ParsesTo rx) (t.not.map f) mns ∧
      (∀ r, Picked sel r ↔
        (∃ vs, sel.set.path.values sel.E₀ ⟨false⟩ r = some vs ∧ Admitted sel.set.allow sel.set.deny vs) ∧
        Asked (fun m => m.isMatch sel.E sel.o r = some true) mw mas mos mns) ∧
      (t.or = [] → ∀ H : RecordMatcher → Prop,
        (Asked H mw mas mos mns ↔ H mw ∧ (∀ m ∈ mas, H m) ∧ ∀ m ∈ mns, ¬ H m)) ∧
      (t.or ≠ [] → ∀ H : RecordMatcher → Prop, (Asked H mw mas mos mns ↔ H mw ∨ ∃ m ∈ mos, H m)) := by
  unfold FilterTexts.matcher at h
  split at h
  · rename_i w hw
    split at h
    · rename_i m s1 hb
      simp only [Prod.mk.injEq, Option.some.injEq] at h
      obtain ⟨hm, rfl⟩ := h
      unfold buildMatcher at hb
      obtain ⟨mw, mas, mos, mns, h1, h2, h3, h4, h5⟩ := C15_builder rx s s1 (f w) _ _ _ m hb
      refine .inr ⟨w, mw, mas, mos, mns, hw, h1, h2, h3, h4, ?_, ?_, ?_⟩
      · intro r
        unfold Picked
        apply and_congr Iff.rfl
        rw [← hm]
        simp only [Option.some.injEq, forall_eq']
        exact (h5 sel.E sel.o r hr).2
      · intro hor H
        rw [hor] at h3
        cases h3
        unfold Asked
        simp [and_assoc]
      · intro hor H
        rcases ha.2 with h0 | ⟨ha1, ha2⟩
        · exact absurd h0 hor
        · rw [ha1] at h2
          rw [ha2] at h4
          cases h2
          cases h4
          unfold Asked
          simp
    · simp at h
  · rename_i hw
    simp only [Prod.mk.injEq, Option.some.injEq] at h
    refine .inl ⟨hw, fun r => ?_⟩
    unfold Picked
    rw [← h.1]
    simp

/-- **C60** with the combinations that the command line accepts no text is ignored: each is parsed,
and where there is no `--where`, there is no other. -/
theorem C60_used (rx : Bytes → Bool) (f : Bytes → Bytes) (s s' : Levels) (t : FilterTexts) (ha : t.Accepted)
    (m : Option RecordMatcher) (h : t.matcher rx f s = (some m, s')) (x : Bytes)
    (hx : t.where_ = some x ∨ x ∈ t.and ∨ x ∈ t.or ∨ x ∈ t.not) :
    m.isSome = true ∧ ∃ mx, ParsesTo rx (f x) mx := by
  unfold FilterTexts.matcher at h
  split at h
  · rename_i w hw
    split at h
    · rename_i mb s1 hb
      simp only [Prod.mk.injEq, Option.some.injEq] at h
      obtain ⟨rfl, rfl⟩ := h
      unfold buildMatcher at hb
      obtain ⟨mw, mas, mos, mns, h1, h2, h3, h4, -⟩ := C15_builder rx s s1 (f w) _ _ _ mb hb
      refine ⟨rfl, ?_⟩
      have key : ∀ (ts : List Bytes) (ms : List RecordMatcher), All2 (ParsesTo rx) (ts.map f) ms → x ∈ ts → ∃ mx, ParsesTo rx (f x) mx := by
        intro ts
        induction ts with
        | nil => intro ms _ hx; cases hx
        | cons y ts ih =>
          intro ms h hx
          rw [List.map_cons] at h
          cases h with
          | cons h0 hs =>
            rcases List.mem_cons.1 hx with rfl | hx
            · exact ⟨_, h0⟩
            · exact ih _ hs hx
      rcases hx with hx | hx | hx | hx
      · rw [hw] at hx; cases hx; exact ⟨mw, h1⟩
      · exact key _ _ h2 hx
      · exact key _ _ h3 hx
      · exact key _ _ h4 hx
    · simp at h
  · rename_i hw
    exfalso
    have : t.and ≠ [] ∨ t.or ≠ [] ∨ t.not ≠ [] := by
      rcases hx with hx | hx | hx | hx
      · rw [hw] at hx; cases hx
      · exact .inl (List.ne_nil_of_mem hx)
      · exact .inr (.inl (List.ne_nil_of_mem hx))
      · exact .inr (.inr (List.ne_nil_of_mem hx))
    have := ha.1 this
    rw [hw] at this
    cases this

/-- **C60** an error is returned only if one of the normalised texts is rejected. -/
theorem C60_error (rx : Bytes → Bool) (f : Bytes → Bytes) (s s' : Levels) (t : FilterTexts)
    (h : t.matcher rx f s = (none, s')) :
    ∃ x s1 s2, (t.where_ = some x ∧ s1 = s ∨ s1.fld = 0 ∧ (x ∈ t.and ∨ x ∈ t.or ∨ x ∈ t.not)) ∧
      FieldMatcher.new rx s1 (f x) = (none, s2) := by
  unfold FilterTexts.matcher at h
  split at h
  · rename_i w hw
    split at h
    · simp at h
    · rename_i s1 hb
      obtain ⟨y, s2, s3, h1, h2⟩ := C15_error rx s s1 (f w) _ hb
      rcases h2 with ⟨rfl, rfl⟩ | ⟨h0, c, hc, hy⟩
      · exact ⟨w, s2, s3, .inl ⟨hw, rfl⟩, h1⟩
      · simp only [List.mem_cons, List.not_mem_nil, or_false] at hc
        rcases hc with rfl | rfl | rfl
        · obtain ⟨x, hx, rfl⟩ := List.mem_map.1 hy
          exact ⟨x, s2, s3, .inr ⟨h0, .inl hx⟩, h1⟩
        · obtain ⟨x, hx, rfl⟩ := List.mem_map.1 hy
          exact ⟨x, s2, s3, .inr ⟨h0, .inr (.inl hx)⟩, h1⟩
        · obtain ⟨x, hx, rfl⟩ := List.mem_map.1 hy
          exact ⟨x, s2, s3, .inr ⟨h0, .inr (.inr hx)⟩, h1⟩
  · simp at h

/-- the list of field predicates of an option: empty if the option is not given -/
def OptionPreds (trim : Bytes → Bytes) (text : Option Bytes) (ps : List FieldPred) : Prop :=
  match text with
  | none => ps = []
  | some t => ∃ parts, Parts t parts ∧ All2 PredText ((parts.map trim).filter (fun s => !s.isEmpty)) ps

theorem optionPreds_of {trim : Bytes → Bytes} {text : Option Bytes} {ps : List FieldPred}
    (h : FilterArgs.predicates trim text = some ps) : OptionPreds trim text ps := by
  unfold FilterArgs.predicates at h
  unfold OptionPreds
  split at h
  · simpa using h.symm
  · rename_i t
    exact ⟨_, splitComma_parts t, (C53_accepts trim t _ (splitComma_parts t) ps).1 h⟩

/-- the text that is parsed: with a normalization form set, the text in that form,
otherwise the text itself -/
def Normalised (tr : NForm → Bytes → Bytes) (n : Option NForm) (x y : Bytes) : Prop :=
  (∀ nf, n = some nf → y = tr nf x) ∧ (n = none → y = x)

theorem normalised_iff {tr : NForm → Bytes → Bytes} {n : Option NForm} {x y : Bytes} :
    Normalised tr n x y ↔ y = translit tr n x := by
  unfold Normalised
  cases n <;> simp [translit]

/-- `m` is the meaning of the normalised text -/
def NormParses (rx : Bytes → Bool) (tr : NForm → Bytes → Bytes) (n : Option NForm) (x : Bytes) (m : RecordMatcher) :
    Prop := ∃ y, Normalised tr n x y ∧ ParsesTo rx y m

theorem normParses_of {rx : Bytes → Bool} {tr : NForm → Bytes → Bytes} {n : Option NForm} {x : Bytes}
    {m : RecordMatcher} (h : ParsesTo rx (translit tr n x) m) : NormParses rx tr n x m :=
  ⟨_, normalised_iff.2 rfl, h⟩

theorem all2_normParses {rx : Bytes → Bool} {tr : NForm → Bytes → Bytes} {n : Option NForm} :
    ∀ {xs : List Bytes} {ms : List RecordMatcher}, All2 (ParsesTo rx) (xs.map (translit tr n)) ms →
      All2 (NormParses rx tr n) xs ms
  | [], _, h => by cases h; exact .nil
  | x :: xs, _, h => by
    cases h with
    | cons h1 h2 => exact .cons (normParses_of h1) (all2_normParses h2)

open Classical in
/-- **C60** (`filter`) from the texts on the command line to the output: the records
written are the first `limit` ones that pass the lists and for which the texts hold
as asked (or, with `--invert-match`, do not hold), reduced to the fields asked
for.  `--skip-invalid` may come from the configuration. -/
theorem C60_filter (rx : Bytes → Bool) (trim : Bytes → Bytes) (tr : NForm → Bytes → Bytes) (cfg : Config)
    (E₀ E : Env) (o : Opts) (set : FilterSet) (s : Levels) (a : FilterArgs) (c : FilterCmd)
    (h : a.prepare rx trim tr cfg E₀ E o set s = some c) (hr : RegexOk rx E o) :
    ∃ mw mas mos mns discard keep,
      NormParses rx tr cfg.normalization a.sources.1 mw ∧
      All2 (NormParses rx tr cfg.normalization) a.and mas ∧
      All2 (NormParses rx tr cfg.normalization) a.or mos ∧
      All2 (NormParses rx tr cfg.normalization) a.not mns ∧
      OptionPreds trim a.discard discard ∧ OptionPreds trim a.keep keep ∧
      (c.skip = true ↔ a.skip = true ∨ cfg.skipInvalid = true) ∧
      ∀ (files : List (String × Bytes)) (rs : List ByteRecord), Input files rs →
        ∀ (x : FilterOut) (n : Nat), c.run files = .ok (x, n) →
        x.out = (limited a.limit (rs.filter (fun r => decide (
            (∃ vs, set.path.values E₀ ⟨false⟩ r.record = some vs ∧ Admitted set.allow set.deny vs) ∧
            (Asked (fun m => m.isMatch E o r.record = some true) mw mas mos mns ↔ a.invert = false))))).flatMap
          (fun r => (reduced discard keep r.record).write) := by
  unfold FilterArgs.prepare at h
  split at h
  · simp at h
  · rename_i discard hd
    split at h
    · simp at h
    · rename_i keep hk
      split at h
      · simp at h
      · rename_i m hm
        simp only [Option.some.injEq] at h
        subst h
        generalize hb : buildMatcher rx (translit tr cfg.normalization) s a.sources.1 a.and a.or a.not = z at hm
        obtain ⟨z1, s1⟩ := z
        dsimp only at hm
        subst hm
        unfold buildMatcher at hb
        obtain ⟨mw, mas, mos, mns, h1, h2, h3, h4, h5⟩ := C15_builder rx s s1 _ _ _ _ m hb
        refine ⟨mw, mas, mos, mns, discard, keep, normParses_of h1, all2_normParses h2, all2_normParses h3,
          all2_normParses h4, optionPreds_of hd, optionPreds_of hk, ?_, ?_⟩
        · simp
        · intro files rs hi x n hrun
          have h6 := (C28_output _ files rs hi x n hrun).1
          rw [h6]
          dsimp only
          refine congrArg (fun (l : List ByteRecord) => (limited a.limit l).flatMap (fun r => (reduced discard keep r.record).write)) ?_
          apply List.filter_congr
          intro r _
          rw [decide_eq_decide]
          unfold Passes
          dsimp only
          apply and_congr Iff.rfl
          obtain ⟨⟨b, hb1⟩, hb2⟩ := h5 E o r.record hr
          unfold RecordMatcher.isMatch at hb1 hb2
          rw [hb1] at hb2 ⊢
          rw [show Asked (fun m => m.isMatch E o r.record = some true) mw mas mos mns ↔ some b = some true from
            hb2.symm]
          cases b <;> cases a.invert <;> simp

/-! ## C61: the configuration -/

theorem NForm.parse_print (nf : NForm) : NForm.parse nf.print = some nf := by
  cases nf <;> decide +kernel

theorem NForm.print_parse {s : Bytes} {nf : NForm} (h : NForm.parse s = some nf) : nf.print = s := by
  unfold NForm.parse at h
  split at h
  · rename_i e; rw [e]; simp only [Option.some.injEq] at h; rw [← h]; rfl
  · split at h
    · rename_i e; rw [e]; simp only [Option.some.injEq] at h; rw [← h]; rfl
    · split at h
      · rename_i e; rw [e]; simp only [Option.some.injEq] at h; rw [← h]; rfl
      · split at h
        · rename_i e; rw [e]; simp only [Option.some.injEq] at h; rw [← h]; rfl
        · simp at h

theorem skip_ne_norm : ¬ bs "normalization" = bs "skip-invalid" := by decide +kernel

/-- the two options -/
inductive Key | skip | norm
/-- their names -/
def Key.name : Key → Bytes
  | .skip => bs "skip-invalid"
  | .norm => bs "normalization"
/-- their values in a configuration, as texts -/
def Key.text : Key → Config → Option Bytes
  | .skip, c => some (if c.skipInvalid then bs "true" else bs "false")
  | .norm, c => c.normalization.map NForm.print
/-- the texts that are values -/
def Key.values : Key → List Bytes
  | .skip => [bs "true", bs "false"]
  | .norm => [bs "nfc", bs "nfkc", bs "nfd", bs "nfkd"]
/-- the value of an option that is not set -/
def Key.default : Key → Option Bytes
  | .skip => some (bs "false")
  | .norm => none

/-- **C61** the command line accepts exactly four forms: a name with `--get` or `--unset`,
a name and a value with `--set`, and a name with or without a value and no option. -/
theorem C61_accepted (a : ConfigArgs) : a.Accepted ↔
    (a.get, a.unset, a.set, a.value.isSome) ∈ [(true, false, false, false), (false, true, false, false),
      (false, false, true, true), (false, false, false, true), (false, false, false, false)] := by
  obtain ⟨g, u, s, n, v⟩ := a
  cases g <;> cases u <;> cases s <;> cases v <;> simp [ConfigArgs.Accepted]

/-- **C61** for the arguments that the command line accepts, no `unreachable!()` is
reached. -/
theorem C61_total (a : ConfigArgs) (ha : a.Accepted) (c : Config) : a.execute c ≠ .panic := by
  unfold ConfigArgs.execute
  obtain ⟨h1, h2, h3⟩ := ha
  by_cases hn : a.name = bs "skip-invalid" ∨ a.name = bs "normalization"
  · rw [if_pos hn]
    cases hv : a.value with
    | some v =>
      dsimp only
      split
      · split <;> simp
      · rename_i h0
        rw [if_pos (hn.resolve_left h0)]
        split <;> simp
    | none =>
      dsimp only
      split
      · split
        · simp
        · rename_i h0
          rw [if_pos (hn.resolve_left h0)]
          simp
      · have hs : a.set = false := by
          cases hs : a.set with
          | false => rfl
          | true => have := (h3 hs).1; rw [hv] at this; simp at this
        rename_i hu
        rw [if_pos (by simp [hs, hu])]
        split
        · simp
        · rename_i h0
          rw [if_pos (hn.resolve_left h0)]
          simp
  · rw [if_neg hn]; simp

/-- **C61** a value is accepted iff it is one of the values of the option; then
exactly this option is changed, and it is printed as it was given. -/
theorem C61_set (k : Key) (v : Bytes) (set : Bool) (c : Config) :
    (v ∈ k.values → ∃ c', (⟨false, false, set, k.name, some v⟩ : ConfigArgs).execute c = .saved c' ∧
      k.text c' = some v ∧ (∀ k', k' ≠ k → k'.text c' = k'.text c)) ∧
    (v ∉ k.values → (⟨false, false, set, k.name, some v⟩ : ConfigArgs).execute c = .error) := by
  cases k with
  | skip =>
    unfold ConfigArgs.execute Key.name Key.values
    dsimp only
    rw [if_pos (.inl rfl), if_pos rfl]
    unfold parseBool
    constructor
    · intro hv
      simp only [List.mem_cons, List.not_mem_nil, or_false] at hv
      rcases hv with rfl | rfl
      · refine ⟨{ c with skipInvalid := true }, by rw [if_pos rfl], rfl, ?_⟩
        intro k' hk'; cases k' with
        | skip => exact absurd rfl hk'
        | norm => rfl
      · refine ⟨{ c with skipInvalid := false }, by
          rw [if_neg (by decide +kernel), if_pos rfl], rfl, ?_⟩
        intro k' hk'; cases k' with
        | skip => exact absurd rfl hk'
        | norm => rfl
    · intro hv
      simp only [List.mem_cons, List.not_mem_nil, or_false, not_or] at hv
      rw [if_neg hv.1, if_neg hv.2]
  | norm =>
    unfold ConfigArgs.execute Key.name Key.values
    dsimp only
    rw [if_pos (.inr rfl), if_neg skip_ne_norm, if_pos rfl]
    constructor
    · intro hv
      have : ∃ nf : NForm, v = nf.print := by
        simp only [List.mem_cons, List.not_mem_nil, or_false] at hv
        rcases hv with rfl | rfl | rfl | rfl
        · exact ⟨.nfc, rfl⟩
        · exact ⟨.nfkc, rfl⟩
        · exact ⟨.nfd, rfl⟩
        · exact ⟨.nfkd, rfl⟩
      obtain ⟨nf, rfl⟩ := this
      rw [NForm.parse_print]
      refine ⟨{ c with normalization := some nf }, rfl, rfl, ?_⟩
      intro k' hk'; cases k' with
      | norm => exact absurd rfl hk'
      | skip => rfl
    · intro hv
      cases hp : NForm.parse v with
      | none => rfl
      | some nf =>
        refine absurd ?_ hv
        rw [← NForm.print_parse hp]
        cases nf <;> simp [NForm.print]

/-- **C61** `--unset` resets exactly this option. -/
theorem C61_unset (k : Key) (c : Config) :
    ∃ c', (⟨false, true, false, k.name, none⟩ : ConfigArgs).execute c = .saved c' ∧
      k.text c' = k.default ∧ (∀ k', k' ≠ k → k'.text c' = k'.text c) := by
  cases k with
  | skip =>
    refine ⟨{ c with skipInvalid := false }, ?_, rfl, ?_⟩
    · unfold ConfigArgs.execute Key.name
      dsimp only
      rw [if_pos (.inl rfl), if_pos rfl, if_pos rfl]
    · intro k' hk'; cases k' with
      | skip => exact absurd rfl hk'
      | norm => rfl
  | norm =>
    refine ⟨{ c with normalization := none }, ?_, rfl, ?_⟩
    · unfold ConfigArgs.execute Key.name
      dsimp only
      rw [if_pos (.inr rfl), if_pos rfl, if_neg skip_ne_norm, if_pos rfl]
    · intro k' hk'; cases k' with
      | norm => exact absurd rfl hk'
      | skip => rfl

/-- **C61** `--get`, and no flag, print the value and change nothing; what is printed
for an option that has a value is accepted as a value again. -/
theorem C61_get (k : Key) (get : Bool) (c : Config) :
    (⟨get, false, false, k.name, none⟩ : ConfigArgs).execute c =
      .printed ((k.text c).getD (bs "None")) ∧
    ∀ v, k.text c = some v → v ∈ k.values := by
  constructor
  · unfold ConfigArgs.execute
    cases k with
    | skip =>
      unfold Key.name
      dsimp only
      rw [if_pos (.inl rfl), if_neg (by simp), if_pos (by simp), if_pos rfl]
      rfl
    | norm =>
      unfold Key.name
      dsimp only
      rw [if_pos (.inr rfl), if_neg (by simp), if_pos (by simp), if_neg skip_ne_norm, if_pos rfl]
      show ConfigOutcome.printed (printOption (c.normalization.map NForm.print)) =
        .printed ((c.normalization.map NForm.print).getD (bs "None"))
      cases c.normalization <;> rfl
  · intro v hv
    cases k with
    | skip =>
      simp only [Key.text, Option.some.injEq] at hv
      show v ∈ [bs "true", bs "false"]
      rw [← hv]
      cases c.skipInvalid
      · exact List.mem_cons_of_mem _ (List.mem_singleton.2 rfl)
      · exact List.mem_cons_self
    | norm =>
      obtain ⟨nf, _, rfl⟩ := Option.map_eq_some_iff.1 hv
      unfold Key.values
      cases nf <;> simp [NForm.print]

/-- **C61** other names are errors. -/
theorem C61_unknown (a : ConfigArgs) (c : Config) (h : ∀ k : Key, a.name ≠ k.name) : a.execute c = .error := by
  unfold ConfigArgs.execute
  rw [if_neg]
  rintro (h' | h')
  · exact h .skip h'
  · exact h .norm h'

/-! ## C62: filter lists -/

/-- the column that is used: the one with the given name, or `ppn`, or `idn`; of
columns with the same name the first -/
def UsedColumn (column : Option Bytes) (t : Table) (cells : List (Option Bytes)) : Prop :=
  ∃ name pre post, t = pre ++ (name, cells) :: post ∧ (∀ x ∈ pre, x.1 ≠ name) ∧
    (column = some name ∨ (column = none ∧
      (name = bs "ppn" ∨ (name = bs "idn" ∧ ∀ x ∈ t, x.1 ≠ bs "ppn"))))

theorem Table.column_eq_some {t : Table} {name : Bytes} {cells : List (Option Bytes)} :
    t.column name = some cells ↔ ∃ pre post, t = pre ++ (name, cells) :: post ∧ ∀ x ∈ pre, x.1 ≠ name := by
  unfold Table.column
  rw [Option.map_eq_some_iff]
  constructor
  · rintro ⟨⟨n, c⟩, h, rfl⟩
    rw [List.find?_eq_some_iff_append] at h
    obtain ⟨h1, pre, post, rfl, h2⟩ := h
    have h1 : n = name := by simpa using h1
    subst h1
    exact ⟨pre, post, rfl, fun x hx => by simpa using h2 x hx⟩
  · rintro ⟨pre, post, rfl, h⟩
    refine ⟨(name, cells), ?_, rfl⟩
    rw [List.find?_eq_some_iff_append]
    exact ⟨by simp, pre, post, rfl, fun x hx => by simpa using h x hx⟩

theorem Table.column_eq_none {t : Table} {name : Bytes} :
    t.column name = none ↔ ∀ x ∈ t, x.1 ≠ name := by
  unfold Table.column
  rw [Option.map_eq_none_iff, List.find?_eq_none]
  constructor
  · intro h x hx; simpa using h x hx
  · intro h x hx; simpa using h x hx

theorem listColumn_iff {column : Option Bytes} {t : Table} {cells : List (Option Bytes)} :
    listColumn column t = some cells ↔ UsedColumn column t cells := by
  unfold listColumn UsedColumn
  cases column with
  | some name =>
    dsimp only
    rw [Table.column_eq_some]
    constructor
    · rintro ⟨pre, post, h1, h2⟩; exact ⟨name, pre, post, h1, h2, .inl rfl⟩
    · rintro ⟨n, pre, post, h1, h2, h3 | ⟨h3, _⟩⟩
      · obtain rfl := Option.some.inj h3; exact ⟨pre, post, h1, h2⟩
      · simp at h3
  | none =>
    dsimp only
    cases hp : t.column (bs "ppn") with
    | some c =>
      dsimp only
      obtain ⟨pre, post, h1, h2⟩ := Table.column_eq_some.1 hp
      constructor
      · intro h
        obtain rfl := Option.some.inj h
        exact ⟨_, pre, post, h1, h2, .inr ⟨rfl, .inl rfl⟩⟩
      · rintro ⟨n, pre', post', h3, h4, h5 | ⟨_, rfl | ⟨rfl, h6⟩⟩⟩
        · simp at h5
        · have := Table.column_eq_some.2 ⟨pre', post', h3, h4⟩
          rw [hp] at this
          exact this
        · exact absurd rfl (h6 (bs "ppn", c) (by rw [h1]; simp))
    | none =>
      dsimp only
      have hno := Table.column_eq_none.1 hp
      rw [Table.column_eq_some]
      constructor
      · rintro ⟨pre, post, h1, h2⟩
        exact ⟨_, pre, post, h1, h2, .inr ⟨rfl, .inr ⟨rfl, hno⟩⟩⟩
      · rintro ⟨n, pre', post', h3, h4, h5 | ⟨_, rfl | ⟨rfl, h6⟩⟩⟩
        · simp at h5
        · exact absurd rfl (hno (bs "ppn", cells) (by rw [h3]; simp))
        · exact ⟨pre', post', h3, h4⟩

theorem readTables_spec (column : Option Bytes) : ∀ ts : List Table,
    (∀ l, readTables column ts = some l → (∀ t ∈ ts, ∃ cells, UsedColumn column t cells) ∧
      ∀ v, v ∈ l ↔ ∃ t ∈ ts, ∃ cells, UsedColumn column t cells ∧ some v ∈ cells) ∧
    (readTables column ts = none → ∃ t ∈ ts, ∀ cells, ¬ UsedColumn column t cells) := by
  intro ts
  induction ts with
  | nil => simp [readTables]
  | cons t ts ih =>
    rw [readTables]
    cases hc : listColumn column t with
    | none =>
      refine ⟨by simp, fun _ => ⟨t, by simp, fun cells h => ?_⟩⟩
      rw [← listColumn_iff, hc] at h
      simp at h
    | some cells =>
      dsimp only
      have hu := listColumn_iff.1 hc
      have huniq : ∀ c, UsedColumn column t c → c = cells := by
        intro c h
        rw [← listColumn_iff, hc] at h
        exact (Option.some.inj h).symm
      constructor
      · intro l h
        obtain ⟨l', hl', rfl⟩ := Option.map_eq_some_iff.1 h
        obtain ⟨h1, h2⟩ := ih.1 l' hl'
        constructor
        · intro t' ht'
          rcases List.mem_cons.1 ht' with rfl | ht'
          · exact ⟨_, hu⟩
          · exact h1 t' ht'
        · intro v
          rw [List.mem_append, List.mem_filterMap, h2]
          constructor
          · rintro (⟨x, hx, rfl⟩ | ⟨t', ht', c, h3, h4⟩)
            · exact ⟨t, by simp, cells, hu, hx⟩
            · exact ⟨t', by simp [ht'], c, h3, h4⟩
          · rintro ⟨t', ht', c, h3, h4⟩
            rcases List.mem_cons.1 ht' with rfl | ht'
            · rw [huniq c h3] at h4
              exact .inl ⟨some v, h4, rfl⟩
            · exact .inr ⟨t', ht', c, h3, h4⟩
      · intro h
        rw [Option.map_eq_none_iff] at h
        obtain ⟨t', ht', h3⟩ := ih.2 h
        exact ⟨t', by simp [ht'], h3⟩

/-- a list of files as a set of values: no files is no list -/
def ListOf (column : Option Bytes) (ts : List Table) (l : Option (List Bytes)) : Prop :=
  (ts = [] ∧ l = none) ∨ ∃ vs, ts ≠ [] ∧ l = some vs ∧
    ∀ v, v ∈ vs ↔ ∃ t ∈ ts, ∃ cells, UsedColumn column t cells ∧ some v ∈ cells

theorem readFilterList_spec (column : Option Bytes) (ts : List Table) :
    (∀ l, readFilterList column ts = some l → ListOf column ts l ∧ ∀ t ∈ ts, ∃ cells, UsedColumn column t cells) ∧
    (readFilterList column ts = none → ∃ t ∈ ts, ∀ cells, ¬ UsedColumn column t cells) := by
  unfold readFilterList
  cases ts with
  | nil =>
    simp only [List.isEmpty_nil, if_true, Option.some.injEq, reduceCtorEq, false_implies, and_true]
    rintro l rfl
    exact ⟨.inl ⟨rfl, rfl⟩, by simp⟩
  | cons t ts =>
    simp only [List.isEmpty_cons, Bool.false_eq_true, if_false]
    obtain ⟨h1, h2⟩ := readTables_spec column (t :: ts)
    constructor
    · intro l h
      obtain ⟨vs, hvs, rfl⟩ := Option.map_eq_some_iff.1 h
      exact ⟨.inr ⟨vs, by simp, rfl, (h1 vs hvs).2⟩, (h1 vs hvs).1⟩
    · intro h
      rw [Option.map_eq_none_iff] at h
      exact h2 h

/-- **C62** several files are one list: a value is in the list iff it is a cell of the
used column of one of the files; null cells are not values.  Without files there is
no list.  Reading fails iff some file does not have the column.  The values of a
record are those of the given path, or of `003@.0`. -/
theorem C62_lists (source : Option Path) (column : Option Bytes) (allow deny : List Table) :
    (∀ fs, FilterSet.build source column allow deny = some fs →
      ListOf column allow fs.allow ∧ ListOf column deny fs.deny ∧ (∀ p, source = some p → fs.path = p) ∧
      (source = none → ∀ rx s, (Path.new rx s (bs "003@.0")).1 = some fs.path)) ∧
    ((FilterSet.build source column allow deny).isSome = true ↔
      ∀ t ∈ allow ++ deny, ∃ cells, UsedColumn column t cells) := by
  obtain ⟨ha1, ha2⟩ := readFilterList_spec column allow
  obtain ⟨hd1, hd2⟩ := readFilterList_spec column deny
  unfold FilterSet.build
  cases hA : readFilterList column allow with
  | none =>
    refine ⟨by simp, ?_⟩
    simp only [Option.isSome_none, Bool.false_eq_true, false_iff]
    intro h
    obtain ⟨t, ht, hno⟩ := ha2 hA
    obtain ⟨cells, hc⟩ := h t (by simp [ht])
    exact hno cells hc
  | some la =>
    dsimp only
    cases hD : readFilterList column deny with
    | none =>
      refine ⟨by simp, ?_⟩
      simp only [Option.isSome_none, Bool.false_eq_true, false_iff]
      intro h
      obtain ⟨t, ht, hno⟩ := hd2 hD
      obtain ⟨cells, hc⟩ := h t (by simp [ht])
      exact hno cells hc
    | some ld =>
      constructor
      · intro fs h
        simp only [Option.some.injEq] at h
        subst h
        exact ⟨(ha1 la hA).1, (hd1 ld hD).1, by rintro p rfl; rfl,
          by rintro rfl; exact (C23_ppn toyEnv ⟨false⟩ []).2⟩
      · simp only [Option.isSome_some, true_iff]
        intro t ht
        rcases List.mem_append.1 ht with ht | ht
        · exact (ha1 la hA).2 t ht
        · exact (hd1 ld hD).2 t ht

/-- **C62** (records) a record is admitted iff none of its values is a cell of a deny
list and, with allow lists, some value is a cell of one of them. -/
theorem C62_admitted (source : Option Path) (column : Option Bytes) (allow deny : List Table) (fs : FilterSet)
    (h : FilterSet.build source column allow deny = some fs) (vs : List Bytes) :
    Admitted fs.allow fs.deny vs ↔
      (∀ v ∈ vs, ∀ t ∈ deny, ∀ cells, UsedColumn column t cells → some v ∉ cells) ∧
      (allow = [] ∨ ∃ v ∈ vs, ∃ t ∈ allow, ∃ cells, UsedColumn column t cells ∧ some v ∈ cells) := by
  obtain ⟨ha, hd, _⟩ := (C62_lists source column allow deny).1 fs h
  unfold Admitted
  apply and_congr
  · rcases hd with ⟨rfl, hd⟩ | ⟨l, _, hd, hl⟩
    · rw [hd]; simp
    · rw [hd]
      simp only [Option.some.injEq, forall_eq']
      constructor
      · intro h1 v hv t ht cells hc hm
        exact h1 v hv ((hl v).2 ⟨t, ht, cells, hc, hm⟩)
      · intro h1 v hv hm
        obtain ⟨t, ht, cells, hc, hm⟩ := (hl v).1 hm
        exact h1 v hv t ht cells hc hm
  · rcases ha with ⟨rfl, ha⟩ | ⟨l, hne, ha, hl⟩
    · rw [ha]; simp
    · rw [ha]
      simp only [Option.some.injEq, forall_eq', hne, false_or]
      constructor
      · rintro ⟨v, hv, hm⟩; exact ⟨v, hv, (hl v).1 hm⟩
      · rintro ⟨v, hv, hm⟩; exact ⟨v, hv, (hl v).2 hm⟩

/-! ## cases -/

example : (⟨true, false, false, bs "normalization", none⟩ : ConfigArgs).Accepted := by
  simp [ConfigArgs.Accepted]
example : (⟨false, false, true, bs "skip-invalid", some (bs "true")⟩ : ConfigArgs).execute ⟨false, none⟩ =
    .saved ⟨true, none⟩ := by decide +kernel
example : (⟨false, false, true, bs "normalization", some (bs "NFC")⟩ : ConfigArgs).execute ⟨false, none⟩ = .error := by
  decide +kernel

/-- two lists with a null cell -/
example : readFilterList none [[(bs "ppn", [some (bs "1"), none])], [(bs "x", []), (bs "idn", [some (bs "2")])]] =
    some (some [bs "1", bs "2"]) := by decide +kernel
example : readFilterList (some (bs "y")) [[(bs "ppn", [some (bs "1")])]] = none := by decide +kernel

example : (⟨some (bs "003@?"), [bs "012A?"], [], [bs "013A?"]⟩ : FilterTexts).Accepted := by
  simp [FilterTexts.Accepted]

/-- arguments of `filter` -/
def argsSample (exprFile : Option Bytes) (pos : List Bytes) : FilterArgs :=
  FilterArgs.positionals ⟨false, 0, false, false, some (bs "003@"), none, exprFile, [bs "003@.0?"], [], [], [], []⟩ pos

example : (argsSample none [bs "003@?", bs "a.dat"]).sources = (bs "003@?", [bs "a.dat"]) := by decide +kernel
example : (argsSample (some (bs "003@?\n")) [bs "a.dat", bs "b.dat"]).sources =
    (bs "003@?\n", [bs "a.dat", bs "b.dat"]) := by decide +kernel
example : ((argsSample (some (bs "003@?\n")) [bs "a.dat"]).prepare (fun _ => true) id (fun _ => id) ⟨true, none⟩
    toyEnv toyEnv ⟨false⟩ ⟨none, none, Path.ppnPath⟩ ⟨0, 0, 0⟩).isSome = true := by decide +kernel

end Pica.Props
