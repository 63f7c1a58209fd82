import Verif.Lemmas.IndepFmt

/-!
The bounds on the nesting in `pSubGroup`, `pFieldGroup` and `pFmtGroup`, and on the number of
rounds of the loops.  `Same D D' p q` says that `p` and `q` are the same for counters and inputs
in `D`; if they succeed the counters and the remaining input are in `D'`, if they fail the
counters are in `D`.
-/

namespace Pica
open Spec Parser

/-- sets of counters and inputs -/
structure Dom where
  st : Levels → Prop
  inp : Bytes → Prop

section
variable {α β γ M : Type} {D D' D'' : Dom}

/-- the outcome of a parser -/
def Good (D D' : Dom) : Option (α × Bytes) × Levels → Prop
  | (none, t) => D.st t
  | (some (_, r), t) => D'.st t ∧ D'.inp r

/-- see above -/
def Same (D D' : Dom) (p q : TParser α) : Prop := ∀ s i, D.st s → D.inp i →
  p s i = q s i ∧ Good D D' (p s i)

theorem Same.map {p q : TParser α} (h : Same D D' p q) (f : α → β) :
    Same D D' (TParser.map f p) (TParser.map f q) := by
  intro s i hs hi
  obtain ⟨h1, h2⟩ := h s i hs hi
  refine ⟨by simp only [TParser.map, h1], ?_⟩
  simp only [TParser.map]
  revert h2
  generalize p s i = x
  obtain ⟨_ | ⟨a, r⟩, t⟩ := x <;> exact id

theorem Same.withTaken {p q : TParser α} (h : Same D D' p q) :
    Same D D' (TParser.withTaken p) (TParser.withTaken q) := by
  intro s i hs hi
  obtain ⟨h1, h2⟩ := h s i hs hi
  refine ⟨by simp only [TParser.withTaken, h1], ?_⟩
  simp only [TParser.withTaken]
  revert h2
  generalize p s i = x
  obtain ⟨_ | ⟨a, r⟩, t⟩ := x <;> exact id

theorem Same.seq {p p' : TParser α} {q q' : TParser β} (h : Same D D' p p')
    (hA : ∀ t, D'.st t → D.st t) (h' : Same D' D'' q q') :
    Same D D'' (TParser.seq p q) (TParser.seq p' q') := by
  intro s i hs hi
  obtain ⟨h1, h2⟩ := h s i hs hi
  simp only [TParser.seq, ← h1]
  revert h2
  generalize p s i = x
  obtain ⟨_ | ⟨a, r⟩, t⟩ := x
  · exact fun h2 => ⟨rfl, h2⟩
  · rintro ⟨k1, k2⟩
    obtain ⟨j1, j2⟩ := h' t r k1 k2
    dsimp only
    rw [← j1]
    revert j2
    generalize q t r = y
    obtain ⟨_ | ⟨b, r'⟩, t'⟩ := y
    · exact fun j2 => ⟨rfl, hA _ j2⟩
    · exact fun j2 => ⟨rfl, j2⟩

/-- the second parser never fails -/
theorem Same.seq_total {p p' : TParser α} {q : Parser β} (h : Same D D' p p')
    (ht : ∀ i, ∃ x, q i = some x) (h' : Same D' D'' (TParser.lift q) (TParser.lift q)) :
    Same D D'' (TParser.seq p (TParser.lift q)) (TParser.seq p' (TParser.lift q)) := by
  intro s i hs hi
  obtain ⟨h1, h2⟩ := h s i hs hi
  simp only [TParser.seq, ← h1]
  revert h2
  generalize p s i = x
  obtain ⟨_ | ⟨a, r⟩, t⟩ := x
  · exact fun h2 => ⟨by trivial, h2⟩
  · rintro ⟨k1, k2⟩
    obtain ⟨-, j2⟩ := h' t r k1 k2
    obtain ⟨y, hy⟩ := ht r
    simp only [TParser.lift, hy] at j2 ⊢
    exact ⟨by trivial, j2⟩

theorem Same.preceded {p p' : TParser α} {q q' : TParser β} (h : Same D D' p p')
    (hA : ∀ t, D'.st t → D.st t) (h' : Same D' D'' q q') :
    Same D D'' (TParser.preceded p q) (TParser.preceded p' q') := (h.seq hA h').map _
theorem Same.terminated {p p' : TParser α} {q q' : TParser β} (h : Same D D' p p')
    (hA : ∀ t, D'.st t → D.st t) (h' : Same D' D'' q q') :
    Same D D'' (TParser.terminated p q) (TParser.terminated p' q') := (h.seq hA h').map _

theorem Same.alt {p p' q q' : TParser α} (h : Same D D' p p') (h' : Same D D' q q') :
    Same D D' (TParser.alt p q) (TParser.alt p' q') := by
  intro s i hs hi
  obtain ⟨h1, h2⟩ := h s i hs hi
  simp only [TParser.alt, ← h1]
  revert h2
  generalize p s i = x
  obtain ⟨_ | ⟨a, r⟩, t⟩ := x
  · exact fun h2 => h' t i h2 hi
  · exact fun h2 => ⟨rfl, h2⟩

theorem Same.repeat0Aux {p q : TParser α} (h : Same D D p q) : ∀ m,
    Same D D (TParser.repeat0Aux p m) (TParser.repeat0Aux q m)
  | 0 => fun s i hs hi => ⟨rfl, hs, hi⟩
  | m + 1 => by
    intro s i hs hi
    obtain ⟨h1, h2⟩ := h s i hs hi
    simp only [TParser.repeat0Aux, ← h1]
    revert h2
    generalize p s i = x
    obtain ⟨_ | ⟨a, r⟩, t⟩ := x
    · exact fun h2 => ⟨rfl, h2, hi⟩
    · rintro ⟨k1, k2⟩
      obtain ⟨j1, j2⟩ := Same.repeat0Aux h m t r k1 k2
      dsimp only
      split
      · rw [← j1]
        revert j2
        generalize TParser.repeat0Aux p m t r = y
        obtain ⟨_ | ⟨b, r'⟩, t'⟩ := y <;> exact fun j2 => ⟨rfl, j2⟩
      · exact ⟨rfl, k1⟩

theorem Same.repeat1 {p q : TParser α} (h : Same D D p q) :
    Same D D (TParser.repeat1 p) (TParser.repeat1 q) := by
  intro s i hs hi
  obtain ⟨h1, h2⟩ := h s i hs hi
  simp only [TParser.repeat1, TParser.repeat0, ← h1]
  revert h2
  generalize p s i = x
  obtain ⟨_ | ⟨a, r⟩, t⟩ := x
  · exact fun h2 => ⟨rfl, h2⟩
  · rintro ⟨k1, k2⟩
    obtain ⟨j1, j2⟩ := h.repeat0Aux (r.length + 1) t r k1 k2
    dsimp only
    rw [← j1]
    revert j2
    generalize TParser.repeat0Aux p (r.length + 1) t r = y
    obtain ⟨_ | ⟨b, r'⟩, t'⟩ := y <;> exact fun j2 => ⟨rfl, j2⟩

theorem Same.separatedAux {p q : TParser α} {sep : Parser β} (h : Same D D p q)
    (hs : Keeps D.inp sep) : ∀ m,
    Same D D (TParser.separatedAux p sep m) (TParser.separatedAux q sep m)
  | 0 => fun s i hs hi => ⟨rfl, hs, hi⟩
  | m + 1 => by
    intro s i hst hi
    simp only [TParser.separatedAux]
    cases he : sep i with
    | none => exact ⟨rfl, hst, hi⟩
    | some y =>
      obtain ⟨u, r0⟩ := y
      obtain ⟨h1, h2⟩ := h s r0 hst (hs _ _ _ he hi)
      simp only [← h1]
      revert h2
      generalize p s r0 = x
      obtain ⟨_ | ⟨a, r⟩, t⟩ := x
      · exact fun h2 => ⟨rfl, h2, hi⟩
      · rintro ⟨k1, k2⟩
        obtain ⟨j1, j2⟩ := Same.separatedAux h hs m t r k1 k2
        dsimp only
        rw [← j1]
        revert j2
        generalize TParser.separatedAux p sep m t r = y
        obtain ⟨_ | ⟨b, r'⟩, t'⟩ := y <;> exact fun j2 => ⟨rfl, j2⟩

theorem Same.separated {p q : TParser α} {sep : Parser β} (min : Nat) (h : Same D D p q)
    (hs : Keeps D.inp sep) :
    Same D D (TParser.separated min p sep) (TParser.separated min q sep) := by
  intro s i hst hi
  obtain ⟨h1, h2⟩ := h s i hst hi
  simp only [TParser.separated, ← h1]
  revert h2
  generalize p s i = x
  obtain ⟨_ | ⟨a, r⟩, t⟩ := x
  · exact fun h2 => ⟨rfl, h2⟩
  · rintro ⟨k1, k2⟩
    obtain ⟨j1, j2⟩ := h.separatedAux hs (r.length + 1) t r k1 k2
    dsimp only
    rw [← j1]
    revert j2
    generalize TParser.separatedAux p sep (r.length + 1) t r = y
    obtain ⟨_ | ⟨b, r'⟩, t'⟩ := y
    · exact fun j2 => ⟨rfl, j2⟩
    · rintro ⟨l1, l2⟩
      refine ⟨rfl, ?_⟩
      dsimp only
      split
      · exact ⟨l1, l2⟩
      · exact l1

/-- a parser that stays in `D` -/
theorem Same.refl {p : TParser α} (h : Resp (fun s s' => s = s' ∧ D.st s) D.inp p) :
    Same D D p p := fun s i hs hi => by
  obtain ⟨-, h2, h3⟩ := h i hi s s ⟨rfl, hs⟩
  refine ⟨rfl, ?_⟩
  revert h2 h3
  generalize p s i = x
  obtain ⟨_ | ⟨a, r⟩, t⟩ := x
  · exact fun h2 _ => h2.2
  · exact fun h2 h3 => ⟨h2.2, h3 a r rfl⟩

/-- a larger set of results -/
theorem Same.weaken {p q : TParser α} (h : Same D D' p q) (hA : ∀ t, D'.st t → D''.st t)
    (hB : ∀ i, D'.inp i → D''.inp i) : Same D D'' p q := fun s i hs hi => by
  obtain ⟨h1, h2⟩ := h s i hs hi
  refine ⟨h1, ?_⟩
  revert h2
  generalize p s i = x
  obtain ⟨_ | ⟨a, r⟩, t⟩ := x
  · exact id
  · exact fun h2 => ⟨hA _ h2.1, hB _ h2.2⟩

/-- a parser without effects -/
theorem Same.lift {p : Parser α} (h : ∀ i a r, p i = some (a, r) → D.inp i → D'.inp r)
    (hA : ∀ t, D.st t → D'.st t) :
    Same D D' (TParser.lift p) (TParser.lift p) := fun s i hs hi => by
  refine ⟨rfl, ?_⟩
  simp only [TParser.lift]
  cases hp : p i with
  | none => exact hs
  | some y => exact ⟨hA _ hs, h i y.1 y.2 hp hi⟩

/-- an update of the counters -/
theorem Same.update {f : Levels → Levels} (hA : ∀ t, D.st t → D'.st (f t))
    (hB : ∀ i, D.inp i → D'.inp i) : Same D D' (TParser.update f) (TParser.update f) :=
  fun _ i hs hi => ⟨rfl, hA _ hs, hB i hi⟩

variable (hG : ∀ t r, D.inp (t ++ r) → D.inp r)
include hG

theorem Same.tws {p q : TParser α} (h : Same D D p q) : Same D D (Pica.tws p) (Pica.tws q) :=
  have hm : Same D D (TParser.lift Pica.multispace0) (TParser.lift Pica.multispace0) :=
    .refl (.lift (Keeps.multispace0 hG))
  Same.preceded hm (fun _ h => h) (Same.terminated h (fun _ h => h) hm)

theorem Same.composite {S : Syn M} {p q : TParser M} (ha : Keeps D.inp S.opAnd)
    (ho : Keeps D.inp S.opOr) (h : Same D D p q) :
    Same D D (Pica.composite S p) (Pica.composite S q) := by
  have hx : Keeps D.inp pXorOp := Keeps.of_reads hG (Reads.alt (Reads.lit _) (Reads.lit _))
  have chain : ∀ {op : Parser Unit} {p q : TParser M} (f : M → M → M), Keeps D.inp op →
      Same D D p q → Same D D (Pica.chain op (Pica.tws p) f) (Pica.chain op (Pica.tws q) f) :=
    fun f hop hq => Same.map (Same.seq (hq.tws hG) (fun _ h => h)
      (Same.repeat1 (Same.preceded (.refl (.lift hop)) (fun _ h => h) (hq.tws hG)))) _
  have h1 : Same D D (andChain S p) (andChain S q) := chain _ ha h
  have h2 : Same D D (xorChain S p) (xorChain S q) := chain _ hx (h1.alt h)
  have h3 : Same D D (orChain S p) (orChain S q) := chain _ ho (h1.alt (h2.alt h))
  exact h3.alt (h2.alt h1)

end

/-! ## The recursive equations of the source -/

/-- the body of `parse_subfield_group_matcher`, subfield/parser.rs:310-325, for the
parsers `g` and `n` of groups and negations -/
def subGroupBody (rx : Bytes → Bool) (g n : TParser SubMatcher) : TParser SubMatcher :=
  TParser.map SubMatcher.group
    (TParser.delimited
      (TParser.terminated (TParser.lift (ws (byte 0x28))) subInc)
      (TParser.alt (composite subSyn (subAtoms rx g n))
        (TParser.alt (pSubSingleM rx) (TParser.alt n g)))
      (TParser.lift (ws (byte 0x29))))

/-- the body of `parse_subfield_not_matcher`, subfield/parser.rs:338-351 -/
def subNotBody (g n : TParser SubMatcher) : TParser SubMatcher :=
  TParser.map SubMatcher.not
    (TParser.preceded (TParser.lift (ws (byte 0x21)))
      (TParser.alt g
        (TParser.alt (TParser.lift (map SubMatcher.single pSubExists)) n)))

/-- the body of `parse_field_group_matcher`, field/parser.rs:257-273 -/
def fieldGroupBody (rx : Bytes → Bool) (g n : TParser FieldMatcher) : TParser FieldMatcher :=
  TParser.map FieldMatcher.group
    (TParser.delimited
      (TParser.terminated (TParser.lift (ws (byte 0x28))) fldInc)
      (TParser.alt (composite fieldSyn (fieldAtoms rx g n))
        (TParser.alt (pFieldSingleM rx) (TParser.alt n (TParser.alt (pFieldCardM rx) g))))
      (TParser.terminated (TParser.lift (ws (byte 0x29))) (TParser.update fldDec)))

/-- the body of `parse_field_not_matcher`, field/parser.rs:276-290 -/
def fieldNotBody (rx : Bytes → Bool) (g n : TParser FieldMatcher) : TParser FieldMatcher :=
  TParser.map FieldMatcher.not
    (TParser.preceded (TParser.lift (ws (byte 0x21)))
      (TParser.alt g
        (TParser.alt (TParser.map FieldMatcher.single (pSubfieldsBracket rx))
          (TParser.alt (TParser.lift pFieldExistsM) n))))

/-- the body of `parse_group`, fmt/parser.rs:75-101 -/
def fmtGroupBody (g : TParser Fragments) : TParser Fragments :=
  TParser.map (fun x => .group x.2.1 x.2.2 (Modifier.orDefault x.1))
    (TParser.preceded (TParser.terminated (TParser.lift (ws (byte 0x28))) fmtInc)
      (TParser.seq (TParser.lift pModifier)
        (TParser.seq
          (TParser.alt (tws (pFmtList g))
            (TParser.lift (ws (map .value pFmtValue))))
          (TParser.preceded
            (TParser.terminated (TParser.lift (ws (byte 0x29))) (TParser.update fmtDec))
            (TParser.lift (pBound usizeMax))))))

section
variable (rx : Bytes → Bool) {D D' : Dom}

theorem subGroupBody_same {g g' n n' : TParser SubMatcher} (hA : ∀ t, D'.st t → D.st t)
    (hB : ∀ i, D'.inp i → D.inp i)
    (hG : ∀ t r, D'.inp (t ++ r) → D'.inp r)
    (hin : Same D D' (TParser.terminated (TParser.lift (ws (byte 0x28))) subInc)
      (TParser.terminated (TParser.lift (ws (byte 0x28))) subInc))
    (hg : Same D' D' g g') (hn : Same D' D' n n') :
    Same D D (subGroupBody rx g n) (subGroupBody rx g' n') := by
  have hs : Same D' D' (pSubSingleM rx) (pSubSingleM rx) :=
    .refl (.lift (.of_reads hG ((pSubSingle_reads rx anyEnv anyOpts).map _)))
  have hc := Same.composite (D := D') (S := subSyn) hG (.of_reads hG (Reads.lit _))
    (.of_reads hG (Reads.lit _)) (show Same D' D' (subAtoms rx g n) (subAtoms rx g' n') from
      hg.alt (hs.alt hn))
  exact Same.map (Same.preceded hin hA (Same.terminated (hc.alt (hs.alt (hn.alt hg))) (fun _ h => h)
    (Same.lift (fun i a r h hi => hB _ (Keeps.wsByte hG _ i a r h hi)) hA))) _

theorem subNotBody_same {g g' n n' : TParser SubMatcher} (hA : ∀ t, D'.st t → D.st t)
    (hB : ∀ i, D'.inp i → D.inp i)
    (hG : ∀ t r, D'.inp (t ++ r) → D'.inp r)
    (hin : Same D D' (TParser.lift (ws (byte 0x21))) (TParser.lift (ws (byte 0x21))))
    (hg : Same D' D' g g') (hn : Same D' D' n n') :
    Same D D (subNotBody g n) (subNotBody g' n') := by
  have he : Same D' D' _ _ := .refl (.lift (.of_reads hG
    ((pSubExists_reads anyEnv anyOpts).map SubMatcher.single)))
  exact (Same.map (Same.preceded hin hA (hg.alt (he.alt hn))) SubMatcher.not).weaken hA hB

theorem fieldGroupBody_same {g g' n n' : TParser FieldMatcher} (hA : ∀ t, D'.st t → D.st t)
    (hB : ∀ i, D'.inp i → D.inp i)
    (H : SubSteps (fun s s' => s = s' ∧ D'.st s) D'.inp)
    (hin : Same D D' (TParser.terminated (TParser.lift (ws (byte 0x28))) fldInc)
      (TParser.terminated (TParser.lift (ws (byte 0x28))) fldInc))
    (hdec : ∀ t, D'.st t → D.st (fldDec t))
    (hg : Same D' D' g g') (hn : Same D' D' n n') :
    Same D D (fieldGroupBody rx g n) (fieldGroupBody rx g' n') := by
  have hs : Same D' D' _ _ := .refl (H.fieldSingleM rx)
  have hcard : Same D' D' _ _ := .refl (H.fieldCardM rx)
  have he : Same D' D' _ _ := .refl (H.lift (pFieldExistsM_reads rx anyEnv anyOpts))
  have hc := Same.composite (D := D') (S := fieldSyn) H.suffix (.of_reads H.suffix (Reads.lit _).ws)
    (.of_reads H.suffix (Reads.lit _).ws)
    (show Same D' D' (fieldAtoms rx g n) (fieldAtoms rx g' n') from
      hg.alt (hcard.alt (hs.alt (hn.alt he))))
  have hclose : Same D' D (TParser.terminated (TParser.lift (ws (byte 0x29))) (TParser.update fldDec))
      (TParser.terminated (TParser.lift (ws (byte 0x29))) (TParser.update fldDec)) :=
    Same.terminated (D' := D') (.refl (H.wsByte _)) (fun _ h => h) (.update hdec hB)
  exact Same.map (Same.preceded hin hA (Same.terminated (hc.alt (hs.alt (hn.alt (hcard.alt hg))))
    (fun _ h => h) hclose)) _

theorem fieldNotBody_same {g g' n n' : TParser FieldMatcher} (hA : ∀ t, D'.st t → D.st t)
    (hB : ∀ i, D'.inp i → D.inp i)
    (H : SubSteps (fun s s' => s = s' ∧ D'.st s) D'.inp)
    (hin : Same D D' (TParser.lift (ws (byte 0x21))) (TParser.lift (ws (byte 0x21))))
    (hg : Same D' D' g g') (hn : Same D' D' n n') :
    Same D D (fieldNotBody rx g n) (fieldNotBody rx g' n') := by
  have he : Same D' D' _ _ := .refl (H.lift (pFieldExistsM_reads rx anyEnv anyOpts))
  have hb : Same D' D' _ _ := .refl ((H.bracket rx).map FieldMatcher.single)
  exact (Same.map (Same.preceded hin hA (hg.alt (hb.alt (he.alt hn)))) FieldMatcher.not).weaken hA hB

theorem pFmtList_same (hG : ∀ t r, D.inp (t ++ r) → D.inp r) {g g' : TParser Fragments}
    (hg : Same D D g g') : Same D D (pFmtList g) (pFmtList g') := by
  have hv : Same D D _ _ := .refl (.lift (.of_reads hG
    ((pFmtValue_reads anyFmt ⟨false, false⟩).map Fragments.value)))
  have h1 : Same D D (pAndThen g) (pAndThen g') :=
    Same.map (Same.separated 2 (hg.alt hv) (.of_reads hG (wsLit_reads _))) _
  have h2 : Same D D (pCons g) (pCons g') :=
    Same.map (Same.separated 2 (h1.alt (hg.alt hv)) (.of_reads hG (wsLit_reads _))) _
  exact h2.alt h1

theorem fmtGroupBody_same {g g' : TParser Fragments} (hA : ∀ t, D'.st t → D.st t)
    (hB : ∀ i, D'.inp i → D.inp i) (hG : ∀ t r, D.inp (t ++ r) → D.inp r)
    (hG' : ∀ t r, D'.inp (t ++ r) → D'.inp r)
    (hin : Same D D' (TParser.terminated (TParser.lift (ws (byte 0x28))) fmtInc)
      (TParser.terminated (TParser.lift (ws (byte 0x28))) fmtInc))
    (hdec : ∀ t, D'.st t → D.st (fmtDec t)) (hg : Same D' D' g g') :
    Same D D (fmtGroupBody g) (fmtGroupBody g') := by
  have hclose : Same D' D (TParser.terminated (TParser.lift (ws (byte 0x29))) (TParser.update fmtDec))
      (TParser.terminated (TParser.lift (ws (byte 0x29))) (TParser.update fmtDec)) :=
    Same.terminated (D' := D') (.refl (.lift (Keeps.wsByte hG' _))) (fun _ h => h) (.update hdec hB)
  have hv : Same D' D' _ _ := .refl (.lift (.of_reads hG'
    ((pFmtValue_reads anyFmt ⟨false, false⟩).map Fragments.value).ws))
  have hm : Same D' D' _ _ := .refl (.lift (.of_reads hG' (pModifier_reads anyFmt)))
  have hb : Same D D (TParser.lift (pBound usizeMax)) (TParser.lift (pBound usizeMax)) :=
    .refl (.lift (.of_reads hG (pBound_reads usizeMax)))
  refine Same.map (Same.preceded hin hA (Same.seq hm (fun _ h => h) (Same.seq
    (((pFmtList_same hG' hg).tws hG').alt hv) (fun _ h => h) ?_))) _
  refine (Same.seq_total hclose (fun i => ?_) hb).map _
  simp only [pBound, Parser.alt]
  split
  · exact ⟨_, rfl⟩
  · split <;> exact ⟨_, rfl⟩

end

/-! ## Solutions of the equations -/

/-- inputs of less than `n` bytes -/
def lenDom (n : Nat) : Dom := ⟨fun _ => True, fun i => i.length < n⟩

/-- nothing -/
def noDom (B : Bytes → Prop) : Dom := ⟨fun _ => False, B⟩

theorem Same.no {α : Type} {B : Bytes → Prop} {p q : TParser α} : Same (noDom B) (noDom B) p q :=
  fun _ _ hs _ => absurd hs id

/-- Two parsers that call each other, where every call is made on a shorter input: the
approximations `a k`, `b k` converge to the only solution. -/
theorem fixpoint {α : Type} {F G : TParser α → TParser α → TParser α} {a b : Nat → TParser α}
    (step : ∀ k g g' n n', Same (lenDom k) (lenDom k) g g' → Same (lenDom k) (lenDom k) n n' →
      Same (lenDom (k + 1)) (lenDom (k + 1)) (F g n) (F g' n') ∧
      Same (lenDom (k + 1)) (lenDom (k + 1)) (G g n) (G g' n'))
    (ha : ∀ k, a (k + 1) = F (a k) (b k)) (hb : ∀ k, b (k + 1) = G (a k) (b k)) :
    ∃ g n : TParser α, (g = F g n ∧ n = G g n) ∧
      (∀ g' n', g' = F g' n' → n' = G g' n' → g' = g ∧ n' = n) ∧
      ∀ k, Same (lenDom k) (lenDom k) (a k) g ∧ Same (lenDom k) (lenDom k) (b k) n := by
  have zero : ∀ {p q : TParser α}, Same (lenDom 0) (lenDom 0) p q := fun s i _ hi =>
    absurd hi (Nat.not_lt_zero _)
  have mono : ∀ m k, Same (lenDom k) (lenDom k) (a k) (a (k + m)) ∧
      Same (lenDom k) (lenDom k) (b k) (b (k + m)) := by
    intro m k
    induction k with
    | zero => exact ⟨zero, zero⟩
    | succ k ih =>
      rw [show k + 1 + m = k + m + 1 by omega, ha, ha, hb, hb]
      exact step k _ _ _ _ ih.1 ih.2
  have below : ∀ k s i, i.length < k →
      a k s i = a (i.length + 1) s i ∧ b k s i = b (i.length + 1) s i := by
    intro k s i hi
    obtain ⟨m, rfl⟩ : ∃ m, k = i.length + 1 + m := ⟨k - (i.length + 1), by omega⟩
    exact ⟨((mono m (i.length + 1)).1 s i trivial (Nat.lt_succ_self _)).1.symm,
      ((mono m (i.length + 1)).2 s i trivial (Nat.lt_succ_self _)).1.symm⟩
  have near : ∀ k, Same (lenDom k) (lenDom k) (a k) (fun s i => a (i.length + 1) s i) ∧
      Same (lenDom k) (lenDom k) (b k) (fun s i => b (i.length + 1) s i) := fun k =>
    ⟨fun s i hs hi => ⟨(below k s i hi).1, ((mono 0 k).1 s i hs hi).2⟩,
      fun s i hs hi => ⟨(below k s i hi).2, ((mono 0 k).2 s i hs hi).2⟩⟩
  refine ⟨fun s i => a (i.length + 1) s i, fun s i => b (i.length + 1) s i, ⟨?_, ?_⟩, ?_, near⟩
  · funext s i
    rw [ha]
    exact ((step i.length _ _ _ _ (near _).1 (near _).2).1 s i trivial (Nat.lt_succ_self _)).1
  · funext s i
    rw [hb]
    exact ((step i.length _ _ _ _ (near _).1 (near _).2).2 s i trivial (Nat.lt_succ_self _)).1
  · intro g' n' hg hn
    have all : ∀ k, Same (lenDom k) (lenDom k) (a k) g' ∧ Same (lenDom k) (lenDom k) (b k) n' := by
      intro k
      induction k with
      | zero => exact ⟨zero, zero⟩
      | succ k ih =>
        obtain ⟨h1, h2⟩ := step k _ _ _ _ ih.1 ih.2
        rw [← hg, ← ha] at h1
        rw [← hn, ← hb] at h2
        exact ⟨h1, h2⟩
    constructor <;> funext s i
    · exact ((all (i.length + 1)).1 s i trivial (Nat.lt_succ_self _)).1.symm
    · exact ((all (i.length + 1)).2 s i trivial (Nat.lt_succ_self _)).1.symm

end Pica
