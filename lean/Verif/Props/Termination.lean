import Verif.Lemmas.Bound
import Verif.Lemmas.FieldAlt

/-!
# C71: parsing terminates, and how deep the calls nest

The functions of the source that parse groups and negations call each other.  Their equations
have exactly one solution, i.e. the recursion is well founded, and the bounded functions of the
model agree with it.  The nesting of the calls is bounded by the number of bytes, and by the
limit of open groups plus the number of exclamation marks; it is not bounded by the limit of open
groups alone.
-/

namespace Pica.Props
open Pica Pica.Spec Parser

/-! ## The steps that consume a byte -/

theorem wsByte_short {b : Byte} {i : Bytes} {u : Byte} {r : Bytes}
    (h : ws (byte b) i = some (u, r)) :
    r.length < i.length ∧ r.count b < i.count b ∧ ∀ c, r.count c ≤ i.count c := by
  obtain ⟨t, rfl, w, v, x, rfl, -, ⟨-, rfl⟩, -⟩ := (Reads.byte b).ws i u r h
  refine ⟨by simp; omega, by simp; omega, fun c => by simp only [List.count_append]; omega⟩

/-- the opening parenthesis and the counter: `f` is the level, `lim` the limit -/
theorem enter_same {D D' : Dom} {inc : TParser Unit}
    (hi : ∀ i u r, ws (byte 0x28) i = some (u, r) → D.inp i → D'.inp r)
    (hs : ∀ s i, D.st s → D'.inp i → Good D D' (inc s i)) :
    Same D D' (TParser.terminated (TParser.lift (ws (byte 0x28))) inc)
      (TParser.terminated (TParser.lift (ws (byte 0x28))) inc) :=
  Same.terminated (D' := ⟨D.st, D'.inp⟩) (Same.lift hi (fun _ h => h)) (fun _ h => h) fun s i h1 h2 => by
    refine ⟨rfl, ?_⟩
    have := hs s i h1 h2
    revert this
    generalize inc s i = x
    obtain ⟨_ | ⟨a, r⟩, t⟩ := x <;> exact id

/-! ## Termination -/

theorem len_suffix (k : Nat) : ∀ t r : Bytes, (lenDom k).inp (t ++ r) → (lenDom k).inp r :=
  fun t r h => by simp only [lenDom, List.length_append] at h ⊢; omega

theorem len_subSteps (k : Nat) :
    SubSteps (fun s s' => s = s' ∧ (lenDom k).st s) (lenDom k).inp where
  suffix := len_suffix k
  sub := (Resp.lift (Keeps.wsByte (len_suffix k) _)).terminated fun i hi s s' hs => by
    obtain ⟨rfl, -⟩ := hs
    refine ⟨rfl, ⟨rfl, trivial⟩, fun a r h => ?_⟩
    unfold subInc at h
    dsimp only at h
    split at h
    · cases h
    · cases h; exact hi
  subReset := by rintro s s' ⟨rfl, -⟩; exact ⟨rfl, trivial⟩

theorem len_enter (k : Nat) {inc : TParser Unit}
    (h : ∀ s i, (inc s i).1 = none ∨ (inc s i).1 = some ((), i)) :
    Same (lenDom (k + 1)) (lenDom k) (TParser.terminated (TParser.lift (ws (byte 0x28))) inc)
      (TParser.terminated (TParser.lift (ws (byte 0x28))) inc) :=
  enter_same (fun i u r h hi => by
    have := (wsByte_short h).1
    simp only [lenDom] at hi ⊢
    omega) fun s i _ hi => by
    have := h s i
    revert this
    generalize inc s i = x
    obtain ⟨_ | ⟨a, r⟩, t⟩ := x
    · exact fun _ => trivial
    · rintro (h | h)
      · cases h
      · cases h; exact ⟨trivial, hi⟩

theorem len_bang (k : Nat) : Same (lenDom (k + 1)) (lenDom k) (TParser.lift (ws (byte 0x21)))
    (TParser.lift (ws (byte 0x21))) :=
  Same.lift (fun i u r h hi => by
    have := (wsByte_short h).1
    simp only [lenDom] at hi ⊢
    omega) (fun _ h => h)

theorem len_up (k : Nat) : ∀ i, (lenDom k).inp i → (lenDom (k + 1)).inp i :=
  fun i h => by simp only [lenDom] at h ⊢; omega

theorem sub_step (rx : Bytes → Bool) (k : Nat) (g g' n n' : TParser SubMatcher)
    (hg : Same (lenDom k) (lenDom k) g g') (hn : Same (lenDom k) (lenDom k) n n') :
    Same (lenDom (k + 1)) (lenDom (k + 1)) (subGroupBody rx g n) (subGroupBody rx g' n') ∧
    Same (lenDom (k + 1)) (lenDom (k + 1)) (subNotBody g n) (subNotBody g' n') :=
  ⟨subGroupBody_same (D := lenDom (k + 1)) (D' := lenDom k) rx (fun _ h => h) (len_up k) (len_suffix k) (len_enter (inc := subInc) k fun s i => by
      unfold subInc; dsimp only; split <;> simp) hg hn,
    subNotBody_same (D := lenDom (k + 1)) (D' := lenDom k) (fun _ h => h) (len_up k) (len_suffix k) (len_bang k) hg hn⟩

theorem field_step (rx : Bytes → Bool) (k : Nat) (g g' n n' : TParser FieldMatcher)
    (hg : Same (lenDom k) (lenDom k) g g') (hn : Same (lenDom k) (lenDom k) n n') :
    Same (lenDom (k + 1)) (lenDom (k + 1)) (fieldGroupBody rx g n) (fieldGroupBody rx g' n') ∧
    Same (lenDom (k + 1)) (lenDom (k + 1)) (fieldNotBody rx g n) (fieldNotBody rx g' n') :=
  ⟨fieldGroupBody_same (D := lenDom (k + 1)) (D' := lenDom k) rx (fun _ h => h) (len_up k) (len_subSteps k) (len_enter (inc := fldInc) k fun s i => by
      unfold fldInc; dsimp only; split <;> simp) (fun _ h => h) hg hn,
    fieldNotBody_same (D := lenDom (k + 1)) (D' := lenDom k) rx (fun _ h => h) (len_up k) (len_subSteps k) (len_bang k) hg hn⟩

theorem fmt_step (k : Nat) (g g' : TParser Fragments) (hg : Same (lenDom k) (lenDom k) g g') :
    Same (lenDom (k + 1)) (lenDom (k + 1)) (fmtGroupBody g) (fmtGroupBody g') :=
  fmtGroupBody_same (D := lenDom (k + 1)) (D' := lenDom k) (fun _ h => h) (len_up k) (len_suffix _) (len_suffix k) (len_enter (inc := fmtInc) k fun s i => by
    unfold fmtInc; dsimp only; split <;> simp) (fun _ h => h) hg

/-- a step after success -/
def whenDone {α : Type} (f : Levels → Levels) (p : TParser α) : TParser α := fun s i =>
  match p s i with
  | (some x, s') => (some x, f s')
  | (none, s') => (none, s')

/-- the functions of the source that call each other: a group and a negation -/
structure SubParsers (rx : Bytes → Bool) (g n : TParser SubMatcher) : Prop where
  group : g = subGroupBody rx g n
  not : n = subNotBody g n

/-- the same for fields -/
structure FieldParsers (rx : Bytes → Bool) (g n : TParser FieldMatcher) : Prop where
  group : g = fieldGroupBody rx g n
  not : n = fieldNotBody rx g n

/-- **C71** (subfields) The functions that parse groups and negations have, with their mutual
calls, exactly one meaning: on no text do they call each other forever.  At most as many calls
are nested as there are bytes. -/
theorem C71_sub (rx : Bytes → Bool) : ∃ g n, SubParsers rx g n ∧
    (∀ g' n', SubParsers rx g' n' → g' = g ∧ n' = n) ∧
    (∀ k s i, i.length < k → pSubGroup rx k s i = g s i ∧ pSubNot rx k s i = n s i) ∧
    pSubMatcher rx = whenDone subReset (TParser.alt (composite subSyn (subAtoms rx g n))
      (TParser.alt (pSubSingleM rx) (TParser.alt g n))) := by
  obtain ⟨g, n, ⟨h1, h2⟩, h3, h4⟩ := fixpoint (a := pSubGroup rx) (b := pSubNot rx) (sub_step rx)
    (fun k => by rw [pSubGroup, subGroupBody]) (fun k => by rw [pSubNot, subNotBody])
  refine ⟨g, n, ⟨h1, h2⟩, fun g' n' h => h3 g' n' h.1 h.2, fun k s i hi =>
    ⟨((h4 k).1 s i trivial hi).1, ((h4 k).2 s i trivial hi).1⟩, ?_⟩
  funext s i
  obtain ⟨hg, hn⟩ := h4 (i.length + 1)
  have hS := len_suffix (i.length + 1)
  have hs : Same (lenDom (i.length + 1)) (lenDom (i.length + 1)) (pSubSingleM rx) (pSubSingleM rx) :=
    .refl (.lift (.of_reads hS ((pSubSingle_reads rx anyEnv anyOpts).map _)))
  have hc := Same.composite (D := lenDom (i.length + 1)) (S := subSyn) hS
    (.of_reads hS (Reads.lit _)) (.of_reads hS (Reads.lit _))
    (show Same _ _ (subAtoms rx _ _) (subAtoms rx g n) from hg.alt (hs.alt hn))
  unfold pSubMatcher pSubComposite whenDone
  dsimp only
  rw [((hc.alt (hs.alt (hg.alt hn))) s i trivial (Nat.lt_succ_self _)).1]
  generalize TParser.alt _ _ s i = x
  obtain ⟨_ | _, _⟩ := x <;> rfl

/-- **C71** (fields and records) The same for fields. -/
theorem C71_field (rx : Bytes → Bool) : ∃ g n, FieldParsers rx g n ∧
    (∀ g' n', FieldParsers rx g' n' → g' = g ∧ n' = n) ∧
    (∀ k s i, i.length < k → pFieldGroup rx k s i = g s i ∧ pFieldNot rx k s i = n s i) ∧
    pFieldMatcher rx = whenDone fldReset (tws (TParser.alt (composite fieldSyn (fieldAtoms rx g n))
      (TParser.alt g (TParser.alt n (TParser.alt (pFieldSingleM rx) (pFieldCardM rx)))))) := by
  obtain ⟨g, n, ⟨h1, h2⟩, h3, h4⟩ := fixpoint (a := pFieldGroup rx) (b := pFieldNot rx) (field_step rx)
    (fun k => by rw [pFieldGroup, fieldGroupBody]) (fun k => by rw [pFieldNot, fieldNotBody])
  refine ⟨g, n, ⟨h1, h2⟩, fun g' n' h => h3 g' n' h.1 h.2, fun k s i hi =>
    ⟨((h4 k).1 s i trivial hi).1, ((h4 k).2 s i trivial hi).1⟩, ?_⟩
  funext s i
  obtain ⟨hg, hn⟩ := h4 (i.length + 1)
  have H := len_subSteps (i.length + 1)
  have hs : Same (lenDom (i.length + 1)) (lenDom (i.length + 1)) _ _ := .refl (H.fieldSingleM rx)
  have hcard : Same (lenDom (i.length + 1)) (lenDom (i.length + 1)) _ _ := .refl (H.fieldCardM rx)
  have he : Same (lenDom (i.length + 1)) (lenDom (i.length + 1)) _ _ :=
    .refl (H.lift (pFieldExistsM_reads rx anyEnv anyOpts))
  have hc := Same.composite (D := lenDom (i.length + 1)) (S := fieldSyn) H.suffix
    (.of_reads H.suffix (Reads.lit _).ws) (.of_reads H.suffix (Reads.lit _).ws)
    (show Same _ _ (fieldAtoms rx _ _) (fieldAtoms rx g n) from hg.alt (hcard.alt (hs.alt (hn.alt he))))
  unfold pFieldMatcher pFieldComposite whenDone
  dsimp only
  rw [(((hc.alt (hg.alt (hn.alt (hs.alt hcard)))).tws H.suffix) s i trivial (Nat.lt_succ_self _)).1]
  generalize tws _ s i = x
  obtain ⟨_ | _, _⟩ := x <;> rfl

/-- **C71** (formats) The same for formats. -/
theorem C71_format (rx : Bytes → Bool) : ∃ g, g = fmtGroupBody g ∧
    (∀ g', g' = fmtGroupBody g' → g' = g) ∧
    (∀ k s i, i.length < k → pFmtGroup k s i = g s i) ∧
    pFormat rx = TParser.map (fun x => ⟨x.1.1, x.1.2.1, x.1.2.2.2, trimAscii x.2, x.1.2.2.1⟩)
      (TParser.withTaken (TParser.seq (TParser.lift pTagMatcher) (TParser.seq (TParser.lift pOccMatcher)
        (TParser.preceded (TParser.lift (ws (byte 0x7B)))
          (TParser.terminated (TParser.seq
            (TParser.alt (tws (pFmtList g)) (TParser.alt (tws g) (TParser.lift (ws (map .value pFmtValue)))))
            (pFilterOpt rx)) (TParser.lift (ws (byte 0x7D)))))))) := by
  obtain ⟨g, n, ⟨h1, h2⟩, h3, h4⟩ := fixpoint (a := pFmtGroup) (b := pFmtGroup)
    (F := fun g _ => fmtGroupBody g) (G := fun g _ => fmtGroupBody g)
    (fun k g g' _ _ hg _ => ⟨fmt_step k g g' hg, fmt_step k g g' hg⟩)
    (fun k => by rw [pFmtGroup, fmtGroupBody]) (fun k => by rw [pFmtGroup, fmtGroupBody])
  refine ⟨g, h1, fun g' h => (h3 g' g' h h).1, fun k s i hi => ((h4 k).1 s i trivial hi).1, ?_⟩
  funext s i
  have hg := (h4 (i.length + 1)).1
  have H := len_subSteps (i.length + 1)
  have hl := (pFmtList_same H.suffix hg).tws H.suffix
  have hv : Same (lenDom (i.length + 1)) (lenDom (i.length + 1)) _ _ := .refl (.lift (.of_reads H.suffix
    ((pFmtValue_reads anyFmt ⟨false, false⟩).map Fragments.value).ws))
  have hf := hl.alt ((hg.tws H.suffix).alt hv)
  have hb : ∀ b, Same (lenDom (i.length + 1)) (lenDom (i.length + 1)) (TParser.lift (ws (byte b)))
    (TParser.lift (ws (byte b))) := fun b => .refl (H.wsByte b)
  have all := ((Same.refl (H.lift pTagMatcher_reads)).seq (fun _ h => h)
    ((Same.refl (H.lift pOccMatcher_reads)).seq (fun _ h => h) ((hb 0x7B).preceded (fun _ h => h)
      ((hf.seq (fun _ h => h) (.refl (H.filterOpt rx))).terminated (fun _ h => h) (hb 0x7D))))).withTaken
  exact ((all.map _) s i trivial (Nat.lt_succ_self _)).1

/-! ## How deep the calls nest -/

/-- `256 - level` is at most `a`, and there are at most `b` exclamation marks -/
def subDom (a b : Nat) : Dom := ⟨fun s => 256 ≤ s.sub + a, fun i => i.count 0x21 ≤ b⟩

/-- the same for fields -/
def fldDom (a b : Nat) : Dom := ⟨fun s => 256 ≤ s.fld + a, fun i => i.count 0x21 ≤ b⟩

/-- the same for formats -/
def fmtDom (a : Nat) : Dom := ⟨fun s => 32 ≤ s.fmt + a, fun _ => True⟩

theorem count_suffix (b : Nat) : ∀ t r : Bytes, (t ++ r).count 0x21 ≤ b → r.count 0x21 ≤ b :=
  fun t r h => by rw [List.count_append] at h; omega

theorem count_paren {b : Nat} : ∀ i u r, ws (byte 0x28) i = some (u, r) → i.count 0x21 ≤ b → r.count 0x21 ≤ b :=
  fun i u r h hi => by have := (wsByte_short h).2.2 0x21; omega

theorem sub_depth (rx : Bytes → Bool) (m : Nat) : ∀ N a b, a + b < N →
    Same (subDom a b) (subDom a b) (pSubGroup rx N) (pSubGroup rx (N + m)) ∧
    Same (subDom a b) (subDom a b) (pSubNot rx N) (pSubNot rx (N + m))
  | 0, _, _, h => absurd h (Nat.not_lt_zero _)
  | N + 1, a, b, h => by
    have e1 : ∀ k, pSubGroup rx (k + 1) = subGroupBody rx (pSubGroup rx k) (pSubNot rx k) :=
      fun k => by rw [pSubGroup, subGroupBody]
    have e2 : ∀ k, pSubNot rx (k + 1) = subNotBody (pSubGroup rx k) (pSubNot rx k) :=
      fun k => by rw [pSubNot, subNotBody]
    rw [show N + 1 + m = N + m + 1 by omega, e1, e1, e2, e2]
    constructor
    · cases a with
      | zero =>
        refine subGroupBody_same (D := subDom 0 b) (D' := noDom fun i => i.count 0x21 ≤ b) rx
          (fun _ h => absurd h id) (fun _ h => h) (count_suffix b) (enter_same count_paren ?_) .no .no
        intro s i hs _
        simp only [subDom] at hs
        unfold subInc
        dsimp only
        rw [if_pos (by omega)]
        show 256 ≤ _
        dsimp only
        omega
      | succ a =>
        obtain ⟨hg, hn⟩ := sub_depth rx m N a b (by omega)
        refine subGroupBody_same (D := subDom (a + 1) b) (D' := subDom a b) rx
          (fun t h => by simp only [subDom] at h ⊢; omega) (fun _ h => h) (count_suffix b)
          (enter_same count_paren ?_) hg hn
        intro s i hs hi
        simp only [subDom] at hs
        unfold subInc
        dsimp only
        split
        · show 256 ≤ _
          dsimp only
          omega
        · refine ⟨?_, hi⟩
          show 256 ≤ _
          dsimp only
          omega
    · cases b with
      | zero =>
        refine subNotBody_same (D := subDom a 0) (D' := noDom fun i => i.count 0x21 ≤ 0)
          (fun _ h => absurd h id) (fun _ h => h) (count_suffix 0) ?_ .no .no
        intro s i hs hi
        refine ⟨rfl, ?_⟩
        simp only [TParser.lift]
        cases hp : ws (byte 0x21) i with
        | none => exact hs
        | some y =>
          have := (wsByte_short hp).2.1
          simp only [subDom] at hi
          omega
      | succ b =>
        obtain ⟨hg, hn⟩ := sub_depth rx m N a b (by omega)
        refine subNotBody_same (D := subDom a (b + 1)) (D' := subDom a b) (fun _ h => h)
          (fun i h => by simp only [subDom] at h ⊢; omega) (count_suffix b) (Same.lift ?_ (fun _ h => h)) hg hn
        intro i u r h hi
        have := (wsByte_short h).2.1
        simp only [subDom] at hi ⊢
        omega

theorem fld_subSteps {A : Levels → Prop} (b : Nat) (h : ∀ s n, A s → A { s with sub := n }) :
    SubSteps (fun s s' => s = s' ∧ A s) (fun i : Bytes => i.count 0x21 ≤ b) where
  suffix := count_suffix b
  sub := (Resp.lift (Keeps.wsByte (count_suffix b) _)).terminated fun i hi s s' hs => by
    obtain ⟨rfl, hs⟩ := hs
    unfold subInc
    dsimp only
    split
    · exact ⟨rfl, ⟨rfl, h s _ hs⟩, by rintro a r h; cases h⟩
    · exact ⟨rfl, ⟨rfl, h s _ hs⟩, by rintro a r h; cases h; exact hi⟩
  subReset := by rintro s s' ⟨rfl, hs⟩; exact ⟨rfl, h s _ hs⟩

theorem field_depth (rx : Bytes → Bool) (m : Nat) : ∀ N a b, a + b < N →
    Same (fldDom a b) (fldDom a b) (pFieldGroup rx N) (pFieldGroup rx (N + m)) ∧
    Same (fldDom a b) (fldDom a b) (pFieldNot rx N) (pFieldNot rx (N + m))
  | 0, _, _, h => absurd h (Nat.not_lt_zero _)
  | N + 1, a, b, h => by
    have e1 : ∀ k, pFieldGroup rx (k + 1) = fieldGroupBody rx (pFieldGroup rx k) (pFieldNot rx k) :=
      fun k => by rw [pFieldGroup, fieldGroupBody]
    have e2 : ∀ k, pFieldNot rx (k + 1) = fieldNotBody rx (pFieldGroup rx k) (pFieldNot rx k) :=
      fun k => by rw [pFieldNot, fieldNotBody]
    rw [show N + 1 + m = N + m + 1 by omega, e1, e1, e2, e2]
    constructor
    · cases a with
      | zero =>
        refine fieldGroupBody_same (D := fldDom 0 b) (D' := noDom fun i => i.count 0x21 ≤ b) rx
          (fun _ h => absurd h id) (fun _ h => h) (fld_subSteps b fun _ _ h => h)
          (enter_same count_paren ?_) (fun _ h => absurd h id) .no .no
        intro s i hs _
        simp only [fldDom] at hs
        unfold fldInc
        dsimp only
        rw [if_pos (by omega)]
        show 256 ≤ _
        dsimp only
        omega
      | succ a =>
        obtain ⟨hg, hn⟩ := field_depth rx m N a b (by omega)
        refine fieldGroupBody_same (D := fldDom (a + 1) b) (D' := fldDom a b) rx
          (fun t h => by simp only [fldDom] at h ⊢; omega) (fun _ h => h)
          (fld_subSteps b fun _ _ h => h)
          (enter_same count_paren ?_) (fun t h => by simp only [fldDom, fldDec] at h ⊢; omega) hg hn
        intro s i hs hi
        simp only [fldDom] at hs
        unfold fldInc
        dsimp only
        split
        · show 256 ≤ _
          dsimp only
          omega
        · refine ⟨?_, hi⟩
          show 256 ≤ _
          dsimp only
          omega
    · cases b with
      | zero =>
        refine fieldNotBody_same (D := fldDom a 0) (D' := noDom fun i => i.count 0x21 ≤ 0) rx
          (fun _ h => absurd h id) (fun _ h => h) (fld_subSteps 0 fun _ _ h => h) ?_ .no .no
        intro s i hs hi
        refine ⟨rfl, ?_⟩
        simp only [TParser.lift]
        cases hp : ws (byte 0x21) i with
        | none => exact hs
        | some y =>
          have := (wsByte_short hp).2.1
          simp only [fldDom] at hi
          omega
      | succ b =>
        obtain ⟨hg, hn⟩ := field_depth rx m N a b (by omega)
        refine fieldNotBody_same (D := fldDom a (b + 1)) (D' := fldDom a b) rx (fun _ h => h)
          (fun i h => by simp only [fldDom] at h ⊢; omega) (fld_subSteps b fun _ _ h => h)
          (Same.lift ?_ (fun _ h => h)) hg hn
        intro i u r h hi
        have := (wsByte_short h).2.1
        simp only [fldDom] at hi ⊢
        omega

theorem fmt_depth (m : Nat) : ∀ N a, a < N →
    Same (fmtDom a) (fmtDom a) (pFmtGroup N) (pFmtGroup (N + m))
  | 0, _, h => absurd h (Nat.not_lt_zero _)
  | N + 1, a, h => by
    have e1 : ∀ k, pFmtGroup (k + 1) = fmtGroupBody (pFmtGroup k) := fun k => by
      rw [pFmtGroup, fmtGroupBody]
    rw [show N + 1 + m = N + m + 1 by omega, e1, e1]
    cases a with
    | zero =>
      refine fmtGroupBody_same (D := fmtDom 0) (D' := noDom fun _ => True)
        (fun _ h => absurd h id) (fun _ h => h) (fun _ _ h => h) (fun _ _ h => h)
        (enter_same (fun _ _ _ _ h => h) ?_) (fun _ h => absurd h id) .no
      intro s i hs _
      simp only [fmtDom] at hs
      unfold fmtInc
      dsimp only
      rw [if_pos (by omega)]
      show 32 ≤ _
      dsimp only
      omega
    | succ a =>
      refine fmtGroupBody_same (D := fmtDom (a + 1)) (D' := fmtDom a)
        (fun t h => by simp only [fmtDom] at h ⊢; omega) (fun _ h => h) (fun _ _ h => h) (fun _ _ h => h)
        (enter_same (fun _ _ _ _ h => h) ?_) (fun t h => by simp only [fmtDom, fmtDec] at h ⊢; omega)
        (fmt_depth m N a (by omega))
      intro s i hs hi
      simp only [fmtDom] at hs
      unfold fmtInc
      dsimp only
      split
      · show 32 ≤ _
        dsimp only
        omega
      · refine ⟨?_, hi⟩
        show 32 ≤ _
        dsimp only
        omega

/-- the larger of two bounds may be replaced by the other -/
theorem depth_of {α : Type} {p : Nat → TParser α} {K : Nat} {s : Levels} {i : Bytes}
    (h : ∀ m, p K s i = p (K + m) s i) {g : TParser α} (hg : ∀ k, i.length < k → p k s i = g s i)
    {k : Nat} (hk : K ≤ k) : p k s i = g s i := by
  obtain ⟨m, rfl⟩ : ∃ m, k = K + m := ⟨k - K, by omega⟩
  rw [← h m, h (i.length + 1)]
  exact hg _ (by omega)

/-- **C71** (subfields, what holds) Whatever the state of the thread, at most 257 calls for groups
and one for every exclamation mark of the text are nested. -/
theorem C71_sub_depth_partial (rx : Bytes → Bool) (g n : TParser SubMatcher) (h : SubParsers rx g n)
    (s : Levels) (i : Bytes) (k : Nat) (hk : 257 + i.count 0x21 ≤ k) :
    pSubGroup rx k s i = g s i ∧ pSubNot rx k s i = n s i := by
  obtain ⟨g', n', -, h1, h2, -⟩ := C71_sub rx
  obtain ⟨rfl, rfl⟩ := h1 g n h
  have hd := fun m => sub_depth rx m (257 + i.count 0x21) 256 (i.count 0x21) (by omega)
  exact ⟨depth_of (fun m => ((hd m).1 s i (by simp only [subDom]; omega) (Nat.le_refl _)).1)
      (fun k hk => (h2 k s i hk).1) hk,
    depth_of (fun m => ((hd m).2 s i (by simp only [subDom]; omega) (Nat.le_refl _)).1)
      (fun k hk => (h2 k s i hk).2) hk⟩

/-- **C71** (fields and records, what holds) The same for fields. -/
theorem C71_field_depth_partial (rx : Bytes → Bool) (g n : TParser FieldMatcher)
    (h : FieldParsers rx g n) (s : Levels) (i : Bytes) (k : Nat) (hk : 257 + i.count 0x21 ≤ k) :
    pFieldGroup rx k s i = g s i ∧ pFieldNot rx k s i = n s i := by
  obtain ⟨g', n', -, h1, h2, -⟩ := C71_field rx
  obtain ⟨rfl, rfl⟩ := h1 g n h
  have hd := fun m => field_depth rx m (257 + i.count 0x21) 256 (i.count 0x21) (by omega)
  exact ⟨depth_of (fun m => ((hd m).1 s i (by simp only [fldDom]; omega) (Nat.le_refl _)).1)
      (fun k hk => (h2 k s i hk).1) hk,
    depth_of (fun m => ((hd m).2 s i (by simp only [fldDom]; omega) (Nat.le_refl _)).1)
      (fun k hk => (h2 k s i hk).2) hk⟩

/-- **C71** (formats) At most 33 calls are nested, whatever the text and the state. -/
theorem C71_format_depth (g : TParser Fragments) (h : g = fmtGroupBody g) (s : Levels) (i : Bytes)
    (k : Nat) (hk : 33 ≤ k) : pFmtGroup k s i = g s i := by
  obtain ⟨g', -, h1, h2, -⟩ := C71_format (fun _ => true)
  obtain rfl := h1 g h
  exact depth_of (fun m => ((fmt_depth m 33 32 (by omega)) s i (by simp only [fmtDom]; omega) trivial).1)
    (fun k hk => h2 k s i hk) hk

/-! ## Negations are not counted -/

/-- `!!..!a?` -/
def bangs (k : Nat) (t : Bytes) : Bytes := List.replicate k 0x21 ++ t

theorem bangs_noWs (k : Nat) {t : Bytes} (h : NoWs t) : NoWs (bangs k t) := by
  cases k with
  | zero => exact h
  | succ k => exact noWs_cons.2 (by decide)

theorem bangs_succ (k : Nat) (t : Bytes) : bangs (k + 1) t = 0x21 :: bangs k t := rfl

theorem bang_run {r : Bytes} (h : NoWs r) : ws (byte 0x21) (0x21 :: r) = some (0x21, r) := by
  rw [wsByte_run' (r := r) (dws_of_noWs (noWs_cons.2 (by decide))), dws_of_noWs h]

theorem subExists_bang (r : Bytes) : pSubExists (0x21 :: r) = none :=
  map_none (withTaken_none (terminated_none rfl))

/-- with `k` exclamation marks, `k` nested calls suffice -/
theorem subNot_bangs (rx : Bytes → Bool) (s : Levels) {t : Bytes} {x : SubSingle} (hw : NoWs t)
    (ht : pSubExists t = some (x, [])) (hp : t.head? ≠ some 0x28) : ∀ k d,
    ∃ m, pSubNot rx (k + 1 + d) s (bangs (k + 1) t) = (some (m, []), s)
  | 0, d => by
    rw [show 0 + 1 + d = d + 1 by omega, pSubNot, bangs_succ]
    refine ⟨.not (.single x), TParser.map_run (TParser.preceded_run (TParser.lift_run
      (bang_run (bangs_noWs 0 hw))) ?_)⟩
    rw [show bangs 0 t = t from rfl, TParser.alt_right (pSubGroup_none hw hp)]
    exact TParser.alt_left (TParser.lift_run (map_run ht))
  | k + 1, d => by
    obtain ⟨m, hm⟩ := subNot_bangs rx s hw ht hp k d
    rw [show k + 1 + 1 + d = k + 1 + d + 1 by omega, pSubNot, bangs_succ (k + 1)]
    refine ⟨.not m, TParser.map_run (TParser.preceded_run (TParser.lift_run
      (bang_run (bangs_noWs (k + 1) hw))) ?_)⟩
    rw [TParser.alt_right (pSubGroup_none (bangs_noWs (k + 1) hw) (by rw [bangs_succ]; simp)),
      TParser.alt_right (TParser.lift_none (map_none (show pSubExists (bangs (k + 1) t) = none from subExists_bang _)))]
    exact hm

/-- and fewer do not -/
theorem subNot_deep (rx : Bytes → Bool) (s : Levels) {t : Bytes} (hw : NoWs t) :
    ∀ k, pSubNot rx k s (bangs (k + 1) t) = (none, s)
  | 0 => rfl
  | k + 1 => by
    rw [pSubNot, bangs_succ (k + 1)]
    refine TParser.map_none (TParser.preceded_none' (TParser.lift_run (bang_run (bangs_noWs (k + 1) hw))) ?_)
    rw [TParser.alt_right (pSubGroup_none (bangs_noWs (k + 1) hw) (by rw [bangs_succ]; simp)),
      TParser.alt_right (TParser.lift_none (map_none (show pSubExists (bangs (k + 1) t) = none from subExists_bang _)))]
    exact subNot_deep rx s hw k

/-- **C71** is false as stated: the limit of open groups does not bound the nesting of the calls.
For every `k` there is a text without any parenthesis that is a valid subfield matcher, and for
which `k` nested calls are not enough. -/
theorem C71_sub_depth_false (rx : Bytes → Bool) (s : Levels) (k : Nat) :
    ∃ text : Bytes, 0x28 ∉ text ∧ (∃ m, SubMatcher.new rx s text = (some m, subReset s)) ∧
      pSubNot rx k s text = (none, s) ∧ pSubGroup rx k s text = (none, s) := by
  have hw : NoWs (bs "a?") := by
    rw [show bs "a?" = [0x61, 0x3F] by decide +kernel]
    exact noWs_cons.2 (by decide)
  have ht : pSubExists (bs "a?") = some (.exists [0x61] (bs "a?"), []) := by decide +kernel
  have hp : (bs "a?").head? ≠ some 0x28 := by decide +kernel
  have hnw := bangs_noWs (k + 1) hw
  have hh : (bangs (k + 1) (bs "a?")).head? ≠ some 0x28 := by rw [bangs_succ]; simp
  refine ⟨bangs (k + 1) (bs "a?"), ?_, ?_, subNot_deep rx s hw k, pSubGroup_none hnw hh⟩
  · simp only [bangs, List.mem_append, List.mem_replicate, not_or]
    exact ⟨fun h => absurd h.2 (by decide), by decide +kernel⟩
  · have hl : (bangs (k + 1) (bs "a?")).length + 1 = k + 1 + (1 + 2) := by
      simp only [bangs, List.length_append, List.length_replicate]
      rw [show (bs "a?").length = 2 by decide +kernel]
    obtain ⟨m, hm⟩ := subNot_bangs rx s hw ht hp k (1 + 2)
    have hs : pSubSingleM rx s (bangs (k + 1) (bs "a?")) = (none, s) :=
      TParser.lift_none (map_none (pSubSingle_none_bang rx _))
    refine ⟨m, TParser.parseAll_eq_some.2 ?_⟩
    unfold pSubMatcher
    dsimp only
    rw [hl, TParser.alt_right (p := pSubComposite rx _) (s' := s), TParser.alt_right hs,
      TParser.alt_right (pSubGroup_none hnw hh), hm]
    refine composite_whole ⟨by unfold subSyn; rw [bs_and]; rfl, by unfold subSyn; rw [bs_or]; rfl⟩ (m := m) ?_
    rw [dws_of_noWs hnw]
    unfold subAtoms
    rw [TParser.alt_right (pSubGroup_none hnw hh), TParser.alt_right hs]
    exact hm

theorem fieldNot_bangs (rx : Bytes → Bool) (s : Levels) {t : Bytes} {x : FieldMatcher} (hw : NoWs t)
    (ht : pFieldExistsM t = some (x, [])) (hb : pSubfieldsBracket rx s t = (none, s))
    (hp : t.head? ≠ some 0x28) : ∀ k d,
    ∃ m, pFieldNot rx (k + 1 + d) s (bangs (k + 1) t) = (some (m, []), s)
  | 0, d => by
    rw [show 0 + 1 + d = d + 1 by omega, pFieldNot, bangs_succ]
    refine ⟨.not x, TParser.map_run (TParser.preceded_run (TParser.lift_run
      (bang_run (bangs_noWs 0 hw))) ?_)⟩
    rw [show bangs 0 t = t from rfl, TParser.alt_right (pFieldGroup_none hw hp),
      TParser.alt_right (TParser.map_none hb)]
    exact TParser.alt_left (TParser.lift_run ht)
  | k + 1, d => by
    obtain ⟨m, hm⟩ := fieldNot_bangs rx s hw ht hb hp k d
    rw [show k + 1 + 1 + d = k + 1 + d + 1 by omega, pFieldNot, bangs_succ (k + 1)]
    refine ⟨.not m, TParser.map_run (TParser.preceded_run (TParser.lift_run
      (bang_run (bangs_noWs (k + 1) hw))) ?_)⟩
    rw [TParser.alt_right (pFieldGroup_none (bangs_noWs (k + 1) hw) (by rw [bangs_succ]; simp)),
      TParser.alt_right (TParser.map_none (show pSubfieldsBracket rx s (bangs (k + 1) t) = (none, s) from
        pSubfieldsBracket_lead _ (.inr (.inl rfl)))),
      TParser.alt_right (TParser.lift_none (show pFieldExistsM (bangs (k + 1) t) = none from
        pFieldExistsM_lead _ (.inr (.inl rfl))))]
    exact hm

theorem fieldNot_deep (rx : Bytes → Bool) (s : Levels) {t : Bytes} (hw : NoWs t) :
    ∀ k, pFieldNot rx k s (bangs (k + 1) t) = (none, s)
  | 0 => rfl
  | k + 1 => by
    rw [pFieldNot, bangs_succ (k + 1)]
    refine TParser.map_none (TParser.preceded_none' (TParser.lift_run (bang_run (bangs_noWs (k + 1) hw))) ?_)
    rw [TParser.alt_right (pFieldGroup_none (bangs_noWs (k + 1) hw) (by rw [bangs_succ]; simp)),
      TParser.alt_right (TParser.map_none (show pSubfieldsBracket rx s (bangs (k + 1) t) = (none, s) from
        pSubfieldsBracket_lead _ (.inr (.inl rfl)))),
      TParser.alt_right (TParser.lift_none (show pFieldExistsM (bangs (k + 1) t) = none from
        pFieldExistsM_lead _ (.inr (.inl rfl))))]
    exact fieldNot_deep rx s hw k

/-- **C71** is false as stated, also for fields and records. -/
theorem C71_field_depth_false (rx : Bytes → Bool) (s : Levels) (k : Nat) :
    ∃ text : Bytes, 0x28 ∉ text ∧ (∃ m, FieldMatcher.new rx s text = (some m, fldReset s)) ∧
      pFieldNot rx k s text = (none, s) ∧ pFieldGroup rx k s text = (none, s) := by
  have hw : NoWs (bs "003@?") := by
    rw [show bs "003@?" = [0x30, 0x30, 0x33, 0x40, 0x3F] by decide +kernel]
    exact noWs_cons.2 (by decide)
  have ht : ∃ x, pFieldExistsM (bs "003@?") = some (x, []) := by
    have e : (pFieldExistsM (bs "003@?")).map Prod.snd = some [] := by decide +kernel
    cases h : pFieldExistsM (bs "003@?") with
    | none => rw [h] at e; cases e
    | some y =>
      obtain ⟨x, r⟩ := y
      rw [h] at e
      cases e
      exact ⟨x, rfl⟩
  obtain ⟨x, ht⟩ := ht
  have hb : pSubfieldsBracket rx s (bs "003@?") = (none, s) := by
    have e : (pFieldHead (bs "003@?")).map Prod.snd = some [0x3F] := by decide +kernel
    refine TParser.map_none (TParser.withTaken_none ?_)
    cases h : pFieldHead (bs "003@?") with
    | none => rw [h] at e; cases e
    | some y =>
      obtain ⟨x, r⟩ := y
      rw [h] at e
      cases e
      refine TParser.seq_none' (TParser.lift_run h) ?_
      exact TParser.preceded_none (TParser.lift_none (by decide +kernel))
  have hp : (bs "003@?").head? ≠ some 0x28 := by decide +kernel
  have hnw := bangs_noWs (k + 1) hw
  have hh : (bangs (k + 1) (bs "003@?")).head? ≠ some 0x28 := by rw [bangs_succ]; simp
  refine ⟨bangs (k + 1) (bs "003@?"), ?_, ?_, fieldNot_deep rx s hw k, pFieldGroup_none hnw hh⟩
  · simp only [bangs, List.mem_append, List.mem_replicate, not_or]
    exact ⟨fun h => absurd h.2 (by decide), by decide +kernel⟩
  · have hl : (bangs (k + 1) (bs "003@?")).length + 1 = k + 1 + (1 + 5) := by
      simp only [bangs, List.length_append, List.length_replicate]
      rw [show (bs "003@?").length = 5 by decide +kernel]
    obtain ⟨m, hm⟩ := fieldNot_bangs rx s hw ht hb hp k (1 + 5)
    have hs : pFieldSingleM rx s (bangs (k + 1) (bs "003@?")) = (none, s) :=
      pFieldSingleM_none _ (.inr (.inl rfl))
    have hc : pFieldCardM rx s (bangs (k + 1) (bs "003@?")) = (none, s) :=
      pFieldCardM_none hnw (by rw [bangs_succ]; simp)
    refine ⟨m, TParser.parseAll_eq_some.2 ?_⟩
    unfold pFieldMatcher
    dsimp only
    rw [tws_run (a := m) (r := []) (s' := s)]
    · rfl
    rw [hl, dws_of_noWs hnw, TParser.alt_right (p := pFieldComposite rx _) (s' := s),
      TParser.alt_right (pFieldGroup_none hnw hh), TParser.alt_left hm]
    refine composite_whole fieldSyn_nil (m := m) ?_
    rw [dws_of_noWs hnw]
    unfold fieldAtoms
    rw [TParser.alt_right (pFieldGroup_none hnw hh), TParser.alt_right hc, TParser.alt_right hs]
    exact TParser.alt_left hm

/-! ## Loops -/

theorem repeat0Aux_bound {α : Type} (p : TParser α) : ∀ m m' s i, i.length < m → i.length < m' →
    TParser.repeat0Aux p m s i = TParser.repeat0Aux p m' s i
  | 0, _, _, _, h, _ => absurd h (Nat.not_lt_zero _)
  | _ + 1, 0, _, _, _, h => absurd h (Nat.not_lt_zero _)
  | m + 1, m' + 1, s, i, h, h' => by
    simp only [TParser.repeat0Aux]
    generalize p s i = x
    obtain ⟨_ | ⟨a, r⟩, t⟩ := x
    · rfl
    · dsimp only
      split
      · rw [repeat0Aux_bound p m m' t r (by omega) (by omega)]
      · rfl

/-- **C71** (loops) The loop of `repeat` ends: it makes no more rounds than there are bytes, since
a round that consumes nothing is an error, whatever the parser `p`. -/
theorem C71_repeat {α : Type} (p : TParser α) (s : Levels) (i : Bytes) :
    TParser.repeat0 p s i =
      match p s i with
      | (none, s') => (some ([], i), s')
      | (some (a, r), s') =>
        if r.length < i.length then
          match TParser.repeat0 p s' r with
          | (some (as, r'), s'') => (some (a :: as, r'), s'')
          | (none, s'') => (none, s'')
        else (none, s') := by
  unfold TParser.repeat0
  rw [TParser.repeat0Aux]
  generalize p s i = x
  obtain ⟨_ | ⟨a, r⟩, t⟩ := x
  · rfl
  · dsimp only
    split
    · rw [repeat0Aux_bound p i.length (r.length + 1) t r (by omega) (by omega)]
      generalize TParser.repeat0Aux p (r.length + 1) t r = y
      obtain ⟨_ | _, _⟩ := y <;> rfl
    · rfl

theorem separatedAux_bound {α β : Type} (p : TParser α) (sep : Parser β)
    (hs : ∀ i b r, sep i = some (b, r) → r.length < i.length)
    (hp : ∀ s i a r t, p s i = (some (a, r), t) → r.length ≤ i.length) :
    ∀ m m' s i, i.length < m → i.length < m' →
    TParser.separatedAux p sep m s i = TParser.separatedAux p sep m' s i
  | 0, _, _, _, h, _ => absurd h (Nat.not_lt_zero _)
  | _ + 1, 0, _, _, _, h => absurd h (Nat.not_lt_zero _)
  | m + 1, m' + 1, s, i, h, h' => by
    simp only [TParser.separatedAux]
    cases hb : sep i with
    | none => rfl
    | some y =>
      obtain ⟨b, r⟩ := y
      have h1 := hs i b r hb
      dsimp only
      cases hx : p s r with
      | mk x t =>
        cases x with
        | none => rfl
        | some z =>
          obtain ⟨a, r'⟩ := z
          have h2 := hp s r a r' t hx
          dsimp only
          rw [separatedAux_bound p sep hs hp m m' t r' (by omega) (by omega)]

theorem pureSeparatedAux_bound {α β : Type} (p : Parser α) (sep : Parser β)
    (hs : ∀ i b r, sep i = some (b, r) → r.length < i.length)
    (hp : ∀ i a r, p i = some (a, r) → r.length ≤ i.length) :
    ∀ m m' i, i.length < m → i.length < m' → separatedAux p sep m i = separatedAux p sep m' i
  | 0, _, _, h, _ => absurd h (Nat.not_lt_zero _)
  | _ + 1, 0, _, _, h => absurd h (Nat.not_lt_zero _)
  | m + 1, m' + 1, i, h, h' => by
    simp only [separatedAux]
    cases hb : sep i with
    | none => rfl
    | some y =>
      obtain ⟨b, r⟩ := y
      have h1 := hs i b r hb
      dsimp only
      cases hx : p r with
      | none => rfl
      | some z =>
        obtain ⟨a, r'⟩ := z
        have h2 := hp r a r' hx
        dsimp only
        rw [pureSeparatedAux_bound p sep hs hp m m' r' (by omega) (by omega)]

/-- **C71** (loops) The loop of `separated` ends, if a separator consumes something and an item
does not grow the input; this holds for all lists of the source: any larger number of rounds
gives the same result. -/
theorem C71_separated {α β : Type} (p : TParser α) (q : Parser α) (sep : Parser β)
    (hs : ∀ i b r, sep i = some (b, r) → r.length < i.length)
    (hp : ∀ s i a r t, p s i = (some (a, r), t) → r.length ≤ i.length)
    (hq : ∀ i a r, q i = some (a, r) → r.length ≤ i.length) (m : Nat) (s : Levels) (i : Bytes)
    (hm : i.length < m) :
    TParser.separatedAux p sep m s i = TParser.separatedAux p sep (i.length + 1) s i ∧
    separatedAux q sep m i = separatedAux q sep (i.length + 1) i :=
  ⟨separatedAux_bound p sep hs hp _ _ s i hm (Nat.lt_succ_self _),
    pureSeparatedAux_bound q sep hs hq _ _ i hm (Nat.lt_succ_self _)⟩

/-! Examples -/

/-- the equations of the source have a solution -/
example : ∃ g n, SubParsers (fun _ => true) g n := by
  obtain ⟨g, n, h, -⟩ := C71_sub fun _ => true
  exact ⟨g, n, h⟩

example : ∃ g n, FieldParsers (fun _ => true) g n := by
  obtain ⟨g, n, h, -⟩ := C71_field fun _ => true
  exact ⟨g, n, h⟩

example : ∃ g, g = fmtGroupBody g := by
  obtain ⟨g, h, -⟩ := C71_format fun _ => true
  exact ⟨g, h⟩

/-- groups and negations in each other -/
example : (SubMatcher.new (fun _ => true) Levels.zero (bs "!(a? && !(b? || !!c?))")).1.isSome := by
  decide +kernel

/-- two nested calls do not suffice for `!!!a?`, three do -/
example : (pSubNot (fun _ => true) 2 Levels.zero (bs "!!!a?")).1 = none ∧
    (pSubNot (fun _ => true) 3 Levels.zero (bs "!!!a?")).1.isSome := by decide +kernel

/-- the lists of strings -/
example : (∀ i b r, ws (byte 0x2C) i = some (b, r) → r.length < i.length) ∧
    (∀ i a r, pString i = some (a, r) → r.length ≤ i.length) :=
  ⟨fun _ _ _ h => (wsByte_short h).1, fun i a r h => by
    obtain ⟨t, rfl, -⟩ := pString_reads i a r h
    simp⟩

end Pica.Props
