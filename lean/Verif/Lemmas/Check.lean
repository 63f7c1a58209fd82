import Verif.Model.Check
import Verif.Lemmas.Path
import Verif.Lemmas.Query
import Verif.Lemmas.Command
import Verif.Lemmas.Convert

/-! # Lemmas on the check command -/

namespace Pica
open Spec

/-! ## joined texts -/

theorem joinText_cons (sep x y : Bytes) (l : List Bytes) :
    joinText sep (x :: y :: l) = x ++ (sep ++ joinText sep (y :: l)) := by
  simp [joinText]

theorem joinText_single (sep x : Bytes) : joinText sep [x] = x := by simp [joinText]

theorem joinText_eq_nil {sep : Bytes} (hs : sep ≠ []) (l : List Bytes) :
    joinText sep l = [] ↔ l = [] ∨ l = [[]] := by
  match l with
  | [] => simp [joinText]
  | [x] => simp [joinText_single]
  | x :: y :: l => rw [joinText_cons]; simp [hs]

/-- rows of equal length whose values do not contain the first byte of the
separator are determined by the joined text -/
theorem joinText_inj {b : Byte} {sep : Bytes} : ∀ (l l' : List Bytes), l.length = l'.length →
    (∀ x ∈ l, b ∉ x) → (∀ x ∈ l', b ∉ x) → joinText (b :: sep) l = joinText (b :: sep) l' → l = l'
  | [], [], _, _, _, _ => rfl
  | [], _ :: _, h, _, _, _ => by simp at h
  | _ :: _, [], h, _, _, _ => by simp at h
  | [x], [y], _, _, _, h => by rw [joinText_single, joinText_single] at h; rw [h]
  | [_], _ :: _ :: _, h, _, _, _ => by simp at h
  | _ :: _ :: _, [_], h, _, _, _ => by simp at h
  | x :: x2 :: l, y :: y2 :: l', hlen, h1, h2, h => by
    rw [joinText_cons, joinText_cons, List.cons_append, List.cons_append] at h
    obtain ⟨h3, h4⟩ := append_cons_inj (h1 x (by simp)) (h2 y (by simp)) h
    have h5 := List.append_cancel_left h4
    rw [h3, joinText_inj (x2 :: l) (y2 :: l') (by simpa using hlen) (fun z hz => h1 z (by simp [hz]))
      (fun z hz => h2 z (by simp [hz])) h5]

/-! ## tallies -/

/-- a tally of the list `ks` -/
def IsTally (ks : List Bytes) (t : List (Bytes × Nat)) : Prop :=
  (∀ x ∈ t, x.1 ∈ ks ∧ x.2 = ks.count x.1) ∧ ∀ k ∈ ks, ∃ x ∈ t, x.1 = k

theorem tallyAdd_isTally {ks : List Bytes} {t : List (Bytes × Nat)} (h : IsTally ks t) (k : Bytes) :
    IsTally (ks ++ [k]) (tallyAdd t k) := by
  obtain ⟨h1, h2⟩ := h
  unfold tallyAdd
  by_cases hk : t.any (fun x => x.1 == k) = true
  · rw [if_pos hk]
    obtain ⟨x0, hx0, hxk⟩ := List.any_eq_true.1 hk
    have hxk : x0.1 = k := by simpa using hxk
    constructor
    · intro x hx
      obtain ⟨y, hy, rfl⟩ := List.mem_map.1 hx
      obtain ⟨h3, h4⟩ := h1 y hy
      by_cases he : y.1 = k
      · simp [he, List.count_append, h4]
      · have : (y.1 == k) = false := by simpa using he
        rw [this]
        simp only [Bool.false_eq_true, if_false]
        refine ⟨by simp [h3], ?_⟩
        rw [h4, List.count_append, List.count_singleton]
        simp [Ne.symm he]
    · intro k' hk'
      have : ∃ x ∈ t, x.1 = k' := by
        rcases List.mem_append.1 hk' with hk' | hk'
        · exact h2 k' hk'
        · rw [List.mem_singleton.1 hk']; exact ⟨x0, hx0, hxk⟩
      obtain ⟨x, hx, rfl⟩ := this
      refine ⟨_, List.mem_map_of_mem hx, ?_⟩
      split <;> rfl
  · rw [if_neg hk]
    have hno : ∀ x ∈ t, x.1 ≠ k := by
      intro x hx he
      exact hk (List.any_eq_true.2 ⟨x, hx, by simpa using he⟩)
    have hnk : k ∉ ks := by
      intro hm
      obtain ⟨x, hx, he⟩ := h2 k hm
      exact hno x hx he
    constructor
    · intro x hx
      rcases List.mem_append.1 hx with hx | hx
      · obtain ⟨h3, h4⟩ := h1 x hx
        refine ⟨by simp [h3], ?_⟩
        rw [h4, List.count_append, List.count_singleton]
        simp [Ne.symm (hno x hx)]
      · rw [List.mem_singleton.1 hx]
        simp [List.count_append, List.count_eq_zero_of_not_mem hnk]
    · intro k' hk'
      rcases List.mem_append.1 hk' with hk' | hk'
      · obtain ⟨x, hx, he⟩ := h2 k' hk'
        exact ⟨x, by simp [hx], he⟩
      · exact ⟨(k, 1), by simp, (List.mem_singleton.1 hk').symm⟩

theorem tally_fold (l : List Bytes) : ∀ ks t, IsTally ks t → IsTally (ks ++ l) (l.foldl tallyAdd t) := by
  induction l with
  | nil => intro ks t h; simpa using h
  | cons k l ih =>
    intro ks t h
    have := ih _ _ (tallyAdd_isTally h k)
    simpa using this

/-- the check of a list of keys fires iff a key occurs often enough -/
theorem duplicatesCheck_iff (C : CheckEnv) (threshold : Nat) (keys : List Bytes) :
    (duplicatesCheck C threshold keys).1 = true ↔ ∃ k ∈ keys, threshold ≤ keys.count k := by
  have ht : IsTally keys (keys.foldl tallyAdd []) := by
    have := tally_fold keys [] [] ⟨by simp, by simp⟩
    simpa using this
  unfold duplicatesCheck
  dsimp only
  have h1 : (!(((keys.foldl tallyAdd []).filter (fun x => decide (x.2 ≥ threshold))).isEmpty)) = true ↔
      ∃ k ∈ keys, threshold ≤ keys.count k := by
    rw [Bool.not_eq_true', List.isEmpty_eq_false_iff, ne_eq, List.filter_eq_nil_iff]
    simp only [decide_eq_true_eq, Classical.not_forall, Classical.not_not]
    constructor
    · rintro ⟨x, hx, hge⟩
      obtain ⟨h3, h4⟩ := ht.1 x hx
      exact ⟨x.1, h3, by rw [← h4]; exact hge⟩
    · rintro ⟨k, hk, hge⟩
      obtain ⟨x, hx, he⟩ := ht.2 k hk
      refine ⟨x, hx, ?_⟩
      rw [(ht.1 x hx).2, he]; exact hge
  by_cases h : (!(((keys.foldl tallyAdd []).filter (fun x => decide (x.2 ≥ threshold))).isEmpty)) = true
  · rw [if_pos h]; exact ⟨fun _ => h1.1 h, fun _ => rfl⟩
  · rw [if_neg h]; exact ⟨fun h' => absurd h' (by simp), fun h' => absurd (h1.2 h') h⟩

/-! ## components that do not influence each other -/

/-- run a component over all inputs -/
def iterate {R A O : Type} (f : R → A → Option (A × List O)) : List R → A → Option (A × List O)
  | [], a => some (a, [])
  | r :: rs, a =>
    match f r a with
    | none => none
    | some (a', o) => (iterate f rs a').map (fun p => (p.1, o ++ p.2))

/-- run a list of components on an input -/
def together {R A O : Type} (f : R → A → Option (A × List O)) (r : R) (l : List A) : Option (List A × List O) :=
  (mapP (f r) l).map (fun ps => (ps.map (·.1), ps.flatMap (·.2)))

theorem flatMap_zip_perm {A O : Type} (ps : List (A × List O)) : ∀ (qs : List (A × List O)),
    ps.length = qs.length →
    ((ps.flatMap (·.2)) ++ qs.flatMap (·.2)).Perm
      ((List.zipWith (fun p q => (q.1, p.2 ++ q.2)) ps qs).flatMap (·.2)) := by
  induction ps with
  | nil => intro qs h; cases qs with
    | nil => simp
    | cons => simp at h
  | cons p ps ih =>
    intro qs h
    cases qs with
    | nil => simp at h
    | cons q qs =>
      have := ih qs (by simpa using h)
      simp only [List.flatMap_cons, List.zipWith_cons_cons, List.append_assoc]
      refine List.Perm.append_left _ ?_
      refine (List.Perm.trans ?_ (List.Perm.append_left q.2 this))
      rw [← List.append_assoc, ← List.append_assoc]
      exact List.Perm.append_right _ List.perm_append_comm

theorem zipWith_fst {A O : Type} (ps : List (A × List O)) : ∀ (qs : List (A × List O)),
    ps.length = qs.length →
    (List.zipWith (fun p q => (q.1, p.2 ++ q.2)) ps qs).map (·.1) = qs.map (·.1) := by
  induction ps with
  | nil => intro qs h; cases qs with
    | nil => rfl
    | cons => simp at h
  | cons p ps ih =>
    intro qs h
    cases qs with
    | nil => simp at h
    | cons q qs => simp [ih qs (by simpa using h)]

theorem mapP_iterate {R A O : Type} {f : R → A → Option (A × List O)} {r : R} {rs : List R} :
    ∀ {l : List A} {ps : List (A × List O)}, mapP (f r) l = some ps →
    mapP (iterate f (r :: rs)) l =
      (mapP (iterate f rs) (ps.map (·.1))).map (fun qs => List.zipWith (fun p q => (q.1, p.2 ++ q.2)) ps qs) := by
  intro l
  induction l with
  | nil => intro ps h; simp [mapP] at h; subst h; rfl
  | cons a l ih =>
    intro ps h
    rw [mapP] at h
    cases hf : f r a with
    | none => rw [hf] at h; simp at h
    | some p =>
      rw [hf] at h
      dsimp only at h
      cases hm : mapP (f r) l with
      | none => rw [hm] at h; simp at h
      | some ps' =>
        rw [hm] at h
        simp only [Option.map_some, Option.some.injEq] at h
        subst h
        rw [mapP, iterate, hf]
        dsimp only
        rw [List.map_cons, mapP]
        cases hi : iterate f rs p.1 with
        | none => rfl
        | some q =>
          simp only [Option.map_some]
          rw [ih hm]
          cases mapP (iterate f rs) (ps'.map (·.1)) with
          | none => rfl
          | some qs => rfl

theorem mapP_iterate_none {R A O : Type} {f : R → A → Option (A × List O)} {r : R} {rs : List R} :
    ∀ {l : List A}, mapP (f r) l = none → mapP (iterate f (r :: rs)) l = none := by
  intro l
  induction l with
  | nil => intro h; simp [mapP] at h
  | cons a l ih =>
    intro h
    rw [mapP] at h
    rw [mapP, iterate]
    cases hf : f r a with
    | none => rfl
    | some p =>
      rw [hf] at h
      dsimp only at h ⊢
      have : mapP (f r) l = none := by
        cases hm : mapP (f r) l with
        | none => rfl
        | some _ => rw [hm] at h; simp at h
      rw [ih this]
      cases iterate f rs p.1 <;> rfl

/-- components run together give the outputs they give alone -/
theorem iterate_together {R A O : Type} (f : R → A → Option (A × List O)) (rs : List R) : ∀ l : List A,
    (mapP (iterate f rs) l = none ∧ iterate (together f) rs l = none) ∨
    ∃ ps out, mapP (iterate f rs) l = some ps ∧ iterate (together f) rs l = some (ps.map (·.1), out) ∧
      out.Perm (ps.flatMap (·.2)) := by
  induction rs with
  | nil =>
    intro l
    refine .inr ⟨l.map (fun a => (a, [])), [], ?_, ?_, ?_⟩
    · rw [mapP_eq_some]; simp [iterate]
    · simp [iterate, Function.comp_def]
    · simp [List.flatMap_map]
  | cons r rs ih =>
    intro l
    cases hm : mapP (f r) l with
    | none =>
      left
      refine ⟨mapP_iterate_none hm, ?_⟩
      rw [iterate, together, hm]; rfl
    | some ps =>
      have e1 : iterate (together f) (r :: rs) l =
          (iterate (together f) rs (ps.map (·.1))).map (fun p => (p.1, ps.flatMap (·.2) ++ p.2)) := by
        rw [iterate, together, hm]; rfl
      rw [mapP_iterate hm, e1]
      rcases ih (ps.map (·.1)) with ⟨h1, h2⟩ | ⟨qs, out, h1, h2, h3⟩
      · left; rw [h1, h2]; exact ⟨rfl, rfl⟩
      · right
        have hlen : ps.length = qs.length := by rw [mapP_length h1, List.length_map]
        refine ⟨_, _, by rw [h1]; rfl, ?_, (List.Perm.append_left _ h3).trans (flatMap_zip_perm ps qs hlen)⟩
        rw [h2, zipWith_fst ps qs hlen]
        rfl


theorem flatMap_append_perm {α β : Type} (f g : α → List β) (l : List α) :
    (l.flatMap f ++ l.flatMap g).Perm (l.flatMap (fun a => f a ++ g a)) := by
  induction l with
  | nil => simp
  | cons a l ih =>
    simp only [List.flatMap_cons, List.append_assoc]
    refine List.Perm.append_left _ ?_
    refine List.Perm.trans ?_ (List.Perm.append_left (g a) ih)
    rw [← List.append_assoc, ← List.append_assoc]
    exact List.Perm.append_right _ List.perm_append_comm

theorem flatMap_all2_perm {α β γ : Type} {R : α → β → Prop} {f : α → List γ} {g : β → List γ}
    (h : ∀ a b, R a b → (f a).Perm (g b)) {l : List α} {l' : List β} (hl : All2 R l l') :
    (l.flatMap f).Perm (l'.flatMap g) := by
  induction hl with
  | nil => simp
  | cons hr _ ih => simp only [List.flatMap_cons]; exact List.Perm.append (h _ _ hr) ih

/-! ## rule sets -/

/-- the value of the scope of a rule set -/
def scopeValue (C : CheckEnv) (scope : Option RecordMatcher) (r : Record) : Option Bool :=
  match scope with
  | some m => m.eval C.E₀ ⟨false⟩ r
  | none => some true

/-- one rule and one record: preprocessing, and the check if the record is in
scope -/
def ruleStep (C : CheckEnv) (b : Bool) (r : Record) (c : CheckRule) : Option (CheckRule × List Report) :=
  match c.preprocess r with
  | none => none
  | some c' => if b then (c'.run C r).map (fun x => (x.1, x.2.1)) else some (c', [])

/-- the same, with the scope of the rule set -/
def scopedStep (C : CheckEnv) (scope : Option RecordMatcher) (r : Record) (c : CheckRule) :
    Option (CheckRule × List Report) :=
  match scopeValue C scope r with
  | none => none
  | some b => ruleStep C b r c

theorem mapP_none_of {α β γ : Type} {f : α → Option β} {g : α → Option γ} (h : ∀ a, f a = none → g a = none) :
    ∀ {l : List α}, mapP f l = none → mapP g l = none := by
  intro l
  induction l with
  | nil => intro h; simp [mapP] at h
  | cons a l ih =>
    intro hn
    rw [mapP] at hn ⊢
    cases hf : f a with
    | none => rw [h a hf]
    | some b =>
      rw [hf] at hn
      dsimp only at hn
      have : mapP f l = none := by
        cases hm : mapP f l with
        | none => rfl
        | some _ => rw [hm] at hn; simp at hn
      rw [ih this]
      cases g a <;> rfl

theorem checkRules_eq (C : CheckEnv) (r : Record) : ∀ l : List CheckRule,
    RuleSet.checkRules C false r l =
      (mapP (fun c => (c.run C r).map (fun x => (x.1, x.2.1))) l).map
        (fun ps => (ps.map (·.1), ps.flatMap (·.2))) := by
  intro l
  induction l with
  | nil => rfl
  | cons c l ih =>
    rw [RuleSet.checkRules, mapP]
    cases c.run C r with
    | none => rfl
    | some x =>
      obtain ⟨c', out, res⟩ := x
      simp only [Bool.false_and, Bool.false_eq_true, if_false, Option.map_some]
      rw [ih]
      cases mapP (fun c => (c.run C r).map (fun x => (x.1, x.2.1))) l with
      | none => rfl
      | some ps => rfl

theorem mapP_comp {α β γ : Type} {f : α → Option β} {g : β → Option γ} : ∀ {l : List α} {l' : List β},
    mapP f l = some l' → mapP (fun a => (f a).bind g) l = mapP g l' := by
  intro l
  induction l with
  | nil => intro l' h; simp [mapP] at h; subst h; rfl
  | cons a l ih =>
    intro l' h
    rw [mapP] at h
    cases hf : f a with
    | none => rw [hf] at h; simp at h
    | some b =>
      rw [hf] at h
      dsimp only at h
      cases hm : mapP f l with
      | none => rw [hm] at h; simp at h
      | some l1 =>
        rw [hm] at h
        simp only [Option.map_some, Option.some.injEq] at h
        subst h
        rw [mapP, mapP, hf, ih hm]
        rfl

theorem step_eq (C : CheckEnv) (r : Record) (s : RuleSet) (hfast : s.fast = false) :
    s.step C r = (scopeValue C s.scope r).bind (fun b =>
      (together (ruleStep C b) r s.rules).map (fun p => ({ s with rules := p.1 }, p.2))) := by
  unfold RuleSet.step RuleSet.preprocess
  cases hp : mapP (CheckRule.preprocess r) s.rules with
  | none =>
    have h1 : ∀ b, mapP (ruleStep C b r) s.rules = none := fun b =>
      mapP_none_of (fun c hc => by rw [ruleStep, hc]) hp
    cases scopeValue C s.scope r with
    | none => rfl
    | some b => simp [together, h1]
  | some rules =>
    simp only [Option.map_some]
    unfold RuleSet.check
    show (match scopeValue C s.scope r with
      | none => none
      | some false => _
      | some true => _) = _
    cases scopeValue C s.scope r with
    | none => rfl
    | some b =>
      have h1 : mapP (ruleStep C b r) s.rules =
          mapP (fun c => if b then (c.run C r).map (fun x => (x.1, x.2.1)) else some (c, [])) rules := by
        rw [← mapP_comp hp]
        congr 1
        funext c
        rw [ruleStep]
        cases c.preprocess r <;> rfl
      cases b with
      | false =>
        have h2 : mapP (fun c : CheckRule => some (c, ([] : List Report))) rules =
            some (rules.map (fun c => (c, []))) := by
          rw [mapP_eq_some, List.map_map]; rfl
        simp only [Bool.false_eq_true, if_false] at h1
        rw [h2] at h1
        simp [together, h1, List.flatMap_map, Function.comp_def]
      | true =>
        simp only [if_true] at h1
        dsimp only
        rw [hfast, checkRules_eq, Option.bind_some, together, h1]

theorem step_scoped (C : CheckEnv) (r : Record) (s : RuleSet) (hfast : s.fast = false) (hne : s.rules ≠ []) :
    s.step C r = (together (scopedStep C s.scope) r s.rules).map (fun p => ({ s with rules := p.1 }, p.2)) := by
  rw [step_eq C r s hfast]
  have e : ∀ c, scopedStep C s.scope r c = (scopeValue C s.scope r).bind (fun b => ruleStep C b r c) := by
    intro c; unfold scopedStep; cases scopeValue C s.scope r <;> rfl
  unfold together
  cases hs : scopeValue C s.scope r with
  | none =>
    cases hr : s.rules with
    | nil => exact absurd hr hne
    | cons c cs => rw [mapP, e, hs]; rfl
  | some b =>
    have : scopedStep C s.scope r = ruleStep C b r := by funext c; rw [e, hs]; rfl
    rw [this]; rfl

theorem iterate_step (C : CheckEnv) (rs : List Record) : ∀ (s : RuleSet), s.fast = false → s.rules ≠ [] →
    iterate (fun r s => RuleSet.step C r s) rs s =
      (iterate (together (scopedStep C s.scope)) rs s.rules).map (fun p => ({ s with rules := p.1 }, p.2)) := by
  induction rs with
  | nil => intro s _ _; rfl
  | cons r rs ih =>
    intro s hf hne
    rw [iterate, iterate, step_scoped C r s hf hne]
    cases ht : together (scopedStep C s.scope) r s.rules with
    | none => rfl
    | some p =>
      simp only [Option.map_some]
      have hne' : p.1 ≠ [] := by
        unfold together at ht
        cases hm : mapP (scopedStep C s.scope r) s.rules with
        | none => rw [hm] at ht; simp at ht
        | some ps =>
          rw [hm] at ht
          simp only [Option.map_some, Option.some.injEq] at ht
          rw [← ht]
          have := mapP_length hm
          intro h
          apply hne
          have h0 : (ps.map (·.1)).length = 0 := by
            show (ps.map (·.1), ps.flatMap (·.2)).1.length = 0
            rw [h]; rfl
          rw [List.length_map] at h0
          exact List.eq_nil_of_length_eq_zero (by omega)
      rw [ih { s with rules := p.1 } hf hne']
      cases iterate (together (scopedStep C s.scope)) rs p.1 <;> rfl

theorem record_together (C : CheckEnv) (r : Record) : ∀ ss : List RuleSet,
    CheckCmd.record C r ss = together (fun r s => RuleSet.step C r s) r ss := by
  intro ss
  induction ss with
  | nil => rfl
  | cons s ss ih =>
    rw [CheckCmd.record, together, mapP]
    cases s.step C r with
    | none => rfl
    | some p =>
      dsimp only
      rw [ih, together]
      cases mapP (fun s => RuleSet.step C r s) ss <;> rfl

/-- what a rule reports for a list of records, if it is the only rule -/
def ruleOut (C : CheckEnv) (scope : Option RecordMatcher) (rs : List Record) (c : CheckRule) : List Report :=
  match iterate (scopedStep C scope) rs c with
  | none => []
  | some p => p.2 ++ p.1.finish C

/-! ## the command -/

theorem limitStep_next {S : Type} {limit n : Nat} (h : limit = 0 ∨ n < limit) (s : S) :
    limitStep limit n s = .next s := by
  unfold limitStep
  rw [if_neg]
  simp only [Bool.and_eq_true, decide_eq_true_eq, not_and]
  omega

theorem limitStep_stop {S : Type} {limit n : Nat} (h : 0 < limit) (h' : limit ≤ n) (s : S) :
    limitStep limit n s = .stop s := by
  unfold limitStep
  rw [if_pos]
  simp [h, h']

/-- the record loop of `check` -/
theorem check_steps (c : CheckCmd) : ∀ (rs : List ByteRecord) (s : CheckState),
    c.limit = 0 ∨ s.count < c.limit →
    match iterate (CheckCmd.record c.C)
        ((if c.limit = 0 then rs else rs.take (c.limit - s.count)).map (·.record)) s.rulesets with
    | none => runSteps c.body rs s = none
    | some p => ∃ n, runSteps c.body rs s = some ⟨p.1, s.out ++ p.2, n⟩ := by
  intro rs
  induction rs with
  | nil =>
    intro s _
    have : (if c.limit = 0 then ([] : List ByteRecord) else [].take (c.limit - s.count)) = [] := by split <;> simp
    rw [this]
    exact ⟨s.count, by simp [runSteps]⟩
  | cons r rs ih =>
    intro s hc
    have e : ((if c.limit = 0 then r :: rs else (r :: rs).take (c.limit - s.count)).map (·.record)) =
        r.record :: ((if c.limit = 0 then rs else rs.take (c.limit - (s.count + 1))).map (·.record)) := by
      by_cases hl : c.limit = 0
      · simp [hl]
      · have : c.limit - s.count = (c.limit - (s.count + 1)) + 1 := by omega
        rw [if_neg hl, if_neg hl, this]
        rfl
    rw [e, iterate, runSteps, CheckCmd.body]
    cases hr : CheckCmd.record c.C r.record s.rulesets with
    | none => rfl
    | some p =>
      obtain ⟨ss, out⟩ := p
      dsimp only
      by_cases hn : c.limit = 0 ∨ s.count + 1 < c.limit
      · rw [limitStep_next hn]
        have := ih ⟨ss, s.out ++ out, s.count + 1⟩ hn
        dsimp only at this ⊢
        revert this
        generalize iterate (CheckCmd.record c.C)
          ((if c.limit = 0 then rs else rs.take (c.limit - (s.count + 1))).map (·.record)) ss = x
        intro this
        cases x with
        | none => exact this
        | some q =>
          obtain ⟨n, hn⟩ := this
          exact ⟨n, by rw [hn, List.append_assoc]⟩
      · have h0 : c.limit - (s.count + 1) = 0 := by omega
        have hl : ¬ c.limit = 0 := fun h => hn (.inl h)
        rw [limitStep_stop (by omega) (by omega), if_neg hl, h0]
        exact ⟨s.count + 1, by simp⟩

/-- no rule set terminates fast -/
def CheckCmd.NoFast (c : CheckCmd) : Prop := ∀ s ∈ c.rulesets, s.fast = false

theorem prepared_noFast {c : CheckCmd} (h : c.NoFast) : ∀ s ∈ c.prepared, s.fast = false ∧ s.rules ≠ [] := by
  intro s hs
  obtain ⟨h1, h2⟩ := List.mem_filter.1 hs
  obtain ⟨s0, h3, rfl⟩ := List.mem_map.1 h1
  exact ⟨h s0 h3, by simpa using h2⟩

/-- the records that are checked -/
def CheckCmd.checked (c : CheckCmd) (rs : List ByteRecord) : List Record :=
  (limited c.limit (chosen c.sel.test rs)).map (·.record)

/-- no rule panics -/
def CheckCmd.Runs (c : CheckCmd) (recs : List Record) : Prop :=
  ∀ s ∈ c.prepared, ∀ x ∈ s.rules, ∃ p, iterate (scopedStep c.C s.scope) recs x = some p

theorem finish_perm (C : CheckEnv) {recs : List Record} {s : RuleSet} {p : RuleSet × List Report}
    (hf : s.fast = false) (hne : s.rules ≠ []) (h : iterate (fun r s => RuleSet.step C r s) recs s = some p) :
    (p.2 ++ p.1.finish C).Perm (s.rules.flatMap (ruleOut C s.scope recs)) ∧
      ∀ x ∈ s.rules, ∃ q, iterate (scopedStep C s.scope) recs x = some q := by
  rw [iterate_step C recs s hf hne] at h
  rcases iterate_together (scopedStep C s.scope) recs s.rules with ⟨_, h2⟩ | ⟨ps, out, h1, h2, h3⟩
  · rw [h2] at h; simp at h
  · rw [h2] at h
    simp only [Option.map_some, Option.some.injEq] at h
    subst h
    have hall := mapP_all2 h1
    constructor
    · unfold RuleSet.finish
      dsimp only
      rw [List.flatMap_map]
      refine (List.Perm.append_right _ h3).trans ?_
      refine (flatMap_append_perm _ _ ps).trans (List.Perm.symm ?_)
      refine flatMap_all2_perm (R := fun x q => iterate (scopedStep C s.scope) recs x = some q) ?_ hall
      intro x q hq
      rw [ruleOut, hq]
    · intro x hx
      obtain ⟨q, _, hq⟩ := hall.mem_left x hx
      exact ⟨q, hq⟩

theorem sets_perm (C : CheckEnv) {recs : List Record} {ss ss' : List RuleSet} {out : List Report}
    (hss : ∀ s ∈ ss, s.fast = false ∧ s.rules ≠ [])
    (h : iterate (CheckCmd.record C) recs ss = some (ss', out)) :
    (out ++ ss'.flatMap (RuleSet.finish C)).Perm (ss.flatMap (fun s => s.rules.flatMap (ruleOut C s.scope recs))) ∧
      ∀ s ∈ ss, ∀ x ∈ s.rules, ∃ q, iterate (scopedStep C s.scope) recs x = some q := by
  have e : CheckCmd.record C = together (fun r s => RuleSet.step C r s) := by
    funext r ss; exact record_together C r ss
  rw [e] at h
  rcases iterate_together (fun r s => RuleSet.step C r s) recs ss with ⟨_, h2⟩ | ⟨ps, out', h1, h2, h3⟩
  · rw [h2] at h; simp at h
  · rw [h2] at h
    simp only [Option.some.injEq, Prod.mk.injEq] at h
    obtain ⟨rfl, rfl⟩ := h
    have hall := mapP_all2 h1
    constructor
    · rw [List.flatMap_map]
      refine (List.Perm.append_right _ h3).trans ?_
      refine (flatMap_append_perm _ _ ps).trans (List.Perm.symm ?_)
      refine flatMap_all2_perm (R := fun s q => (s.fast = false ∧ s.rules ≠ []) ∧
        iterate (fun r s => RuleSet.step C r s) recs s = some q) ?_ ?_
      · rintro s q ⟨⟨hf, hne⟩, hq⟩
        exact (finish_perm C hf hne hq).1.symm
      · clear h1 h2 h3
        induction hall with
        | nil => exact .nil
        | cons hr _ ih => exact .cons ⟨hss _ (by simp), hr⟩ (ih (fun s hs => hss s (by simp [hs])))
    · intro s hs
      obtain ⟨q, _, hq⟩ := hall.mem_left s hs
      exact (finish_perm C (hss s hs).1 (hss s hs).2 hq).2

/-- without fast termination, the rules do not influence each other -/
theorem check_ok {c : CheckCmd} (hnf : c.NoFast) {files : List (String × Bytes)} {rs : List ByteRecord}
    (hi : Input files rs) {out : List Report} (h : c.run files = .ok out) :
    out.Perm (c.prepared.flatMap (fun s => s.rules.flatMap (ruleOut c.C s.scope (c.checked rs)))) ∧
      c.Runs (c.checked rs) := by
  unfold CheckCmd.run at h
  cases hl : filesLoop c.skip id (selBody c.sel.test c.body) files ⟨c.prepared, [], 0⟩ with
  | err e s => rw [hl] at h; simp at h
  | panic => rw [hl] at h; simp at h
  | ok s =>
    rw [hl] at h
    simp only [LoopResult.ok.injEq] at h
    have h1 := runSteps_sel (filesLoop_ok hi hl)
    have h2 := check_steps c (chosen c.sel.test rs) ⟨c.prepared, [], 0⟩ (by dsimp only; omega)
    rw [show (if c.limit = 0 then chosen c.sel.test rs else
        (chosen c.sel.test rs).take (c.limit - (⟨c.prepared, [], 0⟩ : CheckState).count)).map (·.record) =
        c.checked rs from rfl] at h2
    dsimp only at h2
    cases hit : iterate (CheckCmd.record c.C) (c.checked rs) c.prepared with
    | none => rw [hit] at h2; rw [h2] at h1; simp at h1
    | some p =>
      rw [hit] at h2
      obtain ⟨n, hn⟩ := h2
      rw [hn] at h1
      simp only [Option.some.injEq] at h1
      subst h1
      obtain ⟨ss', o⟩ := p
      have := sets_perm c.C (prepared_noFast hnf) hit
      rw [← h]
      rw [List.nil_append]
      exact this

theorem sets_runs (C : CheckEnv) {recs : List Record} {ss : List RuleSet}
    (hss : ∀ s ∈ ss, s.fast = false ∧ s.rules ≠ [])
    (h : ∀ s ∈ ss, ∀ x ∈ s.rules, ∃ q, iterate (scopedStep C s.scope) recs x = some q) :
    ∃ p, iterate (CheckCmd.record C) recs ss = some p := by
  have e : CheckCmd.record C = together (fun r s => RuleSet.step C r s) := by
    funext r ss; exact record_together C r ss
  rw [e]
  rcases iterate_together (fun r s => RuleSet.step C r s) recs ss with ⟨h1, _⟩ | ⟨ps, out', h1, h2, h3⟩
  · exfalso
    obtain ⟨ys, hys⟩ := mapP_total (f := iterate (fun r s => RuleSet.step C r s) recs) (l := ss) (by
      intro s hs
      rw [iterate_step C recs s (hss s hs).1 (hss s hs).2]
      rcases iterate_together (scopedStep C s.scope) recs s.rules with ⟨h1, _⟩ | ⟨ps, out, _, h2, _⟩
      · obtain ⟨ys, hys⟩ := mapP_total (h s hs)
        rw [h1] at hys; simp at hys
      · rw [h2]; exact ⟨_, rfl⟩)
    rw [h1] at hys; simp at hys
  · exact ⟨_, h2⟩

/-- the command ends without error if no test and no rule panics -/
theorem check_clean {c : CheckCmd} (hnf : c.NoFast) {files : List (String × Bytes)} {rs : List ByteRecord}
    (hi : Input files rs) (hc : Clean c.skip files) (ht : ∀ r ∈ rs, ∃ b, c.sel.test r = some b)
    (hr : c.Runs (c.checked rs)) : ∃ out, c.run files = .ok out := by
  unfold CheckCmd.run
  have h2 := check_steps c (chosen c.sel.test rs) ⟨c.prepared, [], 0⟩ (by dsimp only; omega)
  rw [show (if c.limit = 0 then chosen c.sel.test rs else
      (chosen c.sel.test rs).take (c.limit - (⟨c.prepared, [], 0⟩ : CheckState).count)).map (·.record) =
      c.checked rs from rfl] at h2
  dsimp only at h2
  obtain ⟨p, hp⟩ := sets_runs c.C (prepared_noFast hnf) hr
  rw [hp] at h2
  obtain ⟨n, hn⟩ := h2
  rw [filesLoop_clean hi hc, runSteps_sel_total ht, hn]
  exact ⟨_, rfl⟩

end Pica
