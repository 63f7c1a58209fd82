import Verif.Lemmas.Check
import Verif.Props.Checks
import Verif.Props.CheckOrder
import Verif.Props.Path

/-! # C40: the link check -/

namespace Pica.Props
open Pica Spec

/-! ## the claim -/

/-- the paths, the filter and the options of a link check, and the scope of its rule
set -/
structure LinkSpec where
  E : Env
  o : Opts
  source : Path
  target : Path
  matcher : Option RecordMatcher
  scope : Option RecordMatcher
  C : CheckEnv

namespace LinkSpec
variable (L : LinkSpec)

/-- the source values of a record: those of the source path if the record is in
scope -/
def sources (r : Record) : List Bytes :=
  if scopeValue L.C L.scope r = some true then (L.source.values L.E L.o r).getD [] else []

/-- the target values of a record: those of the target path if the record passes the
filter -/
def targets (r : Record) : List Bytes :=
  match L.matcher with
  | none => (L.target.values L.E L.o r).getD []
  | some m => if m.eval L.E L.o r = some true then (L.target.values L.E L.o r).getD [] else []

/-- the IDN of a record; empty if there is none -/
def idn (r : Record) : Bytes := ((r.ppn L.C.E₀ ⟨false⟩).getD none).getD []

/-- `v` is a source value of `r` and not a target value of any record -/
def Dangling (recs : List Record) (r : Record) (v : Bytes) : Prop :=
  v ∈ L.sources r ∧ ∀ r' ∈ recs, v ∉ L.targets r'

/-- the source values of the records with the IDN `p` that are not target values,
in order -/
def danglings (recs : List Record) (p : Bytes) : List Bytes :=
  ((recs.filter (fun r => L.idn r == p)).flatMap L.sources).filter
    (fun v => !(recs.flatMap L.targets).contains v)

theorem mem_danglings (recs : List Record) (p v : Bytes) :
    v ∈ L.danglings recs p ↔ ∃ r ∈ recs, L.idn r = p ∧ L.Dangling recs r v := by
  unfold danglings Dangling
  simp only [List.mem_filter, List.mem_flatMap, beq_iff_eq, Bool.not_eq_true', List.contains_eq_mem,
    decide_eq_false_iff_not, not_exists, not_and]
  constructor
  · rintro ⟨⟨r, ⟨hr, hp⟩, hv⟩, ht⟩
    exact ⟨r, hr, hp, hv, ht⟩
  · rintro ⟨r, hr, hp, hv, ht⟩
    exact ⟨⟨r, ⟨hr, hp⟩, hv⟩, ht⟩

/-- the rule -/
def rule (id : Bytes) (tags : Option (List Bytes)) (level : CheckLevel) (s : LinkState) : CheckRule :=
  ⟨id, tags, level, .link L.E L.o L.source L.target L.matcher s⟩

end LinkSpec

/-! ## the maps -/

/-- the list that belongs to a key -/
def listAt (t : List (Bytes × List Bytes)) (p : Bytes) : List Bytes :=
  match t.find? (fun x => x.1 == p) with
  | some x => x.2
  | none => []

theorem listAt_cons (x : Bytes × List Bytes) (t : List (Bytes × List Bytes)) (p : Bytes) :
    listAt (x :: t) p = if x.1 = p then x.2 else listAt t p := by
  unfold listAt
  rw [List.find?_cons]
  by_cases h : x.1 = p
  · simp [h]
  · rw [if_neg h]
    have : (x.1 == p) = false := by simpa using h
    rw [this]

theorem listAt_map (t : List (Bytes × List Bytes)) (k v p : Bytes) :
    listAt (t.map (fun x => if x.1 == k then (x.1, x.2 ++ [v]) else x)) p =
      if p = k ∧ t.any (fun x => x.1 == k) = true then listAt t p ++ [v] else listAt t p := by
  induction t with
  | nil => simp [listAt]
  | cons x t ih =>
    rw [List.map_cons, listAt_cons, listAt_cons, ih, List.any_cons]
    by_cases hx : x.1 = k
    · have : (x.1 == k) = true := by simpa using hx
      rw [this, if_pos rfl]
      by_cases hp : p = k
      · subst hp; simp [hx]
      · simp only [hp, false_and, if_false]
        have : ¬ x.1 = p := by rw [hx]; exact fun h => hp h.symm
        simp [this]
    · have : (x.1 == k) = false := by simpa using hx
      rw [this]
      simp only [Bool.false_eq_true, if_false, Bool.false_or]
      by_cases hp : x.1 = p
      · subst hp; simp [hx]
      · simp only [hp, if_false]

theorem listAt_append (t : List (Bytes × List Bytes)) (k p : Bytes) (l : List Bytes)
    (h : t.any (fun x => x.1 == k) = false) :
    listAt (t ++ [(k, l)]) p = if p = k then l else listAt t p := by
  induction t with
  | nil =>
    rw [List.nil_append, listAt_cons]
    by_cases hp : p = k
    · subst hp; simp
    · have : ¬ k = p := fun h => hp h.symm
      simp [hp, this]
  | cons x t ih =>
    rw [List.any_cons, Bool.or_eq_false_iff] at h
    rw [List.cons_append, listAt_cons, listAt_cons, ih h.2]
    have hx : x.1 ≠ k := by simpa using h.1
    by_cases hp : x.1 = p
    · subst hp; simp [hx]
    · simp [hp]

theorem listAt_add (t : List (Bytes × List Bytes)) (k v p : Bytes) :
    listAt (unseenAdd t k v) p = if p = k then listAt t p ++ [v] else listAt t p := by
  unfold unseenAdd
  cases h : t.any (fun x => x.1 == k) with
  | true =>
    rw [if_pos rfl, listAt_map]
    simp [h]
  | false =>
    simp only [Bool.false_eq_true, if_false]
    rw [listAt_append _ _ _ _ h]
    by_cases hp : p = k
    · subst hp
      simp only [if_true]
      have : listAt t p = [] := by
        unfold listAt
        have : t.find? (fun x => x.1 == p) = none := by
          rw [List.find?_eq_none]
          intro x hx
          rw [List.any_eq_false] at h
          exact h x hx
        rw [this]
      rw [this]; rfl
    · simp [hp]

theorem keys_add (t : List (Bytes × List Bytes)) (k v : Bytes) (h : (t.map (·.1)).Nodup) :
    ((unseenAdd t k v).map (·.1)).Nodup := by
  unfold unseenAdd
  cases hk : t.any (fun x => x.1 == k) with
  | true =>
    rw [if_pos rfl, List.map_map]
    have : ((fun x : Bytes × List Bytes => x.1) ∘ fun x => if x.1 == k then (x.1, x.2 ++ [v]) else x) =
        (fun x => x.1) := by
      funext x; simp only [Function.comp_apply]; split <;> rfl
    rw [this]; exact h
  | false =>
    simp only [Bool.false_eq_true, if_false, List.map_append, List.map_cons, List.map_nil]
    rw [List.any_eq_false] at hk
    rw [List.nodup_append]
    refine ⟨h, by simp, ?_⟩
    intro a ha b hb
    simp only [List.mem_singleton] at hb
    subst hb
    obtain ⟨x, hx, rfl⟩ := List.mem_map.1 ha
    have := hk x hx
    simpa using this

theorem note_listAt (s : LinkState) (k p : Bytes) (vs : List Bytes) :
    listAt (s.note k vs).unseen p =
      if p = k then listAt s.unseen p ++ vs.filter (fun v => !s.seen.contains v) else listAt s.unseen p := by
  have key : ∀ (vs : List Bytes) (t : List (Bytes × List Bytes)),
      listAt (vs.foldl (fun t v => if s.seen.contains v then t else unseenAdd t k v) t) p =
        if p = k then listAt t p ++ vs.filter (fun v => !s.seen.contains v) else listAt t p := by
    intro vs
    induction vs with
    | nil => intro t; simp
    | cons v vs ih =>
      intro t
      rw [List.foldl_cons, ih, List.filter_cons]
      cases hv : s.seen.contains v with
      | true => simp
      | false =>
        simp only [Bool.false_eq_true, if_false, Bool.not_false, if_true]
        rw [listAt_add]
        by_cases hp : p = k
        · simp [hp]
        · simp [hp]
  exact key vs s.unseen

theorem note_keys (s : LinkState) (k : Bytes) (vs : List Bytes) (h : (s.unseen.map (·.1)).Nodup) :
    ((s.note k vs).unseen.map (·.1)).Nodup := by
  have key : ∀ (vs : List Bytes) (t : List (Bytes × List Bytes)), (t.map (·.1)).Nodup →
      ((vs.foldl (fun t v => if s.seen.contains v then t else unseenAdd t k v) t).map (·.1)).Nodup := by
    intro vs
    induction vs with
    | nil => intro t h; exact h
    | cons v vs ih =>
      intro t h
      rw [List.foldl_cons]
      apply ih
      split
      · exact h
      · exact keys_add t k v h
  exact key vs s.unseen h

theorem listAt_mem {t : List (Bytes × List Bytes)} (h : (t.map (·.1)).Nodup) {x : Bytes × List Bytes}
    (hx : x ∈ t) : listAt t x.1 = x.2 := by
  induction t with
  | nil => simp at hx
  | cons y t ih =>
    rw [List.map_cons, List.nodup_cons] at h
    rw [listAt_cons]
    rcases List.mem_cons.1 hx with rfl | hx
    · rw [if_pos rfl]
    · have : ¬ y.1 = x.1 := fun he => h.1 (he ▸ List.mem_map_of_mem hx)
      rw [if_neg this, ih h.2 hx]

theorem mem_of_listAt {t : List (Bytes × List Bytes)} {p : Bytes} (h : listAt t p ≠ []) :
    (p, listAt t p) ∈ t := by
  unfold listAt at h ⊢
  cases hf : t.find? (fun x => x.1 == p) with
  | none => rw [hf] at h; exact absurd rfl h
  | some x =>
    have h1 := List.mem_of_find?_eq_some hf
    have h2 := List.find?_some hf
    simp only [beq_iff_eq] at h2
    dsimp only
    rw [← h2]; exact h1

/-! ## the invariant -/

/-- the state after the records `recs` -/
structure LinkInv (L : LinkSpec) (recs : List Record) (s : LinkState) : Prop where
  seen : s.seen = recs.flatMap L.targets
  keys : (s.unseen.map (·.1)).Nodup
  unseen : ∀ (p : Bytes) (S : List Bytes), (∀ v ∈ s.seen, v ∈ S) →
    (listAt s.unseen p).filter (fun v => !S.contains v) =
      ((recs.filter (fun r => L.idn r == p)).flatMap L.sources).filter (fun v => !S.contains v)

theorem preprocess_link {L : LinkSpec} {s s' : LinkState} {r : Record}
    (h : linkPreprocess L.E L.o L.target L.matcher s r = some s') :
    s' = ⟨s.unseen, s.seen ++ L.targets r⟩ := by
  unfold linkPreprocess at h
  unfold LinkSpec.targets
  cases hv : L.target.values L.E L.o r with
  | none => rw [hv] at h; simp at h
  | some vs =>
    rw [hv] at h
    simp only [Option.getD_some]
    dsimp only at h
    cases vs with
    | nil =>
      simp only [List.isEmpty_nil, if_true, Option.some.injEq] at h
      subst h
      cases L.matcher <;> simp
    | cons v vs =>
      simp only [List.isEmpty_cons, Bool.false_eq_true, if_false] at h
      cases hm : L.matcher with
      | none =>
        rw [hm] at h
        simp only [Option.some.injEq] at h
        rw [← h]
      | some m =>
        rw [hm] at h
        dsimp only at h ⊢
        cases he : m.eval L.E L.o r with
        | none => rw [he] at h; simp at h
        | some b =>
          rw [he] at h
          cases b with
          | false =>
            simp only [Option.some.injEq] at h
            rw [← h]
            simp
          | true =>
            simp only [Option.some.injEq] at h
            rw [← h]
            simp

theorem filter_notin_mono {l S T : List Bytes} (h : ∀ v ∈ T, v ∈ S) :
    (l.filter (fun v => !T.contains v)).filter (fun v => !S.contains v) = l.filter (fun v => !S.contains v) := by
  rw [List.filter_filter]
  apply List.filter_congr
  intro v _
  rw [Bool.eq_iff_iff]
  simp only [Bool.and_eq_true, Bool.not_eq_true', List.contains_eq_mem, decide_eq_false_iff_not]
  exact ⟨fun h' => h'.1, fun h' => ⟨h', fun hv => h' (h v hv)⟩⟩

theorem link_step {L : LinkSpec} {recs : List Record} {s : LinkState} (hi : LinkInv L recs s) {r : Record}
    {id : Bytes} {tags : Option (List Bytes)} {level : CheckLevel} {p : CheckRule × List Report}
    (h : scopedStep L.C L.scope r (L.rule id tags level s) = some p) :
    p.2 = [] ∧ ∃ s', p.1 = L.rule id tags level s' ∧ LinkInv L (recs ++ [r]) s' := by
  unfold scopedStep at h
  cases hsc : scopeValue L.C L.scope r with
  | none => rw [hsc] at h; simp at h
  | some b =>
    rw [hsc] at h
    dsimp only at h
    unfold ruleStep CheckRule.preprocess LinkSpec.rule Checks.preprocess at h
    dsimp only at h
    cases hp : linkPreprocess L.E L.o L.target L.matcher s r with
    | none => rw [hp] at h; simp at h
    | some s1 =>
      rw [hp] at h
      simp only [Option.map_some] at h
      have h1 := preprocess_link hp
      have hseen : s1.seen = (recs ++ [r]).flatMap L.targets := by
        rw [h1, hi.seen]; simp
      have hsub : ∀ v ∈ s.seen, v ∈ s1.seen := by
        rw [h1]; intro v hv; exact List.mem_append_left _ hv
      cases b with
      | false =>
        simp only [Bool.false_eq_true, if_false, Option.some.injEq] at h
        subst h
        refine ⟨rfl, s1, rfl, hseen, by rw [h1]; exact hi.keys, ?_⟩
        intro q S hS
        have := hi.unseen q S (fun v hv => hS v (hsub v hv))
        have hu : s1.unseen = s.unseen := by rw [h1]
        have hs0 : L.sources r = [] := by unfold LinkSpec.sources; rw [hsc]; simp
        rw [hu, this]
        congr 1
        rw [List.filter_append, List.flatMap_append]
        have : (([r] : List Record).filter (fun r => L.idn r == q)).flatMap L.sources = [] := by
          rw [List.filter_cons]
          split <;> simp [hs0]
        rw [this, List.append_nil]
      | true =>
        simp only [if_true] at h
        unfold CheckRule.run Checks.check at h
        dsimp only at h
        obtain ⟨ppn, hppn⟩ : ∃ ppn, r.ppn L.C.E₀ ⟨false⟩ = some ppn := ⟨_, (C23_ppn L.C.E₀ ⟨false⟩ r).1⟩
        rw [hppn] at h
        cases hv : L.source.values L.E L.o r with
        | none => rw [hv] at h; simp at h
        | some vs =>
          rw [hv] at h
          simp only [Option.map_some, Option.some.injEq] at h
          subst h
          refine ⟨rfl, s1.note (ppn.getD []) vs, rfl, ?_, ?_, ?_⟩
          · rw [← hseen]; rfl
          · apply note_keys; rw [h1]; exact hi.keys
          · intro q S hS
            have hS1 : ∀ v ∈ s1.seen, v ∈ S := hS
            have := hi.unseen q S (fun v hv => hS1 v (hsub v hv))
            have hu : s1.unseen = s.unseen := by rw [h1]
            have hs0 : L.sources r = vs := by
              unfold LinkSpec.sources; rw [hsc, hv]; simp
            have hid : L.idn r = ppn.getD [] := by unfold LinkSpec.idn; rw [hppn]; rfl
            rw [note_listAt, List.filter_append, List.flatMap_append, List.filter_append, ← this, hu]
            by_cases hq : q = ppn.getD []
            · rw [if_pos hq, List.filter_append, filter_notin_mono hS1]
              congr 1
              rw [List.filter_cons, hid, hq]
              simp [hs0]
            · rw [if_neg hq, List.filter_cons, hid]
              have : (ppn.getD [] == q) = false := by
                simp only [beq_eq_false_iff_ne, ne_eq]; exact fun h => hq h.symm
              rw [this]
              simp

theorem link_iterate {L : LinkSpec} {id : Bytes} {tags : Option (List Bytes)} {level : CheckLevel} :
    ∀ (recs pre : List Record) (s : LinkState) (p : CheckRule × List Report), LinkInv L pre s →
    iterate (scopedStep L.C L.scope) recs (L.rule id tags level s) = some p →
    p.2 = [] ∧ ∃ s', p.1 = L.rule id tags level s' ∧ LinkInv L (pre ++ recs) s' := by
  intro recs
  induction recs with
  | nil =>
    intro pre s p hi h
    simp only [iterate, Option.some.injEq] at h
    subst h
    exact ⟨rfl, s, rfl, by rw [List.append_nil]; exact hi⟩
  | cons r recs ih =>
    intro pre s p hi h
    rw [iterate] at h
    cases hs : scopedStep L.C L.scope r (L.rule id tags level s) with
    | none => rw [hs] at h; simp at h
    | some q =>
      rw [hs] at h
      obtain ⟨q1, q2⟩ := q
      obtain ⟨h1, s1, h2, h3⟩ := link_step hi hs
      dsimp only at h h1 h2
      rw [h2] at h
      cases ht : iterate (scopedStep L.C L.scope) recs (L.rule id tags level s1) with
      | none => rw [ht] at h; simp at h
      | some z =>
        rw [ht] at h
        simp only [Option.map_some, Option.some.injEq] at h
        obtain ⟨k1, s2, k2, k3⟩ := ih (pre ++ [r]) s1 z h3 ht
        subst h
        refine ⟨by simp [h1, k1], s2, k2, ?_⟩
        simpa using k3

theorem linkInv_init (L : LinkSpec) : LinkInv L [] ⟨[], []⟩ :=
  ⟨rfl, by simp, fun p S _ => by simp [listAt]⟩

/-- the reports for an IDN -/
def linkReport (id : Bytes) (level : CheckLevel) (p message : Bytes) : Report :=
  ⟨if p.isEmpty then none else some p, id, level, some message⟩

theorem finish_link {L : LinkSpec} {recs : List Record} {s : LinkState} (hi : LinkInv L recs s)
    (hperm : ∀ l, (L.C.iterLink l).Perm l) (p : Bytes) (m : Option Bytes) :
    (p, m) ∈ s.finish L.C.lossy L.C.iterLink ↔
      ∃ message, m = some message ∧ message = joinText (bs ", ") ((L.danglings recs p).map L.C.lossy) ∧
        message ≠ [] := by
  have hd : (listAt s.unseen p).filter (fun v => !s.seen.contains v) = L.danglings recs p := by
    rw [hi.unseen p s.seen (fun v hv => hv), hi.seen]; rfl
  unfold LinkState.finish
  rw [List.mem_filterMap]
  constructor
  · rintro ⟨x, hx, he⟩
    have hx' : x ∈ s.unseen := (hperm _).mem_iff.1 hx
    dsimp only at he
    split at he
    · rename_i hne
      simp only [Option.some.injEq, Prod.mk.injEq] at he
      obtain ⟨rfl, rfl⟩ := he
      rw [← listAt_mem hi.keys hx', hd] at hne ⊢
      refine ⟨_, rfl, rfl, ?_⟩
      intro h
      rw [h] at hne
      simp at hne
    · simp at he
  · rintro ⟨message, rfl, hm, hne⟩
    have hnil : listAt s.unseen p ≠ [] := by
      intro h
      rw [h] at hd
      rw [← hd] at hm
      exact hne hm
    refine ⟨(p, listAt s.unseen p), (hperm _).mem_iff.2 (mem_of_listAt hnil), ?_⟩
    dsimp only
    rw [hd, ← hm]
    have : (!message.isEmpty) = true := by
      cases message with
      | nil => exact absurd rfl hne
      | cons => rfl
    rw [if_pos this]

theorem link_ruleOut {L : LinkSpec} {recs : List Record} {id : Bytes} {tags : Option (List Bytes)}
    {level : CheckLevel} (hperm : ∀ l, (L.C.iterLink l).Perm l)
    (hrun : ∃ q, iterate (scopedStep L.C L.scope) recs (L.rule id tags level ⟨[], []⟩) = some q) (rep : Report) :
    rep ∈ ruleOut L.C L.scope recs (L.rule id tags level ⟨[], []⟩) ↔
      ∃ p message, rep = linkReport id level p message ∧
        message = joinText (bs ", ") ((L.danglings recs p).map L.C.lossy) ∧ message ≠ [] := by
  obtain ⟨q, hq⟩ := hrun
  obtain ⟨h1, s, h2, h3⟩ := link_iterate recs [] ⟨[], []⟩ q (linkInv_init L) hq
  rw [List.nil_append] at h3
  unfold ruleOut
  rw [hq]
  dsimp only
  rw [h1, h2, List.nil_append]
  show rep ∈ (s.finish L.C.lossy L.C.iterLink).map (fun x =>
      (⟨if x.1.isEmpty then none else some x.1, id, level, x.2⟩ : Report)) ↔ _
  rw [List.mem_map]
  constructor
  · rintro ⟨⟨p, m⟩, hx, rfl⟩
    obtain ⟨message, rfl, he, hne⟩ := (finish_link h3 hperm p m).1 hx
    exact ⟨p, message, rfl, he, hne⟩
  · rintro ⟨p, message, rfl, he, hne⟩
    exact ⟨(p, some message), (finish_link h3 hperm p _).2 ⟨message, rfl, he, hne⟩, rfl⟩

theorem link_nodup {L : LinkSpec} {recs : List Record} {id : Bytes} {tags : Option (List Bytes)}
    {level : CheckLevel} (hperm : ∀ l, (L.C.iterLink l).Perm l) :
    ((ruleOut L.C L.scope recs (L.rule id tags level ⟨[], []⟩)).map (·.ppn)).Nodup := by
  unfold ruleOut
  cases hq : iterate (scopedStep L.C L.scope) recs (L.rule id tags level ⟨[], []⟩) with
  | none => simp
  | some q =>
    obtain ⟨h1, s, h2, h3⟩ := link_iterate recs [] ⟨[], []⟩ q (linkInv_init L) hq
    dsimp only
    rw [h1, h2, List.nil_append]
    show ((((s.finish L.C.lossy L.C.iterLink).map (fun x =>
      (⟨if x.1.isEmpty then none else some x.1, id, level, x.2⟩ : Report))).map (·.ppn))).Nodup
    rw [List.map_map]
    have hk : ((s.finish L.C.lossy L.C.iterLink).map (·.1)).Nodup := by
      have hsub : ∀ l : List (Bytes × List Bytes), List.Sublist ((l.filterMap (fun x =>
          let message := joinText (bs ", ") ((x.2.filter (fun v => !s.seen.contains v)).map L.C.lossy)
          if !message.isEmpty then some (x.1, some message) else none)).map (·.1)) (l.map (·.1)) := by
        intro l
        induction l with
        | nil => simp
        | cons x l ih =>
          rw [List.filterMap_cons, List.map_cons]
          split
          · exact ih.cons _
          · rename_i b hb
            dsimp only at hb
            split at hb
            · simp only [Option.some.injEq] at hb
              subst hb
              rw [List.map_cons]
              exact ih.cons_cons _
            · simp at hb
      have : ((L.C.iterLink s.unseen).map (·.1)).Nodup := ((hperm s.unseen).map _).nodup_iff.2 h3.keys
      exact (hsub _).nodup this
    have : (fun x : Bytes × Option Bytes => (if x.1.isEmpty then none else some x.1 : Option Bytes)) =
        (fun y : Bytes => if y.isEmpty then none else some y) ∘ (·.1) := rfl
    show (List.map (fun x : Bytes × Option Bytes => (if x.1.isEmpty then none else some x.1 : Option Bytes))
      (s.finish L.C.lossy L.C.iterLink)).Nodup
    rw [this, ← List.map_map]
    refine List.Pairwise.map _ ?_ hk
    intro a b hab he
    cases a <;> cases b <;> simp_all

/-! ## the command -/

/-- the command has the link rule `id`, and no other rule has this id -/
structure HasLink (c : CheckCmd) (L : LinkSpec) (id : Bytes) (tags : Option (List Bytes)) (level : CheckLevel)
    (A B : List RuleSet) (X Y : List CheckRule) : Prop where
  env : L.C = c.C
  sets : c.prepared = A ++ [⟨L.scope, false, X ++ [L.rule id tags level ⟨[], []⟩] ++ Y⟩] ++ B
  unique : ∀ x ∈ A.flatMap RuleSet.rules ++ X ++ Y ++ B.flatMap RuleSet.rules, x.id ≠ id

theorem run_id {C : CheckEnv} {r : Record} {c : CheckRule} {z : CheckRule × List Report × Bool}
    (h : c.run C r = some z) : z.1.id = c.id ∧ ∀ o ∈ z.2.1, o.rule = c.id := by
  unfold CheckRule.run at h
  split at h
  · simp at h
  · simp only [Option.some.injEq] at h; subst h; simp
  · split at h
    · simp at h
    · simp only [Option.some.injEq] at h; subst h; simp

theorem step_id {C : CheckEnv} {scope : Option RecordMatcher} {r : Record} {c : CheckRule}
    {z : CheckRule × List Report} (h : scopedStep C scope r c = some z) :
    z.1.id = c.id ∧ ∀ o ∈ z.2, o.rule = c.id := by
  unfold scopedStep at h
  split at h
  · simp at h
  · unfold ruleStep at h
    split at h
    · simp at h
    · rename_i b _ c' hc
      have hid : c'.id = c.id := by
        unfold CheckRule.preprocess at hc
        cases hp : c.check.preprocess r with
        | none => rw [hp] at hc; simp at hc
        | some x => rw [hp] at hc; simp only [Option.map_some, Option.some.injEq] at hc; rw [← hc]
      split at h
      · cases hr : c'.run C r with
        | none => rw [hr] at h; simp at h
        | some z' =>
          rw [hr] at h
          simp only [Option.map_some, Option.some.injEq] at h
          subst h
          rw [← hid]
          exact run_id hr
      · simp only [Option.some.injEq] at h
        subst h
        exact ⟨hid, by simp⟩

theorem ruleOut_id {C : CheckEnv} {scope : Option RecordMatcher} {recs : List Record} {c : CheckRule} :
    ∀ o ∈ ruleOut C scope recs c, o.rule = c.id := by
  have key : ∀ (recs : List Record) (c : CheckRule) z, iterate (scopedStep C scope) recs c = some z →
      z.1.id = c.id ∧ ∀ o ∈ z.2, o.rule = c.id := by
    intro recs
    induction recs with
    | nil => intro c z h; simp only [iterate, Option.some.injEq] at h; subst h; simp
    | cons r recs ih =>
      intro c z h
      rw [iterate] at h
      cases hs : scopedStep C scope r c with
      | none => rw [hs] at h; simp at h
      | some q =>
        rw [hs] at h
        obtain ⟨q1, q2⟩ := q
        dsimp only at h
        obtain ⟨h1, h2⟩ := step_id hs
        cases ht : iterate (scopedStep C scope) recs q1 with
        | none => rw [ht] at h; simp at h
        | some y =>
          rw [ht] at h
          simp only [Option.map_some, Option.some.injEq] at h
          obtain ⟨k1, k2⟩ := ih q1 y ht
          subst h
          refine ⟨k1.trans h1, ?_⟩
          intro o ho
          rcases List.mem_append.1 ho with ho | ho
          · exact h2 o ho
          · rw [k2 o ho]; exact h1
  intro o ho
  unfold ruleOut at ho
  split at ho
  · simp at ho
  · rename_i p hp
    obtain ⟨h1, h2⟩ := key recs c p hp
    rcases List.mem_append.1 ho with ho | ho
    · exact h2 o ho
    · unfold CheckRule.finish at ho
      split at ho
      · obtain ⟨x, _, rfl⟩ := List.mem_map.1 ho
        exact h1
      · simp at ho

theorem flatMap_id_nil {C : CheckEnv} {scope : Option RecordMatcher} {recs : List Record} {id : Bytes} :
    ∀ X : List CheckRule, (∀ x ∈ X, x.id ≠ id) →
    (X.flatMap (ruleOut C scope recs)).filter (fun o => o.rule == id) = [] := by
  intro X h
  rw [List.filter_eq_nil_iff]
  intro o ho
  obtain ⟨x, hx, ho⟩ := List.mem_flatMap.1 ho
  rw [ruleOut_id o ho]
  simpa using h x hx

/-- the reports of the command with the id of the link rule are those of the rule -/
theorem link_command {c : CheckCmd} {L : LinkSpec} {id : Bytes} {tags : Option (List Bytes)} {level : CheckLevel}
    {A B : List RuleSet} {X Y : List CheckRule} (hl : HasLink c L id tags level A B X Y) (hnf : c.NoFast)
    {files : List (String × Bytes)} {rs : List ByteRecord} (hi : Input files rs) {out : List Report}
    (h : c.run files = .ok out) :
    (out.filter (fun o => o.rule == id)).Perm
      (ruleOut L.C L.scope (c.checked rs) (L.rule id tags level ⟨[], []⟩)) ∧
    ∃ q, iterate (scopedStep L.C L.scope) (c.checked rs) (L.rule id tags level ⟨[], []⟩) = some q := by
  obtain ⟨h1, h2⟩ := check_ok hnf hi h
  constructor
  · refine (h1.filter _).trans ?_
    rw [hl.sets, List.flatMap_append, List.flatMap_append, List.filter_append, List.filter_append]
    have hsets : ∀ Z : List RuleSet, (∀ x ∈ Z.flatMap RuleSet.rules, x.id ≠ id) →
        (Z.flatMap (fun s => s.rules.flatMap (ruleOut c.C s.scope (c.checked rs)))).filter
          (fun o => o.rule == id) = [] := by
      intro Z hZ
      rw [List.filter_eq_nil_iff]
      intro o ho
      obtain ⟨s, hs, ho⟩ := List.mem_flatMap.1 ho
      obtain ⟨x, hx, ho⟩ := List.mem_flatMap.1 ho
      rw [ruleOut_id o ho]
      simpa using hZ x (List.mem_flatMap.2 ⟨s, hs, hx⟩)
    have hu := hl.unique
    rw [hsets A (fun x hx => hu x (by simp [hx])), hsets B (fun x hx => hu x (by simp [hx]))]
    simp only [List.nil_append, List.append_nil, List.flatMap_cons, List.flatMap_nil, List.flatMap_append,
      List.filter_append]
    rw [flatMap_id_nil X (fun x hx => hu x (by simp [hx])), flatMap_id_nil Y (fun x hx => hu x (by simp [hx])),
      List.nil_append, List.append_nil]
    rw [← hl.env]
    have : (ruleOut L.C L.scope (c.checked rs) (L.rule id tags level ⟨[], []⟩)).filter (fun o => o.rule == id) =
        ruleOut L.C L.scope (c.checked rs) (L.rule id tags level ⟨[], []⟩) := by
      rw [List.filter_eq_self]
      intro o ho
      rw [ruleOut_id o ho]
      simp [LinkSpec.rule]
    rw [this]
  · have := h2 ⟨L.scope, false, X ++ [L.rule id tags level ⟨[], []⟩] ++ Y⟩ (by rw [hl.sets]; simp)
      (L.rule id tags level ⟨[], []⟩) (by simp)
    rw [hl.env]; exact this

/-- **C40** the reports of a link rule: one for each IDN with a nonempty message,
which lists the dangling values of the records with this IDN. -/
theorem C40_reports {c : CheckCmd} {L : LinkSpec} {id : Bytes} {tags : Option (List Bytes)} {level : CheckLevel}
    {A B : List RuleSet} {X Y : List CheckRule} (hl : HasLink c L id tags level A B X Y) (hnf : c.NoFast)
    (hperm : ∀ l, (c.C.iterLink l).Perm l)
    {files : List (String × Bytes)} {rs : List ByteRecord} (hi : Input files rs) {out : List Report}
    (h : c.run files = .ok out) :
    (∀ rep, (rep ∈ out ∧ rep.rule = id) ↔ ∃ p, rep = linkReport id level p
        (joinText (bs ", ") ((L.danglings (c.checked rs) p).map L.C.lossy)) ∧
        joinText (bs ", ") ((L.danglings (c.checked rs) p).map L.C.lossy) ≠ []) ∧
      ((out.filter (fun o => o.rule == id)).map (·.ppn)).Nodup := by
  obtain ⟨h1, h2⟩ := link_command hl hnf hi h
  have hperm' : ∀ l, (L.C.iterLink l).Perm l := by rw [hl.env]; exact hperm
  constructor
  · intro rep
    have : (rep ∈ out ∧ rep.rule = id) ↔ rep ∈ out.filter (fun o => o.rule == id) := by
      rw [List.mem_filter]; simp
    rw [this, h1.mem_iff, link_ruleOut hperm' h2]
    constructor
    · rintro ⟨p, message, rfl, rfl, hne⟩; exact ⟨p, rfl, hne⟩
    · rintro ⟨p, rfl, hne⟩; exact ⟨p, _, rfl, rfl, hne⟩
  · exact (h1.map _).nodup_iff.2 (link_nodup hperm')

/-- **C40** an IDN is reported iff one of its records in scope has a source value
that is not a target value of any record of the input.  Missing: a single dangling
value that is empty is not reported (`C40_empty_false`), and rule sets with fast
termination (`C40_fast_false`). -/
theorem C40_dangling_partial {c : CheckCmd} {L : LinkSpec} {id : Bytes} {tags : Option (List Bytes)}
    {level : CheckLevel} {A B : List RuleSet} {X Y : List CheckRule} (hl : HasLink c L id tags level A B X Y)
    (hnf : c.NoFast) (hperm : ∀ l, (c.C.iterLink l).Perm l) (hlossy : IsLossy c.C.lossy)
    {files : List (String × Bytes)} {rs : List ByteRecord} (hi : Input files rs) {out : List Report}
    (h : c.run files = .ok out) (p : Bytes) (hsingle : L.danglings (c.checked rs) p ≠ [[]]) :
    (∃ rep ∈ out, rep.rule = id ∧ rep.ppn = if p.isEmpty then none else some p) ↔
      ∃ r ∈ c.checked rs, L.idn r = p ∧ ∃ v ∈ L.sources r, ∀ r' ∈ c.checked rs, v ∉ L.targets r' := by
  have hj : joinText (bs ", ") ((L.danglings (c.checked rs) p).map L.C.lossy) ≠ [] ↔
      L.danglings (c.checked rs) p ≠ [] := by
    rw [hl.env]
    refine not_congr ?_
    rw [joinText_eq_nil (by decide +kernel)]
    constructor
    · rintro (h0 | h0)
      · simpa using h0
      · exfalso
        cases hd : L.danglings (c.checked rs) p with
        | nil => rw [hd] at h0; simp at h0
        | cons v vs =>
          rw [hd] at h0
          cases vs with
          | nil =>
            simp only [List.map_cons, List.map_nil, List.cons.injEq, and_true] at h0
            exact hsingle (by rw [hd, hlossy.2 v h0])
          | cons => simp at h0
    · intro h0; left; rw [h0]; rfl
  have hreports := (C40_reports hl hnf hperm hi h).1
  constructor
  · rintro ⟨rep, hrep, hid, hppn⟩
    obtain ⟨q, rfl, hne⟩ := (hreports rep).1 ⟨hrep, hid⟩
    have hq : q = p := by
      unfold linkReport at hppn
      cases q <;> cases p <;> simp_all
    subst hq
    obtain ⟨v, hv⟩ := List.exists_mem_of_ne_nil _ (hj.1 hne)
    obtain ⟨r, hr, hrid, hd1, hd2⟩ := (L.mem_danglings _ _ _).1 hv
    exact ⟨r, hr, hrid, v, hd1, hd2⟩
  · rintro ⟨r, hr, hrid, v, hd1, hd2⟩
    have hv := (L.mem_danglings (c.checked rs) p v).2 ⟨r, hr, hrid, hd1, hd2⟩
    obtain ⟨h3, h4⟩ := (hreports _).2 ⟨p, rfl, hj.2 (List.ne_nil_of_mem hv)⟩
    exact ⟨_, h3, h4, rfl⟩

/-- **C40** the reported IDNs and the dangling values listed for them do not depend on
the order of the records. -/
theorem C40_order_partial {c : CheckCmd} {L : LinkSpec} {id : Bytes} {tags : Option (List Bytes)}
    {level : CheckLevel} {A B : List RuleSet} {X Y : List CheckRule} (hl : HasLink c L id tags level A B X Y)
    (hnf : c.NoFast) (hperm : ∀ l, (c.C.iterLink l).Perm l)
    {files files' : List (String × Bytes)} {rs rs' : List ByteRecord} (hi : Input files rs) (hi' : Input files' rs')
    (hlimit : c.limit = 0) (hrs : rs.Perm rs') {out out' : List Report}
    (h : c.run files = .ok out) (h' : c.run files' = .ok out') :
    (∀ p, (L.danglings (c.checked rs) p).Perm (L.danglings (c.checked rs') p)) ∧
    ((out.filter (fun o => o.rule == id)).map (·.ppn)).Perm
      ((out'.filter (fun o => o.rule == id)).map (·.ppn)) := by
  have hchk : (c.checked rs).Perm (c.checked rs') := by
    unfold CheckCmd.checked limited
    rw [if_pos hlimit, if_pos hlimit, chosen_eq_picked, chosen_eq_picked]
    exact (hrs.filter _).map _
  have hd : ∀ p, (L.danglings (c.checked rs) p).Perm (L.danglings (c.checked rs') p) := by
    intro p
    unfold LinkSpec.danglings
    have e : (fun v => !((c.checked rs).flatMap L.targets).contains v) =
        (fun v => !((c.checked rs').flatMap L.targets).contains v) := by
      funext v
      congr 1
      rw [Bool.eq_iff_iff, List.contains_iff_mem, List.contains_iff_mem]
      exact (hchk.flatMap_right _).mem_iff
    rw [e]
    exact (((hchk.filter _).flatMap_right _).filter _)
  refine ⟨hd, ?_⟩
  obtain ⟨h1, h2⟩ := C40_reports hl hnf hperm hi h
  obtain ⟨h1', h2'⟩ := C40_reports hl hnf hperm hi' h'
  rw [List.perm_ext_iff_of_nodup h2 h2']
  have key : ∀ {rs₁ rs₂ : List ByteRecord} {o₁ o₂ : List Report},
      (∀ p, (L.danglings (c.checked rs₁) p).Perm (L.danglings (c.checked rs₂) p)) →
      (∀ rep, (rep ∈ o₁ ∧ rep.rule = id) ↔ ∃ p, rep = linkReport id level p
        (joinText (bs ", ") ((L.danglings (c.checked rs₁) p).map L.C.lossy)) ∧
        joinText (bs ", ") ((L.danglings (c.checked rs₁) p).map L.C.lossy) ≠ []) →
      (∀ rep, (rep ∈ o₂ ∧ rep.rule = id) ↔ ∃ p, rep = linkReport id level p
        (joinText (bs ", ") ((L.danglings (c.checked rs₂) p).map L.C.lossy)) ∧
        joinText (bs ", ") ((L.danglings (c.checked rs₂) p).map L.C.lossy) ≠ []) →
      ∀ a, a ∈ (o₁.filter (fun o => o.rule == id)).map (·.ppn) →
        a ∈ (o₂.filter (fun o => o.rule == id)).map (·.ppn) := by
    intro rs₁ rs₂ o₁ o₂ hd h1 h2 a ha
    obtain ⟨rep, hrep, rfl⟩ := List.mem_map.1 ha
    rw [List.mem_filter] at hrep
    obtain ⟨p, rfl, hne⟩ := (h1 rep).1 ⟨hrep.1, by simpa using hrep.2⟩
    have hne' : joinText (bs ", ") ((L.danglings (c.checked rs₂) p).map L.C.lossy) ≠ [] := by
      intro h0
      apply hne
      rw [joinText_eq_nil (by decide +kernel)] at h0 ⊢
      rcases h0 with h0 | h0
      · left
        have := hd p
        rw [List.map_eq_nil_iff] at h0
        rw [h0] at this
        rw [this.eq_nil]; rfl
      · right
        have := (hd p).map L.C.lossy
        rw [h0] at this
        exact this.eq_singleton
    obtain ⟨k1, k2⟩ := (h2 _).2 ⟨p, rfl, hne'⟩
    refine List.mem_map.2 ⟨_, List.mem_filter.2 ⟨k1, by simpa using k2⟩, rfl⟩
  intro a
  exact ⟨key hd h1 h1' a, key (fun p => (hd p).symm) h1' h1 a⟩

/-! ## cases -/

/-- `012A.l` -/
def sourcePath : Path := ⟨.tag (bs "012A"), .none, none, [bs "l"], bs "012A.l"⟩

/-- links from `012A.l` to `003@.0` -/
def linkSample : LinkSpec := ⟨toyEnv, ⟨false⟩, sourcePath, Path.ppnPath, none, none, checkEnv⟩

/-- a line with an IDN and a link -/
def linkLine (idn link : String) : Bytes :=
  bs "003@ " ++ [US] ++ bs ("0" ++ idn) ++ [RS] ++ bs "012A " ++ [US] ++ bs ("l" ++ link) ++ [RS] ++ [LF]

/-- the command with the link rule alone -/
def linkCmd : CheckCmd := checkSample false [linkSample.rule (bs "L") none .error ⟨[], []⟩]

example : HasLink linkCmd linkSample (bs "L") none .error [] [] [] [] := ⟨rfl, rfl, by simp⟩
example : linkCmd.NoFast := by intro s hs; simp [linkCmd, checkSample] at hs; subst hs; rfl

/-- a forward reference, a dangling reference and a reference to the record itself -/
example : linkCmd.run [("a", linkLine "1" "2" ++ linkLine "2" "9" ++ linkLine "3" "3")] =
    .ok [⟨some (bs "2"), bs "L", .error, some (bs "9")⟩] := by decide +kernel

/-- **C40** fails for a dangling value that is empty -/
theorem C40_empty_false : ∃ r, linkSample.Dangling [r] r [] ∧
    linkCmd.run [("a", linkLine "1" "")] = .ok [] ∧ Record.fromBytes (linkLine "1" "") = some r := by
  refine ⟨[⟨bs "003@", none, [⟨0x30, bs "1"⟩]⟩, ⟨bs "012A", none, [⟨0x6C, []⟩]⟩], ⟨by decide +kernel, ?_⟩,
    by decide +kernel, by decide +kernel⟩
  decide +kernel

/-- **C40** fails with fast termination: if another rule of the set fires first, the
source values of the record are not noted. -/
theorem C40_fast_false :
    (checkSample true [failRule "A", linkSample.rule (bs "L") none .error ⟨[], []⟩]).run
      [("a", linkLine "1" "9")] = .ok [⟨some (bs "1"), bs "A", .error, none⟩] ∧
    (checkSample true [linkSample.rule (bs "L") none .error ⟨[], []⟩, failRule "A"]).run
      [("a", linkLine "1" "9")] =
      .ok [⟨some (bs "1"), bs "A", .error, none⟩, ⟨some (bs "1"), bs "L", .error, some (bs "9")⟩] := by
  decide +kernel

end Pica.Props
