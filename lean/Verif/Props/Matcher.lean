import Verif.Base.List
import Verif.Lemmas.Total

/-! C14 (combining matchers), C15 (builder), C17 (quantifiers), C18 (cardinality),
C19 (lists), C22 (no panic), C47 (value relations), C48 (code lists). -/

namespace Pica.Props
open Pica Pica.Spec

/-- an environment for the examples: ASCII lower case, no regular expressions -/
def toyEnv : Env where
  lower := fun v => v.map (fun b => if 0x41 ≤ b ∧ b ≤ 0x5A then b + 0x20 else b)
  similar := fun _ a b => a == b
  regex := fun _ re => some (fun v => containsStr v re)
  regexSet := fun _ res => some (fun v => res.any (containsStr v))

/-- text to matcher, for the examples -/
def subM (t : String) : Option SubMatcher := (SubMatcher.new (fun _ => true) Levels.zero (bs t)).1
def fldM (t : String) : Option FieldMatcher := (FieldMatcher.new (fun _ => true) Levels.zero (bs t)).1

/-! ## C14 -/

/-- **C14** subfield matchers: with operands that have the values `x` and `y`,
the combinations have the values given by the truth tables. -/
theorem C14_sub (E : Env) (o : Opts) (a b : SubMatcher) (sf : List Subfield) (x y : Bool)
    (ha : a.eval E o sf = some x) (hb : b.eval E o sf = some y) :
    (a.bitand b).eval E o sf = some (x && y) ∧ (a.bitor b).eval E o sf = some (x || y) ∧
    (a.bitxor b).eval E o sf = some (x != y) ∧ (a.bitnot).eval E o sf = some (!x) ∧
    (a.bitandAssign b).eval E o sf = some (x && y) ∧
    (a.bitorAssign b).eval E o sf = some (x || y) ∧
    (a.bitxorAssign b).eval E o sf = some (x != y) := by
  have h1 := congrFun (SubMatcher.eval_bitand E o a b) sf
  have h2 := congrFun (SubMatcher.eval_bitor E o a b) sf
  have h3 := congrFun (SubMatcher.eval_bitxor E o a b) sf
  have h4 := congrFun (SubMatcher.eval_bitnot E o a) sf
  simp only [dAnd, dOr, dXor, dNot, ha, hb] at h1 h2 h3 h4
  have h5 : (a.bitandAssign b).eval E o sf = (a.bitand b).eval E o sf := rfl
  have h6 : (a.bitorAssign b).eval E o sf = (a.bitor b).eval E o sf := rfl
  have h7 : (a.bitxorAssign b).eval E o sf = (a.bitxor b).eval E o sf := rfl
  rw [h5, h6, h7, h1, h2, h3, h4]
  cases x <;> cases y <;> simp

/-- **C14** subfield matchers, also when an operand panics: `&` and `|` look at
the right operand only if needed, `^` at both. -/
theorem C14_sub_panic (E : Env) (o : Opts) (a b : SubMatcher) :
    (a.bitand b).eval E o = dAnd (a.eval E o) (b.eval E o) ∧
    (a.bitor b).eval E o = dOr (a.eval E o) (b.eval E o) ∧
    (a.bitxor b).eval E o = dXor (a.eval E o) (b.eval E o) ∧
    (a.bitnot).eval E o = dNot (a.eval E o) :=
  ⟨SubMatcher.eval_bitand E o a b, SubMatcher.eval_bitor E o a b, SubMatcher.eval_bitxor E o a b,
    SubMatcher.eval_bitnot E o a⟩

/-- **C14** field and record matchers. -/
theorem C14_record (E : Env) (o : Opts) (a b : RecordMatcher) (r : Record) (x y : Bool)
    (ha : a.isMatch E o r = some x) (hb : b.isMatch E o r = some y) :
    RecordMatcher.isMatch E o (a.bitand b) r = some (x && y) ∧
    RecordMatcher.isMatch E o (a.bitor b) r = some (x || y) ∧
    RecordMatcher.isMatch E o (a.bitxor b) r = some (x != y) ∧
    RecordMatcher.isMatch E o (a.bitnot) r = some (!x) ∧
    RecordMatcher.isMatch E o (a.bitandAssign b) r = some (x && y) ∧
    RecordMatcher.isMatch E o (a.bitorAssign b) r = some (x || y) ∧
    RecordMatcher.isMatch E o (a.bitxorAssign b) r = some (x != y) := by
  unfold RecordMatcher.isMatch at *
  have h1 := congrFun (FieldMatcher.eval_bitand E o a b) r
  have h2 := congrFun (FieldMatcher.eval_bitor E o a b) r
  have h3 := congrFun (FieldMatcher.eval_bitxor E o a b) r
  have h4 := congrFun (FieldMatcher.eval_bitnot E o a) r
  simp only [dAnd, dOr, dXor, dNot, ha, hb] at h1 h2 h3 h4
  have h5 : (a.bitandAssign b).eval E o r = (a.bitand b).eval E o r := rfl
  have h6 : (a.bitorAssign b).eval E o r = (a.bitor b).eval E o r := rfl
  have h7 : (a.bitxorAssign b).eval E o r = (a.bitxor b).eval E o r := rfl
  rw [h5, h6, h7, h1, h2, h3, h4]
  cases x <;> cases y <;> simp

/-- **C14** field matchers, also when an operand panics. -/
theorem C14_field_panic (E : Env) (o : Opts) (a b : FieldMatcher) :
    (a.bitand b).eval E o = dAnd (a.eval E o) (b.eval E o) ∧
    (a.bitor b).eval E o = dOr (a.eval E o) (b.eval E o) ∧
    (a.bitxor b).eval E o = dXor (a.eval E o) (b.eval E o) ∧
    (a.bitnot).eval E o = dNot (a.eval E o) :=
  ⟨FieldMatcher.eval_bitand E o a b, FieldMatcher.eval_bitor E o a b,
    FieldMatcher.eval_bitxor E o a b, FieldMatcher.eval_bitnot E o a⟩

example : (do
    let a ← subM "a? || b?"
    let b ← subM "c?"
    (a.bitand b).eval toyEnv ⟨false⟩ [⟨0x61, []⟩]) = some false := by decide +kernel
example : (do
    let a ← fldM "012A? || 013A?"
    let b ← fldM "014A?"
    (a.bitand b).eval toyEnv ⟨false⟩ [⟨bs "012A", none, [⟨0x61, []⟩]⟩]) = some false := by
  decide +kernel

/-! ## C15 -/

/-- a text parses to a matcher, in some state of the group counters -/
def ParsesTo (rx : Bytes → Bool) (t : Bytes) (m : RecordMatcher) : Prop :=
  ∃ s s', FieldMatcher.new rx s t = (some m, s')

/-- a builder call with parsed predicates -/
inductive Call where
  | and (ms : List RecordMatcher)
  | or (ms : List RecordMatcher)
  | not (ms : List RecordMatcher)

def Call.matchers : Call → List RecordMatcher
  | .and ms | .or ms | .not ms => ms

/-- the call is the parsed form of the builder call -/
def CallParses (rx : Bytes → Bool) : BuilderCall → Call → Prop
  | .and ts, .and ms => All2 (ParsesTo rx) ts ms
  | .or ts, .or ms => All2 (ParsesTo rx) ts ms
  | .not ts, .not ms => All2 (ParsesTo rx) ts ms
  | _, _ => False

/-- what a chain of calls means: `P` is what holds so far -/
def CallsHold (H : RecordMatcher → Prop) : List Call → Prop → Prop
  | [], P => P
  | .and ms :: cs, P => CallsHold H cs (P ∧ ∀ m ∈ ms, H m)
  | .or ms :: cs, P => CallsHold H cs (P ∨ ∃ m ∈ ms, H m)
  | .not ms :: cs, P => CallsHold H cs (P ∧ ∀ m ∈ ms, ¬ H m)

attribute [local irreducible] FieldMatcher.new

theorem builderLoop_nil (rx f s m) : builderLoop rx f [] s m = (some m, s) := rfl

theorem builderLoop_cons (rx f t ts s m) : builderLoop rx f (t :: ts) s m =
    match FieldMatcher.new rx s t with
    | (some p, s') => builderLoop rx f ts s' (f m p)
    | (none, s') => (none, s') := rfl

theorem builderCalls_cons (rx c cs s m) : builderCalls rx (c :: cs) s m =
    match BuilderCall.run rx c s m with
    | (some m', s') => builderCalls rx cs s' m'
    | (none, s') => (none, s') := rfl

theorem builderLoop_spec {rx f} : ∀ {ts s m m' s'}, builderLoop rx f ts s m = (some m', s') →
    ∃ ms, All2 (ParsesTo rx) ts ms ∧ m' = ms.foldl f m := by
  intro ts
  induction ts with
  | nil =>
    intro s m m' s' h
    simp only [builderLoop_nil, Prod.mk.injEq, Option.some.injEq] at h
    exact ⟨[], .nil, by simp [h.1]⟩
  | cons t ts ih =>
    intro s m m' s' h
    rw [builderLoop_cons] at h
    generalize hp : FieldMatcher.new rx s t = x at h
    obtain ⟨_ | p, s1⟩ := x
    · simp at h
    · obtain ⟨ms, h1, h2⟩ := ih h
      exact ⟨p :: ms, .cons ⟨s, s1, hp⟩ h1, by simp [h2]⟩

section
variable (E : Env) (o : Opts) (r : Record)

theorem fold_and (ms : List FieldMatcher) : ∀ m : FieldMatcher, (∃ b, m.eval E o r = some b) →
    (∀ p ∈ ms, ∃ b, p.eval E o r = some b) →
    (∃ b, (ms.foldl FieldMatcher.bitandAssign m).eval E o r = some b) ∧
    ((ms.foldl FieldMatcher.bitandAssign m).eval E o r = some true ↔
      m.eval E o r = some true ∧ ∀ p ∈ ms, p.eval E o r = some true) := by
  induction ms with
  | nil => intro m hm _; exact ⟨hm, by simp⟩
  | cons p ms ih =>
    intro m hm hp
    obtain ⟨b, hb⟩ := hm
    obtain ⟨c, hc⟩ := hp p (by simp)
    have e : (m.bitandAssign p).eval E o r = some (b && c) := (C14_record E o m p r b c hb hc).2.2.2.2.1
    obtain ⟨h1, h2⟩ := ih (m.bitandAssign p) ⟨_, e⟩ (fun q hq => hp q (by simp [hq]))
    refine ⟨h1, ?_⟩
    rw [List.foldl_cons, h2, e, hb]
    simp [hc, and_assoc]

theorem fold_or (ms : List FieldMatcher) : ∀ m : FieldMatcher, (∃ b, m.eval E o r = some b) →
    (∀ p ∈ ms, ∃ b, p.eval E o r = some b) →
    (∃ b, (ms.foldl FieldMatcher.bitorAssign m).eval E o r = some b) ∧
    ((ms.foldl FieldMatcher.bitorAssign m).eval E o r = some true ↔
      m.eval E o r = some true ∨ ∃ p ∈ ms, p.eval E o r = some true) := by
  induction ms with
  | nil => intro m hm _; exact ⟨hm, by simp⟩
  | cons p ms ih =>
    intro m hm hp
    obtain ⟨b, hb⟩ := hm
    obtain ⟨c, hc⟩ := hp p (by simp)
    have e : (m.bitorAssign p).eval E o r = some (b || c) :=
      (C14_record E o m p r b c hb hc).2.2.2.2.2.1
    obtain ⟨h1, h2⟩ := ih (m.bitorAssign p) ⟨_, e⟩ (fun q hq => hp q (by simp [hq]))
    refine ⟨h1, ?_⟩
    rw [List.foldl_cons, h2, e, hb]
    simp [hc, or_assoc]

theorem fold_not (ms : List FieldMatcher) : ∀ m : FieldMatcher, (∃ b, m.eval E o r = some b) →
    (∀ p ∈ ms, ∃ b, p.eval E o r = some b) →
    (∃ b, (ms.foldl (fun m p => FieldMatcher.bitandAssign m p.bitnot) m).eval E o r = some b) ∧
    ((ms.foldl (fun m p => FieldMatcher.bitandAssign m p.bitnot) m).eval E o r = some true ↔
      m.eval E o r = some true ∧ ∀ p ∈ ms, ¬ p.eval E o r = some true) := by
  induction ms with
  | nil => intro m hm _; exact ⟨hm, by simp⟩
  | cons p ms ih =>
    intro m hm hp
    obtain ⟨b, hb⟩ := hm
    obtain ⟨c, hc⟩ := hp p (by simp)
    have e1 : (p.bitnot).eval E o r = some (!c) := (C14_record E o p p r c c hc hc).2.2.2.1
    have e : (m.bitandAssign p.bitnot).eval E o r = some (b && !c) :=
      (C14_record E o m p.bitnot r b (!c) hb e1).2.2.2.2.1
    obtain ⟨h1, h2⟩ := ih (m.bitandAssign p.bitnot) ⟨_, e⟩ (fun q hq => hp q (by simp [hq]))
    refine ⟨h1, ?_⟩
    rw [List.foldl_cons, h2, e, hb]
    simp [hc, and_assoc]

theorem builderCalls_spec {rx} : ∀ {cs s m m' s'}, builderCalls rx cs s m = (some m', s') →
    ∃ ps, All2 (CallParses rx) cs ps ∧ ∀ (E : Env) (o : Opts) (r : Record),
      (∃ b, m.eval E o r = some b) → (∀ c ∈ ps, ∀ p ∈ c.matchers, ∃ b, p.eval E o r = some b) →
      (∃ b, m'.eval E o r = some b) ∧
      (m'.eval E o r = some true ↔
        CallsHold (fun p => p.eval E o r = some true) ps (m.eval E o r = some true)) := by
  intro cs
  induction cs with
  | nil =>
    intro s m m' s' h
    simp only [builderCalls, Prod.mk.injEq, Option.some.injEq] at h
    obtain ⟨rfl, _⟩ := h
    exact ⟨[], .nil, fun E o r hm _ => ⟨hm, Iff.rfl⟩⟩
  | cons c cs ih =>
    intro s m m' s' h
    rw [builderCalls_cons] at h
    split at h
    · rename_i m1 s1 h1
      obtain ⟨ps, hps, key⟩ := ih h
      cases c with
      | and ts =>
        obtain ⟨ms, h2, rfl⟩ := builderLoop_spec (f := FieldMatcher.bitandAssign) h1
        refine ⟨.and ms :: ps, .cons h2 hps, fun E o r hm hp => ?_⟩
        obtain ⟨t1, t2⟩ := fold_and E o r ms m hm (hp (.and ms) (by simp))
        have := key E o r t1 (fun c hc => hp c (by simp [hc]))
        rwa [t2] at this
      | or ts =>
        obtain ⟨ms, h2, rfl⟩ := builderLoop_spec (f := FieldMatcher.bitorAssign) h1
        refine ⟨.or ms :: ps, .cons h2 hps, fun E o r hm hp => ?_⟩
        obtain ⟨t1, t2⟩ := fold_or E o r ms m hm (hp (.or ms) (by simp))
        have := key E o r t1 (fun c hc => hp c (by simp [hc]))
        rwa [t2] at this
      | not ts =>
        obtain ⟨ms, h2, rfl⟩ := builderLoop_spec
          (f := fun m p => FieldMatcher.bitandAssign m p.bitnot) h1
        refine ⟨.not ms :: ps, .cons h2 hps, fun E o r hm hp => ?_⟩
        obtain ⟨t1, t2⟩ := fold_not E o r ms m hm (hp (.not ms) (by simp))
        have := key E o r t1 (fun c hc => hp c (by simp [hc]))
        rwa [t2] at this
    · simp at h

end

/-- **C15** any chain of builder calls: the matcher built holds iff the base
does, modified by the calls in their order. -/
theorem C15_calls (rx : Bytes → Bool) (s s' : Levels) (base : Bytes) (cs : List BuilderCall)
    (m : RecordMatcher) (h : RecordMatcher.build rx s base cs = (some m, s')) :
    ∃ mb ps, ParsesTo rx base mb ∧ All2 (CallParses rx) cs ps ∧
      ∀ (E : Env) (o : Opts) (r : Record), RegexOk rx E o →
        (∃ b, m.isMatch E o r = some b) ∧
        (m.isMatch E o r = some true ↔
          CallsHold (fun p => p.isMatch E o r = some true) ps (mb.isMatch E o r = some true)) := by
  unfold RecordMatcher.build at h
  split at h
  · rename_i mb s1 hb
    obtain ⟨ps, h1, h2⟩ := builderCalls_spec h
    refine ⟨mb, ps, ⟨_, _, hb⟩, h1, fun E o r hr => h2 E o r ?_ ?_⟩
    · exact fldExprText_total hr (fieldMatcher_new_sound E o hb) r
    · intro c hc p hp
      obtain ⟨c', hc', hcc⟩ := h1.mem_right c hc
      have hall : ∀ {ts : List Bytes} {ms : List RecordMatcher}, All2 (ParsesTo rx) ts ms →
          ∀ p ∈ ms, ∃ t, ParsesTo rx t p := fun hf p hp => by
        obtain ⟨t, _, ht⟩ := hf.mem_right p hp
        exact ⟨t, ht⟩
      have : ∃ t, ParsesTo rx t p := by
        cases c' <;> cases c <;> simp only [CallParses] at hcc <;> exact hall hcc p hp
      obtain ⟨t, s2, s3, ht⟩ := this
      exact fldExprText_total hr (fieldMatcher_new_sound E o ht) r
  · simp at h

/-- **C15** the order used by the command line: `--and`, `--or`, `--not`. -/
theorem C15_builder (rx : Bytes → Bool) (s s' : Levels) (base : Bytes)
    (ands ors nots : List Bytes) (m : RecordMatcher)
    (h : RecordMatcher.build rx s base [.and ands, .or ors, .not nots] = (some m, s')) :
    ∃ mb mas mos mns, ParsesTo rx base mb ∧ All2 (ParsesTo rx) ands mas ∧
      All2 (ParsesTo rx) ors mos ∧ All2 (ParsesTo rx) nots mns ∧
      ∀ (E : Env) (o : Opts) (r : Record), RegexOk rx E o →
        (∃ b, m.isMatch E o r = some b) ∧
        (m.isMatch E o r = some true ↔
          ((mb.isMatch E o r = some true ∧ ∀ p ∈ mas, RecordMatcher.isMatch E o p r = some true) ∨
            ∃ p ∈ mos, RecordMatcher.isMatch E o p r = some true) ∧
          ∀ p ∈ mns, ¬ RecordMatcher.isMatch E o p r = some true) := by
  obtain ⟨mb, ps, h1, h2, h3⟩ := C15_calls rx s s' base _ m h
  rcases h2 with _ | @⟨_, pa, _, _, ha, _ | @⟨_, po, _, _, ho, _ | @⟨_, pn, _, _, hn, _ | _⟩⟩⟩
  cases pa <;> simp only [CallParses] at ha
  cases po <;> simp only [CallParses] at ho
  cases pn <;> simp only [CallParses] at hn
  exact ⟨mb, _, _, _, h1, ha, ho, hn, h3⟩

theorem new_fld {rx : Bytes → Bool} {s s' : Levels} {t : Bytes} {m : FieldMatcher}
    (h : FieldMatcher.new rx s t = (some m, s')) : s'.fld = 0 := by
  unfold FieldMatcher.new TParser.parseAll at h
  split at h
  · rename_i a s1 hp
    simp only [Prod.mk.injEq, Option.some.injEq] at h
    rw [← h.2]
    unfold pFieldMatcher at hp
    dsimp only at hp
    split at hp
    · simp only [Prod.mk.injEq] at hp
      rw [← hp.2]; rfl
    · simp at hp
  · simp at h

/-- **C15** an error is returned only if some text does not parse: the first one with the counters as they
are, or another one with the counter of the groups of fields at zero. -/
theorem C15_error (rx : Bytes → Bool) (s s' : Levels) (base : Bytes) (cs : List BuilderCall)
    (h : RecordMatcher.build rx s base cs = (none, s')) :
    ∃ t s1 s2, FieldMatcher.new rx s1 t = (none, s2) ∧ (t = base ∧ s1 = s ∨ s1.fld = 0 ∧
      ∃ c ∈ cs, t ∈ (match c with | .and ts => ts | .or ts => ts | .not ts => ts)) := by
  have loop : ∀ f ts (s : Levels) m s', s.fld = 0 → builderLoop rx f ts s m = (none, s') →
      ∃ t ∈ ts, ∃ s1 s2, FieldMatcher.new rx s1 t = (none, s2) ∧ s1.fld = 0 := by
    intro f ts
    induction ts with
    | nil => intro s m s' h0 h; simp [builderLoop_nil] at h
    | cons t ts ih =>
      intro s m s' h0 h
      rw [builderLoop_cons] at h
      generalize hp : FieldMatcher.new rx s t = x at h
      obtain ⟨_ | p, s1⟩ := x
      · exact ⟨t, by simp, s, s1, hp, h0⟩
      · obtain ⟨t', h1, h2⟩ := ih _ _ _ (new_fld hp) h
        exact ⟨t', by simp [h1], h2⟩
  have keep : ∀ f ts (s : Levels) m m' s', s.fld = 0 → builderLoop rx f ts s m = (some m', s') → s'.fld = 0 := by
    intro f ts
    induction ts with
    | nil =>
      intro s m m' s' h0 h
      rw [builderLoop_nil] at h
      simp only [Prod.mk.injEq] at h
      rw [← h.2]; exact h0
    | cons t ts ih =>
      intro s m m' s' h0 h
      rw [builderLoop_cons] at h
      generalize hp : FieldMatcher.new rx s t = x at h
      obtain ⟨_ | p, s1⟩ := x
      · simp at h
      · exact ih _ _ _ _ (new_fld hp) h
  have calls : ∀ (cs : List BuilderCall) (s : Levels) m s', s.fld = 0 → builderCalls rx cs s m = (none, s') →
      ∃ t s1 s2, FieldMatcher.new rx s1 t = (none, s2) ∧ s1.fld = 0 ∧
      ∃ c ∈ cs, t ∈ (match c with | .and ts => ts | .or ts => ts | .not ts => ts) := by
    intro cs
    induction cs with
    | nil => intro s m s' h0 h; simp [builderCalls] at h
    | cons c cs ih =>
      intro s m s' h0 h
      rw [builderCalls_cons] at h
      split at h
      · rename_i m' s1 h1
        have hk : s1.fld = 0 := by
          cases c with
          | and ts => exact keep _ _ _ _ _ _ h0 h1
          | or ts => exact keep _ _ _ _ _ _ h0 h1
          | not ts => exact keep _ _ _ _ _ _ h0 h1
        obtain ⟨t, s2, s3, h2, h4, c', h5, h6⟩ := ih _ _ _ hk h
        exact ⟨t, s2, s3, h2, h4, c', by simp [h5], h6⟩
      · rename_i s2 h2
        cases c with
        | and ts =>
          obtain ⟨t, h3, s3, s4, h4, h5⟩ := loop _ _ _ _ _ h0 h2
          exact ⟨t, s3, s4, h4, h5, .and ts, by simp, h3⟩
        | or ts =>
          obtain ⟨t, h3, s3, s4, h4, h5⟩ := loop _ _ _ _ _ h0 h2
          exact ⟨t, s3, s4, h4, h5, .or ts, by simp, h3⟩
        | not ts =>
          obtain ⟨t, h3, s3, s4, h4, h5⟩ := loop _ _ _ _ _ h0 h2
          exact ⟨t, s3, s4, h4, h5, .not ts, by simp, h3⟩
  unfold RecordMatcher.build at h
  split at h
  · rename_i m0 s0 hm
    obtain ⟨t, s1, s2, h1, h2⟩ := calls _ _ _ _ (new_fld hm) h
    exact ⟨t, s1, s2, h1, .inr h2⟩
  · rename_i s2 h2
    exact ⟨base, s, s2, h2, .inl ⟨rfl, rfl⟩⟩

example : (RecordMatcher.build (fun _ => true) Levels.zero (bs "012A?")
      [.and [bs "013A?", bs "014A?"], .or [bs "015A?"], .not [bs "016A?"]]).1.bind
    (fun m => RecordMatcher.isMatch toyEnv ⟨false⟩ m [⟨bs "015A", none, []⟩]) = some true := by decide +kernel
example : (RecordMatcher.build (fun _ => true) Levels.zero (bs "012A?")
      [.and [bs "013A?", bs "014A?"], .or [bs "015A?"], .not [bs "016A?"]]).1.bind
    (fun m => RecordMatcher.isMatch toyEnv ⟨false⟩ m [⟨bs "015A", none, []⟩, ⟨bs "016A", none, []⟩]) =
    some false := by decide +kernel

/-! ## C17 -/

/-- the negated operator -/
def negOp : RelOp → RelOp
  | .eq => .ne
  | .ne => .eq
  | .startsWith => .startsNotWith
  | .startsNotWith => .startsWith
  | .endsWith => .endsNotWith
  | .endsNotWith => .endsWith
  | op => op

/-- the operators with a negated form -/
def HasNeg (op : RelOp) : Prop :=
  op = .eq ∨ op = .ne ∨ op = .startsWith ∨ op = .startsNotWith ∨ op = .endsWith ∨ op = .endsNotWith

theorem setOf_self (codes : Bytes) : SetOf codes (fun b => b ∈ codes) := fun _ => Iff.rfl

/-- **C17** `ANY codes op x` and `ALL codes op x` on the subfields of a field. -/
theorem C17_relation (E : Env) (o : Opts) (codes : Bytes) (op : RelOp) (hop : StrOp op)
    (x raw : Bytes) (sf : List Subfield) :
    ((SubSingle.relation .any codes op x raw).eval E o sf = some true ↔
      ∃ s ∈ sf, s.code ∈ codes ∧ RelHolds E o op x s.value) ∧
    ((SubSingle.relation .all codes op x raw).eval E o sf = some true ↔
      ∀ s ∈ sf, s.code ∈ codes → RelHolds E o op x s.value) ∧
    (∀ q, (SubSingle.relation q codes op x raw).eval E o sf ≠ none) := by
  obtain ⟨f, h1, h2⟩ := relCheck_some (E := E) (o := o) (strOk_iff.2 hop) x
  have h3 : ∀ q, (SubSingle.relation q codes op x raw).eval E o sf =
      truth (Quant q (fun b => b ∈ codes) (RelHolds E o op x) sf) := by
    intro q
    simp only [SubSingle.eval, h1]
    exact run_truth (setOf_self codes) q h2 sf
  refine ⟨?_, ?_, ?_⟩
  · rw [h3, truth_eq_true]; exact Iff.rfl
  · rw [h3, truth_eq_true]; exact Iff.rfl
  · intro q; rw [h3]; simp [truth]

/-- **C17** the list operators. -/
theorem C17_lists (E : Env) (o : Opts) (codes : Bytes) (xs : List Bytes) (inv : Bool) (raw : Bytes)
    (sf : List Subfield) :
    ((SubSingle.isIn .any codes xs inv raw).eval E o sf = some true ↔
      ∃ s ∈ sf, s.code ∈ codes ∧ ((∃ x ∈ xs, fold E o s.value = fold E o x) ↔ inv = false)) ∧
    ((SubSingle.isIn .all codes xs inv raw).eval E o sf = some true ↔
      ∀ s ∈ sf, s.code ∈ codes → ((∃ x ∈ xs, fold E o s.value = fold E o x) ↔ inv = false)) ∧
    ((SubSingle.contains .any codes xs raw).eval E o sf = some true ↔
      ∃ s ∈ sf, s.code ∈ codes ∧ ∃ x ∈ xs, ∃ y z, fold E o s.value = y ++ fold E o x ++ z) ∧
    ((SubSingle.contains .all codes xs raw).eval E o sf = some true ↔
      ∀ s ∈ sf, s.code ∈ codes → ∃ x ∈ xs, ∃ y z, fold E o s.value = y ++ fold E o x ++ z) := by
  have key : ∀ v, SubSingle.inCheck E o xs inv v = true ↔
      ((∃ x ∈ xs, fold E o v = fold E o x) ↔ inv = false) := by
    intro v
    rw [inCheck_iff]
    cases inv <;> simp
  have h1 : ∀ q, (SubSingle.isIn q codes xs inv raw).eval E o sf =
      truth (Quant q (fun b => b ∈ codes)
        (fun v => (∃ x ∈ xs, fold E o v = fold E o x) ↔ inv = false) sf) :=
    fun q => run_truth (setOf_self codes) q key sf
  have h2 : ∀ q, (SubSingle.contains q codes xs raw).eval E o sf =
      truth (Quant q (fun b => b ∈ codes)
        (fun v => ∃ x ∈ xs, ∃ y z, fold E o v = y ++ fold E o x ++ z) sf) :=
    fun q => run_truth (setOf_self codes) q (containsCheck_iff E o xs) sf
  rw [h1, h1, h2, h2, truth_eq_true, truth_eq_true, truth_eq_true, truth_eq_true]
  exact ⟨Iff.rfl, Iff.rfl, Iff.rfl, Iff.rfl⟩

/-- **C17** regular expressions, provided they compile. -/
theorem C17_regex (E : Env) (o : Opts) (codes re : Bytes) (inv : Bool) (raw : Bytes)
    (f : Bytes → Bool) (hf : E.regex o.caseIgnore re = some f) (sf : List Subfield) :
    ((SubSingle.regex .any codes re inv raw).eval E o sf = some true ↔
      ∃ s ∈ sf, s.code ∈ codes ∧ f s.value = !inv) ∧
    ((SubSingle.regex .all codes re inv raw).eval E o sf = some true ↔
      ∀ s ∈ sf, s.code ∈ codes → f s.value = !inv) := by
  have key : ∀ v, (if inv then !f v else f v) = true ↔ f v = !inv := by
    intro v; cases inv <;> simp
  have h1 : ∀ q, (SubSingle.regex q codes re inv raw).eval E o sf =
      truth (Quant q (fun b => b ∈ codes) (fun v => f v = !inv) sf) := by
    intro q
    simp only [SubSingle.eval, hf]
    exact run_truth (setOf_self codes) q (f := fun v => if inv then !f v else f v) key sf
  rw [h1, h1, truth_eq_true, truth_eq_true]
  exact ⟨Iff.rfl, Iff.rfl⟩

/-- **C17** sets of regular expressions, provided they compile. -/
theorem C17_regex_set (E : Env) (o : Opts) (codes : Bytes) (res : List Bytes) (inv : Bool)
    (raw : Bytes) (f : Bytes → Bool) (hf : E.regexSet o.caseIgnore res = some f)
    (sf : List Subfield) :
    ((SubSingle.regexSet .any codes res inv raw).eval E o sf = some true ↔
      ∃ s ∈ sf, s.code ∈ codes ∧ f s.value = !inv) ∧
    ((SubSingle.regexSet .all codes res inv raw).eval E o sf = some true ↔
      ∀ s ∈ sf, s.code ∈ codes → f s.value = !inv) := by
  have key : ∀ v, (if inv then !f v else f v) = true ↔ f v = !inv := by
    intro v; cases inv <;> simp
  have h1 : ∀ q, (SubSingle.regexSet q codes res inv raw).eval E o sf =
      truth (Quant q (fun b => b ∈ codes) (fun v => f v = !inv) sf) := by
    intro q
    simp only [SubSingle.eval, hf]
    exact run_truth (setOf_self codes) q (f := fun v => if inv then !f v else f v) key sf
  rw [h1, h1, truth_eq_true, truth_eq_true]
  exact ⟨Iff.rfl, Iff.rfl⟩

/-- **C17** nothing selected: `ALL` holds, `ANY` does not. -/
theorem C17_vacuous (E : Env) (o : Opts) (codes : Bytes) (sf : List Subfield)
    (h : ∀ s ∈ sf, s.code ∉ codes) (op : RelOp) (x raw : Bytes) (xs : List Bytes) (inv : Bool) :
    (SubSingle.relation .all codes op x raw).eval E o sf = some true ∧
    (SubSingle.relation .any codes op x raw).eval E o sf = some false ∧
    (SubSingle.isIn .all codes xs inv raw).eval E o sf = some true ∧
    (SubSingle.isIn .any codes xs inv raw).eval E o sf = some false ∧
    (SubSingle.contains .all codes xs raw).eval E o sf = some true ∧
    (SubSingle.contains .any codes xs raw).eval E o sf = some false := by
  have : SubSingle.pick codes sf = [] := by
    unfold SubSingle.pick
    rw [List.filter_eq_nil_iff]
    intro s hs
    simp [h s hs]
  simp [SubSingle.eval, this, Quantifier.run, anyP, allP]

/-- **C17** `ALL x op v` is the negation of `ANY x (negated op) v`. -/
theorem C17_dual (E : Env) (o : Opts) (codes : Bytes) (op : RelOp) (hop : HasNeg op)
    (x raw raw' : Bytes) (sf : List Subfield) :
    (SubSingle.relation .all codes op x raw).eval E o sf =
      ((SubSingle.relation .any codes (negOp op) x raw').eval E o sf).map (!·) := by
  have h1 : StrOp op := by rcases hop with rfl | rfl | rfl | rfl | rfl | rfl <;> simp [StrOp]
  have h2 : StrOp (negOp op) := by
    rcases hop with rfl | rfl | rfl | rfl | rfl | rfl <;> simp [StrOp, negOp]
  have h3 : ∀ v, RelHolds E o op x v ↔ ¬ RelHolds E o (negOp op) x v := by
    intro v
    rcases hop with rfl | rfl | rfl | rfl | rfl | rfl <;> simp only [RelHolds, negOp] <;>
      first | exact Iff.rfl | exact Classical.not_not.symm
  obtain ⟨-, a2, a3⟩ := C17_relation E o codes op h1 x raw sf
  obtain ⟨b1, -, b3⟩ := C17_relation E o codes (negOp op) h2 x raw' sf
  have a4 := a3 .all
  have b4 := b3 .any
  have key : (SubSingle.relation .all codes op x raw).eval E o sf = some true ↔
      ¬ (SubSingle.relation .any codes (negOp op) x raw').eval E o sf = some true := by
    rw [a2, b1]
    simp only [h3]
    constructor
    · rintro h ⟨s, hs, hc, hv⟩; exact h s hs hc hv
    · intro h s hs hc hv; exact h ⟨s, hs, hc, hv⟩
  generalize (SubSingle.relation .all codes op x raw).eval E o sf = p at *
  generalize (SubSingle.relation .any codes (negOp op) x raw').eval E o sf = q at *
  rcases p with _ | _ | _ <;> rcases q with _ | _ | _ <;>
    first | exact absurd rfl a4 | exact absurd rfl b4 | rfl | simp at key

/-- **C17** the same for `in` and `not in`, and for regular expressions. -/
theorem C17_dual_in (E : Env) (o : Opts) (codes : Bytes) (xs : List Bytes) (inv : Bool)
    (raw raw' : Bytes) (sf : List Subfield) :
    (SubSingle.isIn .all codes xs inv raw).eval E o sf =
      ((SubSingle.isIn .any codes xs (!inv) raw').eval E o sf).map (!·) := by
  simp only [SubSingle.eval, Quantifier.run]
  rw [allP_some (fun s : Subfield => SubSingle.inCheck E o xs inv s.value),
    anyP_some (fun s : Subfield => SubSingle.inCheck E o xs (!inv) s.value),
    Option.map_some, List.all_eq_not_any_not]
  have : ∀ s : Subfield, (!SubSingle.inCheck E o xs inv s.value) =
      SubSingle.inCheck E o xs (!inv) s.value := fun s => by
    unfold SubSingle.inCheck
    simp only
    cases inv <;> simp
  simp only [this]

/-- **C17** field level: `ANY` is "some selected field", `ALL` "every selected
field"; nothing selected makes `ALL` true. -/
theorem C17_field (E : Env) (o : Opts) (t : TagMatcher) (oc : OccMatcher) (m : SubMatcher)
    (ht : ∀ sf, ∃ b, m.eval E o sf = some b) (raw : Bytes) (fs : List Field) :
    ((FieldSingle.subfields .any t oc m raw).eval E o fs = some true ↔
      ∃ f ∈ fs, (t.isMatch f.tag = true ∧ oc.isMatch f.occ = true) ∧
        m.eval E o f.subfields = some true) ∧
    ((FieldSingle.subfields .all t oc m raw).eval E o fs = some true ↔
      ∀ f ∈ fs, (t.isMatch f.tag = true ∧ oc.isMatch f.occ = true) →
        m.eval E o f.subfields = some true) ∧
    (∀ q, (FieldSingle.subfields q t oc m raw).eval E o fs ≠ none) := by
  obtain ⟨g, hg⟩ : ∃ g : List Subfield → Bool, ∀ sf, m.eval E o sf = some (g sf) :=
    ⟨fun sf => (m.eval E o sf).getD false, fun sf => by obtain ⟨b, hb⟩ := ht sf; simp [hb]⟩
  simp only [FieldSingle.eval, hg, Quantifier.run]
  refine ⟨?_, ?_, ?_⟩
  · rw [anyP_some (fun f : Field => g f.subfields)]
    simp [fieldSel, and_assoc]
  · rw [allP_some (fun f : Field => g f.subfields)]
    simp only [Option.some.injEq, List.all_eq_true, List.mem_filter, fieldSel, Bool.and_eq_true,
      and_imp]
  · intro q
    cases q
    · simp only []; rw [allP_some (fun f : Field => g f.subfields)]; simp
    · simp only []; rw [anyP_some (fun f : Field => g f.subfields)]; simp

/-- **C17** field level: `ALL sel{m}` is the negation of `ANY sel{!(m)}`, also
when the evaluation panics. -/
theorem C17_field_dual (E : Env) (o : Opts) (t : TagMatcher) (oc : OccMatcher) (m : SubMatcher)
    (raw raw' : Bytes) (fs : List Field) :
    (FieldSingle.subfields .all t oc m raw).eval E o fs =
      ((FieldSingle.subfields .any t oc m.bitnot raw').eval E o fs).map (!·) := by
  simp only [FieldSingle.eval, Quantifier.run, SubMatcher.eval_bitnot]
  generalize fs.filter (fieldSel t oc) = l
  induction l with
  | nil => rfl
  | cons f l ih =>
    rw [allP, anyP, dNot]
    generalize hx : m.eval E o f.subfields = x
    rcases x with _ | _ | _
    · rfl
    · rfl
    · exact ih

example : (subM "ALL a == 'x'").bind (·.eval toyEnv ⟨false⟩ [⟨0x61, bs "x"⟩, ⟨0x62, bs "y"⟩]) =
    some true := by decide +kernel
example : (subM "ALL [ab] == 'x'").bind (·.eval toyEnv ⟨false⟩ [⟨0x61, bs "x"⟩, ⟨0x62, bs "y"⟩]) =
    some false := by decide +kernel
example : (subM "c != 'x'").bind (·.eval toyEnv ⟨false⟩ [⟨0x61, bs "x"⟩, ⟨0x62, bs "y"⟩]) =
    some false := by decide +kernel
example : (fldM "ALL 012A{a?}").bind (·.eval toyEnv ⟨false⟩
    [⟨bs "012A", none, [⟨0x61, []⟩]⟩, ⟨bs "012A", none, []⟩]) = some false := by decide +kernel

/-! ## C18 -/

/-- **C18** `#codes op n` compares the number of subfields with one of the codes. -/
theorem C18_subfields (E : Env) (o : Opts) (codes : Bytes) (op : RelOp) (hop : NumOp op) (n : Nat)
    (raw : Bytes) (sf : List Subfield) :
    ∃ b, (SubSingle.card codes op n raw).eval E o sf = some b ∧
      (b = true ↔ NumHolds op ((sf.filter (fun s => s.code ∈ codes)).length) n) := by
  have h := cardCheck_some (usizeOk_iff.2 hop) (SubSingle.pick codes sf).length n
  refine ⟨_, h, ?_⟩
  simp only [decide_eq_true_eq]
  have : SubSingle.pick codes sf = sf.filter (fun s => s.code ∈ codes) := by
    unfold SubSingle.pick
    congr 1
    funext s
    simp
  rw [this]

/-- **C18** `#tag/occ{m} op n` compares the number of selected fields with a
true `m` (all selected ones without `m`). -/
theorem C18_fields (E : Env) (o : Opts) (t : TagMatcher) (oc : OccMatcher) (m : Option SubMatcher)
    (ht : ∀ sm, m = some sm → ∀ sf, ∃ b, sm.eval E o sf = some b) (op : RelOp) (hop : NumOp op)
    (n : Nat) (raw : Bytes) (fs : List Field) :
    ∃ b, (FieldCard.mk t oc m op n raw).eval E o fs = some b ∧
      (b = true ↔ NumHolds op ((fs.filter (fun f => t.isMatch f.tag && oc.isMatch f.occ &&
        (match m with
         | some sm => sm.eval E o f.subfields == some true
         | none => true))).length) n) := by
  have key : countP (fun f =>
      match m with
      | some sm => if fieldSel t oc f then sm.eval E o f.subfields else some false
      | none => some (fieldSel t oc f)) fs =
      some ((fs.filter (fun f => t.isMatch f.tag && oc.isMatch f.occ &&
        (match m with
         | some sm => sm.eval E o f.subfields == some true
         | none => true))).length) := by
    induction fs with
    | nil => rfl
    | cons f fs ih =>
      rw [countP, ih, List.filter_cons]
      cases m with
      | none =>
        have e : fieldSel t oc f = (t.isMatch f.tag && oc.isMatch f.occ) := rfl
        simp only [e, Option.map_some, Bool.and_true]
        generalize (t.isMatch f.tag && oc.isMatch f.occ) = z
        cases z <;> rfl
      | some sm =>
        obtain ⟨b, hb⟩ := ht sm rfl f.subfields
        have e : fieldSel t oc f = (t.isMatch f.tag && oc.isMatch f.occ) := rfl
        simp only [e, hb]
        generalize (t.isMatch f.tag && oc.isMatch f.occ) = z
        cases z <;> cases b <;> rfl
  have h := cardCheck_some (usizeOk_iff.2 hop) ((fs.filter (fun f => t.isMatch f.tag &&
    oc.isMatch f.occ && (match m with
         | some sm => sm.eval E o f.subfields == some true
         | none => true))).length) n
  have h' : (FieldCard.mk t oc m op n raw).eval E o fs = truth (NumHolds op
      ((fs.filter (fun f => t.isMatch f.tag && oc.isMatch f.occ && (match m with
         | some sm => sm.eval E o f.subfields == some true
         | none => true))).length) n) := by
    unfold FieldCard.eval
    cases m <;> (simp only at key h ⊢; rw [key]; exact h)
  exact ⟨_, h', by simp⟩

/-- **C18** exactly one of `<`, `==`, `>` holds; `>=`, `!=`, `<=` are their
negations.  `c` is the matcher with a given operator. -/
theorem C18_trichotomy (E : Env) (o : Opts) (codes : Bytes) (n : Nat) (raw : RelOp → Bytes)
    (sf : List Subfield) :
    let c := fun op => (SubSingle.card codes op n (raw op)).eval E o sf
    ((c .lt = some true ∧ c .eq = some false ∧ c .gt = some false) ∨
     (c .lt = some false ∧ c .eq = some true ∧ c .gt = some false) ∨
     (c .lt = some false ∧ c .eq = some false ∧ c .gt = some true)) ∧
    c .ge = (c .lt).map (!·) ∧ c .ne = (c .eq).map (!·) ∧ c .le = (c .gt).map (!·) := by
  simp only [SubSingle.eval, SubSingle.cardCheck]
  generalize (SubSingle.pick codes sf).length = k
  refine ⟨?_, ?_, ?_, ?_⟩
  · rcases Nat.lt_trichotomy k n with h | h | h
    · left; simp; omega
    · right; left; simp; omega
    · right; right; simp; omega
  · simp only [Option.map_some, Option.some.injEq]
    by_cases h : k < n
    · simp [h]
    · simp [h]; omega
  · simp [bne]
  · simp only [Option.map_some, Option.some.injEq]
    by_cases h : k > n
    · simp [h]
    · simp [h]; omega

/-- **C18** the same on field level. -/
theorem C18_trichotomy_fields (E : Env) (o : Opts) (t : TagMatcher) (oc : OccMatcher)
    (m : Option SubMatcher) (ht : ∀ sm, m = some sm → ∀ sf, ∃ b, sm.eval E o sf = some b)
    (n : Nat) (raw : RelOp → Bytes) (fs : List Field) :
    let c := fun op => (FieldCard.mk t oc m op n (raw op)).eval E o fs
    ((c .lt = some true ∧ c .eq = some false ∧ c .gt = some false) ∨
     (c .lt = some false ∧ c .eq = some true ∧ c .gt = some false) ∨
     (c .lt = some false ∧ c .eq = some false ∧ c .gt = some true)) ∧
    c .ge = (c .lt).map (!·) ∧ c .ne = (c .eq).map (!·) ∧ c .le = (c .gt).map (!·) := by
  intro c
  obtain ⟨k, hk⟩ : ∃ k : Nat, ∀ op, NumOp op → ∃ b, c op = some b ∧ (b = true ↔ NumHolds op k n) :=
    ⟨_, fun op hop => C18_fields E o t oc m ht op hop n (raw op) fs⟩
  obtain ⟨b1, e1, h1⟩ := hk .lt (by simp [NumOp])
  obtain ⟨b2, e2, h2⟩ := hk .eq (by simp [NumOp])
  obtain ⟨b3, e3, h3⟩ := hk .gt (by simp [NumOp])
  obtain ⟨b4, e4, h4⟩ := hk .ge (by simp [NumOp])
  obtain ⟨b5, e5, h5⟩ := hk .ne (by simp [NumOp])
  obtain ⟨b6, e6, h6⟩ := hk .le (by simp [NumOp])
  rw [e1, e2, e3, e4, e5, e6]
  simp only [NumHolds] at h1 h2 h3 h4 h5 h6
  have t := Nat.lt_trichotomy k n
  cases b1 <;> cases b2 <;> cases b3 <;> cases b4 <;> cases b5 <;> cases b6 <;>
    simp at h1 h2 h3 h4 h5 h6 ⊢ <;> omega

/-- **C18** a parsed cardinality matcher has a number operator: the branch
`unreachable!()` is not reached, whatever the counts. -/
theorem C18_parsed (i r : Bytes) (m : SubSingle) (h : pSubCard i = some (m, r)) :
    ∃ codes op n raw, m = .card codes op n raw ∧ NumOp op ∧
      ∀ k, SubSingle.cardCheck op k n ≠ none := by
  have key : Parser.Reads pSubCard (fun m _ => ∃ codes op n raw, m = .card codes op n raw ∧
      op.usizeOk = true) := by
    unfold pSubCard
    refine (((wsByte_reads 0x23).preceded (wsCodes_reads.seq ((pRelOp_reads.padded.verify _).seq
      pUsize_reads))).withTaken.map _).mono ?_
    rintro m t ⟨⟨⟨cs, op, n⟩, raw⟩, rfl, ⟨_, t1, t2, rfl, h1, t3, t4, rfl, h2, t5, t6, rfl,
      ⟨h3, h4⟩, h5⟩, _⟩
    exact ⟨cs, op, n, raw, rfl, h4⟩
  obtain ⟨_, _, codes, op, n, raw, rfl, h1⟩ := key _ _ _ h
  refine ⟨codes, op, n, raw, rfl, usizeOk_iff.1 h1, fun k => ?_⟩
  rw [cardCheck_some h1]; simp [truth]

/-- **C18** the same for cardinality matchers on fields. -/
theorem C18_parsed_fields (rx : Bytes → Bool) (s s' : Levels) (i r : Bytes) (m : FieldCard)
    (h : pFieldCard rx s i = (some (m, r), s')) :
    NumOp m.op ∧ ∀ k, SubSingle.cardCheck m.op k m.value ≠ none := by
  have key : TParser.Sound (pFieldCard rx) (fun m _ => m.op.usizeOk = true) := by
    unfold pFieldCard
    refine (((wsByte_sound 0x23).preceded (pTagMatcher_reads.ws.lift.seq (pOccMatcher_reads.ws.lift.seq
      ((((wsByte_sound 0x7B).delimited (pSubMatcher_sound rx toyEnv ⟨false⟩) (wsByte_sound 0x7D)).opt).seq
        ((pRelOp_reads.padded.verify _).seq pUsize_reads).lift)))).withTaken.map _).mono ?_
    rintro m t ⟨⟨⟨tm, om, sm, op, n⟩, raw⟩, rfl, ⟨_, t1, t2, rfl, h1, t3, t4, rfl, _, t5, t6, rfl,
      _, t7, t8, rfl, h8, t9, t10, rfl, ⟨h9, h10⟩, _⟩, -⟩
    exact h10
  obtain ⟨_, _, h1⟩ := key _ _ _ _ _ h
  refine ⟨usizeOk_iff.1 h1, fun k => ?_⟩
  rw [cardCheck_some h1]; simp [truth]

example : (subM "#[ab] >= 2").bind (·.eval toyEnv ⟨false⟩
    [⟨0x61, bs "x"⟩, ⟨0x62, bs "y"⟩, ⟨0x63, []⟩]) = some true := by decide +kernel
example : (fldM "#012A/*{a?} == 1").bind (·.eval toyEnv ⟨false⟩
    [⟨bs "012A", none, [⟨0x61, []⟩]⟩, ⟨bs "012A", none, []⟩]) = some true := by decide +kernel

/-! ## C19 -/

/-- **C19** `x =? [v1..vn]` is the disjunction of the `x =? vi`, for a value. -/
theorem C19_contains (E : Env) (o : Opts) (xs : List Bytes) (v : Bytes) :
    SubSingle.containsCheck E o xs v = true ↔ ∃ x ∈ xs, SubSingle.containsCheck E o [x] v = true := by
  simp only [containsCheck_iff]; simp

/-- **C19** `x in [v1..vn]` is the disjunction of the `x == vi` where case is
significant, and in general for values as long as the items. -/
theorem C19_in_partial (E : Env) (o : Opts) (xs : List Bytes) (v : Bytes)
    (h : o.caseIgnore = false ∨ ∀ x ∈ xs, x.length = v.length) :
    SubSingle.inCheck E o xs false v = true ↔
      ∃ x ∈ xs, SubSingle.relCheck E o .eq x v = some true := by
  rw [inCheck_iff]
  simp only [SubSingle.relCheck, Option.some.injEq, compare_iff, Bool.false_eq_true, if_false]
  rcases h with h | h
  · simp only [fold_cs E o h]
    constructor
    · rintro ⟨x, hx, rfl⟩; exact ⟨_, hx, rfl, rfl⟩
    · rintro ⟨x, hx, _, rfl⟩; exact ⟨_, hx, rfl⟩
  · constructor
    · rintro ⟨x, hx, he⟩; exact ⟨x, hx, (h x hx).symm, he⟩
    · rintro ⟨x, hx, _, he⟩; exact ⟨x, hx, he⟩

/-- **C19** one direction always: `==` for an item implies `in`. -/
theorem C19_in_of_eq (E : Env) (o : Opts) (xs : List Bytes) (v : Bytes)
    (h : ∃ x ∈ xs, SubSingle.relCheck E o .eq x v = some true) :
    SubSingle.inCheck E o xs false v = true := by
  rw [inCheck_iff]
  simp only [SubSingle.relCheck, Option.some.injEq, compare_iff] at h
  obtain ⟨x, hx, _, he⟩ := h
  exact ⟨x, hx, he⟩

/-- **C19** fails for ignored case: the Kelvin sign `U+212A` has the lower case
`k`; `in ['k']` accepts it, `== 'k'` compares the lengths first and does not. -/
theorem C19_in_false (E : Env) (h1 : E.lower [0xE2, 0x84, 0xAA] = [0x6B])
    (h2 : E.lower [0x6B] = [0x6B]) :
    SubSingle.inCheck E ⟨true⟩ [[0x6B]] false [0xE2, 0x84, 0xAA] = true ∧
    ¬ ∃ x ∈ [[0x6B]], SubSingle.relCheck E ⟨true⟩ .eq x [0xE2, 0x84, 0xAA] = some true := by
  constructor
  · simp [SubSingle.inCheck, h1, h2]
  · simp [SubSingle.relCheck, SubSingle.compare]

/-- **C19** order and duplicates do not matter. -/
theorem C19_set (E : Env) (o : Opts) (xs ys : List Bytes) (h : ∀ x, x ∈ xs ↔ x ∈ ys) (inv : Bool)
    (v : Bytes) : SubSingle.inCheck E o xs inv v = SubSingle.inCheck E o ys inv v ∧
      SubSingle.containsCheck E o xs v = SubSingle.containsCheck E o ys v := by
  constructor
  · rw [Bool.eq_iff_iff, inCheck_iff, inCheck_iff]; simp [h]
  · rw [Bool.eq_iff_iff, containsCheck_iff, containsCheck_iff]; simp [h]

/-- **C19** on a field: `ANY x in [..]` is the disjunction of the `ANY x == vi`
(case significant). -/
theorem C19_field (E : Env) (codes : Bytes) (xs : List Bytes) (raw : Bytes) (raws : Bytes → Bytes)
    (sf : List Subfield) :
    (SubSingle.isIn .any codes xs false raw).eval E ⟨false⟩ sf = some true ↔
      ∃ x ∈ xs, (SubSingle.relation .any codes .eq x (raws x)).eval E ⟨false⟩ sf = some true := by
  rw [(C17_lists E ⟨false⟩ codes xs false raw sf).1]
  simp only [(C17_relation E ⟨false⟩ codes .eq (by simp [StrOp]) _ _ sf).1, RelHolds, fold]
  simp
  constructor
  · rintro ⟨s, h1, h2, h3⟩; exact ⟨_, h3, s, h1, h2, rfl, rfl⟩
  · rintro ⟨x, h3, s, h1, h2, _, h4⟩; exact ⟨s, h1, h2, h4 ▸ h3⟩

example : (subM "a in ['x', 'y', 'x']").bind (·.eval toyEnv ⟨false⟩ [⟨0x61, bs "y"⟩]) =
    some true := by decide +kernel
example : (subM "a in 'xy'").bind (·.eval toyEnv ⟨true⟩ [⟨0x61, bs "Y"⟩]) =
    some true := by decide +kernel

/-! ## C22 -/

/-- **C22** evaluation of a parsed subfield matcher yields a truth value,
provided the accepted regular expressions compile also with the options in force
and as sets.  (Missing: this can fail by the size limit of the regex crate.) -/
theorem C22_sub_partial (rx : Bytes → Bool) (s s' : Levels) (text : Bytes) (m : SubMatcher)
    (h : SubMatcher.new rx s text = (some m, s')) (E : Env) (o : Opts) (hr : RegexOk rx E o)
    (sf : List Subfield) : ∃ b, m.eval E o sf = some b :=
  subExprText_total hr (subMatcher_new_sound E o h) sf

/-- **C22** the same for record matchers. -/
theorem C22_record_partial (rx : Bytes → Bool) (s s' : Levels) (text : Bytes) (m : RecordMatcher)
    (h : FieldMatcher.new rx s text = (some m, s')) (E : Env) (o : Opts) (hr : RegexOk rx E o)
    (r : Record) : ∃ b, m.isMatch E o r = some b :=
  fldExprText_total hr (fieldMatcher_new_sound E o h) r

/-- regular expressions that compile, but not with `case_insensitive(true)` -/
def bigEnv : Env := { toyEnv with regex := fun ci re => if ci then none else toyEnv.regex ci re }

/-- **C22** without that assumption it is false: a regular expression accepted by
the parser need not compile with `case_insensitive(true)`; then the evaluation
panics. -/
theorem C22_false : ∃ m, (∀ re, (bigEnv.regex false re).isSome = true) ∧
    (SubMatcher.new (fun re => (bigEnv.regex false re).isSome) Levels.zero (bs "a =~ 'x'")).1 = some m ∧
    m.eval bigEnv ⟨true⟩ [⟨0x61, bs "x"⟩] = none :=
  ⟨.single (.regex .any [0x61] (bs "x") false (bs "a =~ 'x'")), fun _ => rfl, by decide +kernel,
    by decide +kernel⟩

example : RegexOk (fun _ => true) toyEnv ⟨true⟩ := ⟨fun _ _ => rfl, fun _ _ => rfl⟩

/-! ## C47 -/

/-- **C47** case-sensitive relations. -/
theorem C47_relations (E : Env) (x v : Bytes) :
    (SubSingle.relCheck E ⟨false⟩ .eq x v = some true ↔ v = x) ∧
    (SubSingle.relCheck E ⟨false⟩ .startsWith x v = some true ↔ ∃ z, v = x ++ z) ∧
    (SubSingle.relCheck E ⟨false⟩ .endsWith x v = some true ↔ ∃ z, v = z ++ x) ∧
    (SubSingle.containsCheck E ⟨false⟩ [x] v = true ↔ ∃ y z, v = y ++ x ++ z) := by
  have f : ∀ u, fold E ⟨false⟩ u = u := fun u => rfl
  refine ⟨?_, ?_, ?_, ?_⟩
  · simp only [SubSingle.relCheck, Option.some.injEq, compare_iff, f]
    exact ⟨fun h => h.2, fun h => ⟨by rw [h], h⟩⟩
  · simp only [SubSingle.relCheck, Option.some.injEq, startsWith_iff, f]
  · simp only [SubSingle.relCheck, Option.some.injEq, endsWith_iff, f]
  · simp only [containsCheck_iff, f]; simp

/-- **C47** the negated operators are complements, in both case modes. -/
theorem C47_negated (E : Env) (o : Opts) (x v : Bytes) (xs : List Bytes) :
    SubSingle.relCheck E o .ne x v = (SubSingle.relCheck E o .eq x v).map (!·) ∧
    SubSingle.relCheck E o .startsNotWith x v = (SubSingle.relCheck E o .startsWith x v).map (!·) ∧
    SubSingle.relCheck E o .endsNotWith x v = (SubSingle.relCheck E o .endsWith x v).map (!·) ∧
    SubSingle.inCheck E o xs true v = !SubSingle.inCheck E o xs false v := by
  refine ⟨rfl, ?_, ?_, ?_⟩
  · simp [SubSingle.relCheck, startsWith_invert]
  · simp [SubSingle.relCheck, endsWith_invert]
  · simp [SubSingle.inCheck]

/-- **C47** `==` implies the other relations, in both case modes. -/
theorem C47_eq_implies (E : Env) (o : Opts) (x v : Bytes)
    (h : SubSingle.relCheck E o .eq x v = some true) :
    SubSingle.relCheck E o .startsWith x v = some true ∧
    SubSingle.relCheck E o .endsWith x v = some true ∧
    SubSingle.containsCheck E o [x] v = true := by
  simp only [SubSingle.relCheck, Option.some.injEq, compare_iff] at h
  refine ⟨?_, ?_, ?_⟩
  · simp only [SubSingle.relCheck, Option.some.injEq, startsWith_iff]; exact ⟨[], by simp [h.2]⟩
  · simp only [SubSingle.relCheck, Option.some.injEq, endsWith_iff]; exact ⟨[], by simp [h.2]⟩
  · rw [containsCheck_iff]; exact ⟨x, by simp, [], [], by simp [h.2]⟩

example : SubSingle.relCheck toyEnv ⟨false⟩ .startsWith (bs "ab") (bs "abc") = some true ∧
    SubSingle.relCheck toyEnv ⟨false⟩ .eq (bs "ab") (bs "abc") = some false ∧
    SubSingle.relCheck toyEnv ⟨true⟩ .eq (bs "aB") (bs "Ab") = some true := by decide +kernel

/-! ## C48 -/

/-- **C48** an accepted code list denotes the listed codes and ranges. -/
theorem C48_sound (text codes : Bytes) (h : Parser.parseAll pCodes text = some codes) :
    ∃ S, CodesText text S ∧ ∀ c, c ∈ codes ↔ S c := by
  obtain ⟨t, he, S, h1, h2⟩ := pCodes_reads _ _ _ (Parser.parseAll_eq_some.1 h)
  rw [List.append_nil] at he
  exact ⟨S, he ▸ h1, h2⟩

/-- **C48** every code list is accepted, with its meaning. -/
theorem C48_complete (text : Bytes) (S : ByteSet) (h : CodesText text S) :
    ∃ codes, Parser.parseAll pCodes text = some codes ∧ ∀ c, c ∈ codes ↔ S c := by
  obtain ⟨cs, h1, h2⟩ := pCodes_complete h
  replace h1 := h1 []
  rw [List.append_nil] at h1
  exact ⟨cs, Parser.parseAll_eq_some.2 h1, h2⟩

/-- **C48** a text denotes one set only. -/
theorem C48_unique (text : Bytes) (S S' : ByteSet) (h : CodesText text S) (h' : CodesText text S') :
    S = S' := by
  obtain ⟨cs, h1, h2⟩ := C48_complete text S h
  obtain ⟨cs', h1', h2'⟩ := C48_complete text S' h'
  rw [h1] at h1'
  obtain rfl := Option.some.inj h1'
  funext c
  exact propext ((h2 c).symm.trans (h2' c))

/-- **C48** a code list selects exactly the subfields with a denoted code, in
their order. -/
theorem C48_select (text codes : Bytes) (h : Parser.parseAll pCodes text = some codes)
    (sf : List Subfield) : ∃ S, CodesText text S ∧ (SubSingle.pick codes sf).Sublist sf ∧
      ∀ s, s ∈ SubSingle.pick codes sf ↔ s ∈ sf ∧ S s.code := by
  obtain ⟨S, h1, h2⟩ := C48_sound text codes h
  exact ⟨S, h1, List.filter_sublist, fun s => mem_pick h2⟩

/-- **C48** `*` stands for the 62 codes. -/
theorem C48_all : Parser.parseAll pCodes (bs "*") = some allCodes ∧ allCodes.length = 62 ∧
    allCodes.Nodup ∧ ∀ c, c ∈ allCodes ↔ IsCode c := by
  refine ⟨by decide +kernel, by decide +kernel, by decide +kernel, fun c => ?_⟩
  exact iff_of_eq (congrFun mem_allCodes c)

example : Parser.parseAll pCodes (bs "[a-c9]") = some (bs "abc9") := by decide +kernel
example : ∃ S, CodesText (bs "[a-c9]") S ∧ S 0x62 ∧ ¬ S 0x64 := by
  obtain ⟨S, h1, h2⟩ := C48_sound (bs "[a-c9]") (bs "abc9") (by decide +kernel)
  exact ⟨S, h1, (h2 _).1 (by decide +kernel), fun h => absurd ((h2 _).2 h) (by decide +kernel)⟩

end Pica.Props
