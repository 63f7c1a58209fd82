import Verif.Spec.RuleFile
import Verif.Lemmas.IndepFmt

/-! Lemmas about reading rule files. -/

namespace Pica
open Spec

section
variable {α β : Type}

@[simp] theorem De.bind_eq {x : De α} {f : α → De β} {s : Levels} {b : β × Levels} :
    (x >>= f) s = some b ↔ ∃ a s', x s = some (a, s') ∧ f a s' = some b := by
  show (x s).bind _ = _ ↔ _
  cases x s with
  | none => simp
  | some y =>
    obtain ⟨a, s1⟩ := y
    constructor
    · intro h; exact ⟨a, s1, rfl, h⟩
    · rintro ⟨a', s', h1, h2⟩; cases h1; exact h2

@[simp] theorem De.pure_eq {a b : α} {s s' : Levels} : (pure a : De α) s = some (b, s') ↔ a = b ∧ s = s' := by
  show some (a, s) = _ ↔ _
  simp

@[simp] theorem De.fail_eq {s : Levels} {b : α × Levels} : (De.fail : De α) s = some b ↔ False := by
  simp [De.fail]

@[simp] theorem De.ofOption_eq {x : Option α} {s s' : Levels} {b : α} :
    De.ofOption x s = some (b, s') ↔ x = some b ∧ s = s' := by
  cases x with
  | none => simp [De.ofOption]
  | some a => simp [De.ofOption]

@[simp] theorem De.parse_eq {new : Levels → Bytes → Option α × Levels} {t : Bytes} {s s' : Levels} {a : α} :
    De.parse new t s = some (a, s') ↔ new s t = (some a, s') := by
  unfold De.parse
  split
  · rename_i h; rw [h]; simp
  · rename_i h; rw [h]; simp

theorem TTable.get_mem {t : TTable} {k : Bytes} {v : TVal} (h : t.get k = some v) : (k, v) ∈ t := by
  unfold TTable.get at h
  obtain ⟨e, h1, rfl⟩ := Option.map_eq_some_iff.1 h
  have h2 := List.find?_some h1
  have h3 := List.mem_of_find?_eq_some h1
  obtain ⟨k', v⟩ := e
  have : k' = k := by simpa using h2
  subst this
  exact h3

theorem TTable.get_none {t : TTable} {k : Bytes} (h : t.get k = none) : Absent k t := by
  intro v hv
  unfold TTable.get at h
  rw [Option.map_eq_none_iff, List.find?_eq_none] at h
  have := h _ hv
  simp at this

theorem TTable.absent_get {t : TTable} {k : Bytes} (h : Absent k t) : t.get k = none := by
  cases hg : t.get k with
  | none => rfl
  | some v => exact absurd (TTable.get_mem hg) (h v)

theorem find_nodup {L : List (Bytes × α)} {n : Bytes} {d : α} (hn : (L.map (·.1)).Nodup) (h : (n, d) ∈ L) :
    (L.find? (fun e => e.1 == n)).map (·.2) = some d := by
  induction L with
  | nil => simp at h
  | cons e L ih =>
    obtain ⟨k', v'⟩ := e
    rw [List.map_cons, List.nodup_cons] at hn
    by_cases he : k' = n
    · subst he
      rcases List.mem_cons.1 h with h | h
      · cases h; simp
      · exact absurd (List.mem_map.2 ⟨_, h, rfl⟩) hn.1
    · rw [List.find?_cons_of_neg (by simpa using he)]
      refine ih hn.2 ?_
      rcases List.mem_cons.1 h with h | h
      · cases h; exact absurd rfl he
      · exact h

theorem TTable.mem_get {t : TTable} {k : Bytes} {v : TVal} (hn : (t.map (·.1)).Nodup) (h : (k, v) ∈ t) :
    t.get k = some v := find_nodup hn h

/-- what is read is what the value stands for -/
def ReadsAs (d : TVal → De α) (P : TVal → α → Prop) : Prop := ∀ v s a s', d v s = some (a, s') → P v a

/-- what stands for something is read -/
def Takes (d : TVal → De α) (P : TVal → α → Prop) : Prop := ∀ v a, Proper v → P v a → ∀ s, ∃ s', d v s = some (a, s')

theorem required_sound {k d t s} {a : α} {s'} {P} (hd : ReadsAs d P) (h : De.required k d t s = some (a, s')) :
    Given k P t a := by
  unfold De.required at h
  cases hv : t.get k <;> rw [hv] at h <;> dsimp only at h
  case some v => exact ⟨v, TTable.get_mem hv, hd _ _ _ _ h⟩
  case none => simp at h

theorem optional_sound {k d t s} {a : Option α} {s'} {P} (hd : ReadsAs d P) (h : De.optional k d t s = some (a, s')) :
    May k P t a := by
  unfold De.optional at h
  cases hv : t.get k <;> rw [hv] at h <;> dsimp only at h
  case some v =>
    simp only [De.bind_eq, De.pure_eq] at h
    obtain ⟨x, s1, h1, rfl, -⟩ := h
    exact .inl ⟨x, ⟨v, TTable.get_mem hv, hd _ _ _ _ h1⟩, rfl⟩
  case none =>
    simp only [De.pure_eq] at h
    exact .inr ⟨TTable.get_none hv, h.1.symm⟩

theorem default_sound {k d t s} {x a : α} {s'} {P} (hd : ReadsAs d P) (h : De.default k d x t s = some (a, s')) :
    Else k P x t a := by
  unfold De.default at h
  cases hv : t.get k <;> rw [hv] at h <;> dsimp only at h
  case some v => exact .inl ⟨v, TTable.get_mem hv, hd _ _ _ _ h⟩
  case none =>
    simp only [De.pure_eq] at h
    exact .inr ⟨TTable.get_none hv, h.1.symm⟩

theorem required_takes {k d t} {a : α} {P} (hd : Takes d P) (hp : Proper (.table t)) (h : Given k P t a) (s : Levels) :
    ∃ s', De.required k d t s = some (a, s') := by
  obtain ⟨v, h1, h2⟩ := h
  cases hp with
  | table hn hp =>
    unfold De.required
    rw [TTable.mem_get hn h1]
    exact hd v a (hp _ h1) h2 s

theorem optional_takes {k d t} {a : Option α} {P} (hd : Takes d P) (hp : Proper (.table t)) (h : May k P t a) (s : Levels) :
    ∃ s', De.optional k d t s = some (a, s') := by
  unfold De.optional
  rcases h with ⟨x, ⟨v, h1, h2⟩, rfl⟩ | ⟨h1, rfl⟩
  · cases hp with
    | table hn hp =>
      rw [TTable.mem_get hn h1]
      obtain ⟨s', h⟩ := hd v x (hp _ h1) h2 s
      exact ⟨s', by simp [h]⟩
  · rw [TTable.absent_get h1]
    exact ⟨s, rfl⟩

theorem default_takes {k d t} {x a : α} {P} (hd : Takes d P) (hp : Proper (.table t)) (h : Else k P x t a) (s : Levels) :
    ∃ s', De.default k d x t s = some (a, s') := by
  unfold De.default
  rcases h with ⟨v, h1, h2⟩ | ⟨h1, rfl⟩
  · cases hp with
    | table hn hp =>
      rw [TTable.mem_get hn h1]
      exact hd v a (hp _ h1) h2 s
  · rw [TTable.absent_get h1]
    exact ⟨s, rfl⟩

/-! ### values -/

theorem deString_reads : ReadsAs deString IsStr := by
  intro v s a s' h
  cases v <;> simp [deString, IsStr] at h ⊢
  exact h.1

theorem deString_takes : Takes deString IsStr := by
  rintro v a - rfl s
  exact ⟨s, rfl⟩

theorem deBool_reads : ReadsAs deBool IsBool := by
  intro v s a s' h
  cases v <;> simp [deBool, IsBool] at h ⊢
  exact h.1

theorem deBool_takes : Takes deBool IsBool := by
  rintro v a - rfl s
  exact ⟨s, rfl⟩

theorem deNat_reads : ReadsAs deNat IsNat := by
  intro v s a s' h
  cases v with
  | int i =>
    simp only [deNat] at h
    split at h
    · simp only [De.pure_eq] at h
      obtain ⟨rfl, -⟩ := h
      show TVal.int i = .int _
      rw [Int.toNat_of_nonneg (by assumption)]
    · simp at h
  | _ => simp [deNat] at h

theorem deNat_takes : Takes deNat IsNat := by
  rintro v a - rfl s
  refine ⟨s, ?_⟩
  simp [deNat]

theorem deFloat_reads : ReadsAs deFloat IsNumber := by
  intro v s a s' h
  cases v with
  | int i => simp only [deFloat, De.pure_eq] at h; exact .inl ⟨i, rfl, h.1.symm⟩
  | float b => simp only [deFloat, De.pure_eq] at h; exact .inr ⟨b, rfl, h.1.symm⟩
  | _ => simp [deFloat] at h

theorem deFloat_takes : Takes deFloat IsNumber := by
  rintro v a - (⟨i, rfl, rfl⟩ | ⟨b, rfl, rfl⟩) s
  · exact ⟨s, rfl⟩
  · exact ⟨s, rfl⟩

theorem deStrings_reads : ∀ (l : List TVal) s a s', deStrings l s = some (a, s') → l = a.map .str
  | [], s, a, s', h => by
    simp only [deStrings, De.pure_eq] at h
    rw [← h.1]; rfl
  | v :: l, s, a, s', h => by
    simp only [deStrings, De.bind_eq, De.pure_eq] at h
    obtain ⟨x, s1, h1, y, s2, h2, rfl, -⟩ := h
    have e : v = .str x := deString_reads _ _ _ _ h1
    rw [e, deStrings_reads l _ _ _ h2]; rfl

theorem deList_reads : ReadsAs deList IsStrs := by
  intro v s a s' h
  cases v with
  | arr l => exact congrArg TVal.arr (deStrings_reads l _ _ _ h)
  | _ => simp [deList] at h

theorem deList_takes : Takes deList IsStrs := by
  rintro v a - rfl s
  show ∃ s', deStrings (a.map .str) s = _
  refine ⟨s, ?_⟩
  induction a with
  | nil => rfl
  | cons x a ih =>
    simp only [List.map_cons, deStrings, De.bind_eq, De.pure_eq]
    exact ⟨x, s, rfl, a, s, ih, rfl, rfl⟩

theorem deStruct_reads {d : TTable → De α} {P : TTable → α → Prop} (h : ∀ t s a s', d t s = some (a, s') → P t a) :
    ReadsAs (deStruct d) (IsTable P) := by
  intro v s a s' hv
  cases v with
  | table t => exact ⟨t, rfl, h _ _ _ _ hv⟩
  | _ => simp [deStruct] at hv

theorem deStruct_takes {d : TTable → De α} {P : TTable → α → Prop}
    (h : ∀ t a, Proper (.table t) → P t a → ∀ s, ∃ s', d t s = some (a, s')) : Takes (deStruct d) (IsTable P) := by
  rintro v a hv ⟨t, rfl, ht⟩ s
  exact h t a hv ht s

theorem deVariant_eq {names : List (Bytes × α)} {v : TVal} {s s' : Levels} {a : α} :
    deVariant names v s = some (a, s') ↔
      ∃ n, v = .str n ∧ (names.find? (fun e => e.1 == n)).map (·.2) = some a ∧ s = s' := by
  unfold deVariant
  simp only [De.bind_eq, De.ofOption_eq]
  constructor
  · rintro ⟨n, s1, h1, h2, rfl⟩
    cases v <;> simp [deString] at h1
    obtain ⟨rfl, rfl⟩ := h1
    exact ⟨_, rfl, h2, rfl⟩
  · rintro ⟨n, rfl, h2, rfl⟩
    exact ⟨n, s, rfl, h2, rfl⟩

theorem deLevel_reads : ReadsAs deLevel IsLevel := by
  intro v s a s' h
  obtain ⟨n, rfl, h2, -⟩ := deVariant_eq.1 h
  obtain ⟨e, h3, rfl⟩ := Option.map_eq_some_iff.1 h2
  have h4 := List.find?_some h3
  have h5 := List.mem_of_find?_eq_some h3
  have h6 : e.1 = n := by simpa using h4
  subst h6
  simp only [List.mem_cons, List.not_mem_nil, or_false] at h5
  rcases h5 with rfl | rfl | rfl <;> rfl

theorem deLevel_takes : Takes deLevel IsLevel := by
  rintro v a - rfl s
  refine ⟨s, deVariant_eq.2 ⟨_, rfl, ?_, rfl⟩⟩
  cases a <;> decide +kernel

theorem deTermination_reads : ReadsAs deTermination IsTermination := by
  intro v s a s' h
  obtain ⟨n, rfl, h2, -⟩ := deVariant_eq.1 h
  obtain ⟨e, h3, rfl⟩ := Option.map_eq_some_iff.1 h2
  have h4 := List.find?_some h3
  have h5 := List.mem_of_find?_eq_some h3
  have h6 : e.1 = n := by simpa using h4
  subst h6
  simp only [List.mem_cons, List.not_mem_nil, or_false] at h5
  rcases h5 with rfl | rfl <;> rfl

theorem deTermination_takes : Takes deTermination IsTermination := by
  rintro v a - rfl s
  refine ⟨s, deVariant_eq.2 ⟨_, rfl, ?_, rfl⟩⟩
  cases a <;> decide +kernel

theorem deForm_reads : ReadsAs deForm IsForm := by
  intro v s a s' h
  obtain ⟨n, rfl, h2, -⟩ := deVariant_eq.1 h
  obtain ⟨e, h3, rfl⟩ := Option.map_eq_some_iff.1 h2
  have h4 := List.find?_some h3
  have h5 := List.mem_of_find?_eq_some h3
  have h6 : e.1 = n := by simpa using h4
  subst h6
  simp only [List.mem_cons, List.not_mem_nil, or_false] at h5
  rcases h5 with rfl | rfl | rfl | rfl <;> rfl

theorem deForm_takes : Takes deForm IsForm := by
  rintro v a - rfl s
  refine ⟨s, deVariant_eq.2 ⟨_, rfl, ?_, rfl⟩⟩
  cases a <;> decide +kernel

end

section
variable (R : RuleEnv)

theorem dePath_reads : ReadsAs (dePath R) (IsPath (.accepted R.rx)) := by
  intro v s a s' h
  unfold dePath at h
  simp only [De.bind_eq, De.parse_eq] at h
  obtain ⟨x, s1, h1, h2⟩ := h
  exact ⟨x, deString_reads _ _ _ _ h1, s1, s', h2⟩

theorem deQuery_reads : ReadsAs (deQuery R) (IsQuery (.accepted R.rx)) := by
  intro v s a s' h
  unfold deQuery at h
  simp only [De.bind_eq, De.parse_eq] at h
  obtain ⟨x, s1, h1, h2⟩ := h
  exact ⟨x, deString_reads _ _ _ _ h1, s1, s', h2⟩

theorem deMatcher_reads : ReadsAs (deMatcher R) (IsMatcher (.accepted R.rx)) := by
  intro v s a s' h
  unfold deMatcher at h
  simp only [De.bind_eq, De.parse_eq] at h
  obtain ⟨x, s1, h1, h2⟩ := h
  exact ⟨x, deString_reads _ _ _ _ h1, s1, s', h2⟩

theorem dePath_takes : Takes (dePath R) (IsPath (.always R.rx)) := by
  rintro v a - ⟨text, rfl, h⟩ s
  obtain ⟨s', h⟩ := h s
  refine ⟨s', ?_⟩
  unfold dePath
  simp only [De.bind_eq, De.parse_eq]
  exact ⟨text, s, rfl, h⟩

theorem deQuery_takes : Takes (deQuery R) (IsQuery (.always R.rx)) := by
  rintro v a - ⟨text, rfl, h⟩ s
  obtain ⟨s', h⟩ := h s
  refine ⟨s', ?_⟩
  unfold deQuery
  simp only [De.bind_eq, De.parse_eq]
  exact ⟨text, s, rfl, h⟩

theorem deMatcher_takes : Takes (deMatcher R) (IsMatcher (.always R.rx)) := by
  rintro v a - ⟨text, rfl, h⟩ s
  obtain ⟨s', h⟩ := h s
  refine ⟨s', ?_⟩
  unfold deMatcher
  simp only [De.bind_eq, De.parse_eq]
  exact ⟨text, s, rfl, h⟩

theorem deAllowList_reads {t s a s'} (h : deAllowList t s = some (a, s')) : IsList t a := by
  unfold deAllowList at h
  simp only [De.bind_eq, De.pure_eq] at h
  obtain ⟨x, s1, h1, y, s2, h2, rfl, -⟩ := h
  exact ⟨required_sound deString_reads h1, required_sound deString_reads h2⟩

theorem deTarget_reads {t s a s'} (h : deTarget R t s = some (a, s')) : IsTarget (.accepted R.rx) t a := by
  unfold deTarget at h
  simp only [De.bind_eq, De.pure_eq] at h
  obtain ⟨x, s1, h1, y, s2, h2, rfl, -⟩ := h
  exact ⟨required_sound (dePath_reads R) h1, optional_sound (deMatcher_reads R) h2⟩

theorem common_sound {t s th s' s1 ci s1'} (h : deThreshold t s = some (th, s')) (h' : deCase t s1 = some (ci, s1')) :
    Common t th ci := ⟨default_sound deFloat_reads h, default_sound deBool_reads h'⟩

theorem deChecks_reads {t s a s'} (h : deChecks R t s = some (a, s')) :
    ∃ name, Given (bs "check") IsStr t name ∧ Describes R (.accepted R.rx) name t a := by
  unfold deChecks at h
  simp only [De.bind_eq] at h
  obtain ⟨d, s1, h1, h2⟩ := h
  unfold De.required at h1
  cases hv : t.get (bs "check") <;> rw [hv] at h1 <;> dsimp only at h1
  case some v =>
    obtain ⟨n, rfl, h3, rfl⟩ := deVariant_eq.1 h1
    refine ⟨n, ⟨_, TTable.get_mem hv, rfl⟩, ?_⟩
    obtain ⟨e, h4, rfl⟩ := Option.map_eq_some_iff.1 h3
    have h5 := List.find?_some h4
    have h6 := List.mem_of_find?_eq_some h4
    have h7 : e.1 = n := by simpa using h5
    subst h7
    clear h5 h4 h3 h1
    have P := dePath_reads R
    simp only [List.mem_cons, List.not_mem_nil, or_false] at h6
    rcases h6 with rfl | rfl | rfl | rfl | rfl | rfl | rfl | rfl | rfl
    · unfold deAllow at h2
      simp only [De.bind_eq, De.pure_eq] at h2
      obtain ⟨p, _, g1, l, _, g2, th, _, g3, ci, _, g4, rfl, -⟩ := h2
      exact .allow (required_sound P g1) (required_sound (deStruct_reads (P := IsList) fun _ _ _ _ => deAllowList_reads) g2)
        (common_sound g3 g4)
    · unfold deDateTime at h2
      simp only [De.bind_eq, De.pure_eq] at h2
      obtain ⟨p, _, g1, th, _, g3, ci, _, g4, f, _, g5, n, _, g6, rfl, -⟩ := h2
      exact .datetime (required_sound P g1) (common_sound g3 g4) (default_sound deString_reads g5)
        (default_sound deNat_reads g6)
    · unfold deDuplicates at h2
      simp only [De.bind_eq, De.pure_eq] at h2
      obtain ⟨q, _, g1, n, _, g2, th, _, g3, sp, _, g4, ci, _, g5, rfl, -⟩ := h2
      exact .duplicates (required_sound (deQuery_reads R) g1) (default_sound deNat_reads g2) (common_sound g3 g5)
        (default_sound deString_reads g4)
    · unfold deFilter at h2
      simp only [De.bind_eq, De.pure_eq] at h2
      obtain ⟨m, _, g1, th, _, g3, ci, _, g4, i, _, g5, rfl, -⟩ := h2
      exact .filter (required_sound (deMatcher_reads R) g1) (common_sound g3 g4) (default_sound deBool_reads g5)
    · unfold deIsni at h2
      simp only [De.bind_eq, De.pure_eq] at h2
      obtain ⟨p, _, g1, pre, _, g2, th, _, g3, ci, _, g4, rfl, -⟩ := h2
      exact .isni (required_sound P g1) (optional_sound deString_reads g2) (common_sound g3 g4)
    · unfold deIso639 at h2
      simp only [De.bind_eq, De.pure_eq] at h2
      obtain ⟨p, _, g1, th, _, g3, ci, _, g4, rfl, -⟩ := h2
      exact .iso639 (required_sound P g1) (common_sound g3 g4)
    · unfold deJel at h2
      simp only [De.bind_eq, De.pure_eq] at h2
      obtain ⟨p, _, g1, th, _, g3, ci, _, g4, rfl, -⟩ := h2
      exact .jel (required_sound P g1) (common_sound g3 g4)
    · unfold deLink at h2
      simp only [De.bind_eq, De.pure_eq] at h2
      obtain ⟨a, _, g1, b, _, g2, th, _, g3, ci, _, g4, rfl, -⟩ := h2
      exact .link (required_sound (deStruct_reads (P := fun u p => Given (bs "path") (IsPath (.accepted R.rx)) u p) fun _ _ _ _ h => required_sound P h) g1)
        (required_sound (deStruct_reads (P := IsTarget (.accepted R.rx)) fun _ _ _ _ => deTarget_reads R) g2) (common_sound g3 g4)
    · unfold deUnicode at h2
      simp only [De.bind_eq, De.pure_eq] at h2
      obtain ⟨nf, _, g1, rfl, -⟩ := h2
      exact .unicode (optional_sound deForm_reads g1)
  case none => simp at h1

theorem deRule_reads {t s a s'} (h : deRule R t s = some (a, s')) : IsRule R (.accepted R.rx) t a := by
  unfold deRule at h
  simp only [De.bind_eq, De.pure_eq] at h
  obtain ⟨d, _, g1, l, _, g2, tags, _, g3, lv, _, g4, c, _, g5, rfl, -⟩ := h
  exact ⟨⟨d, optional_sound deString_reads g1⟩, ⟨l, optional_sound deString_reads g2⟩,
    optional_sound deList_reads g3, default_sound deLevel_reads g4, deChecks_reads R g5⟩

theorem deRules_reads : ∀ (t : TTable) s a s', deRules R t s = some (a, s') → IsRules R (.accepted R.rx) t a
  | [], s, a, s', h => by
    simp only [deRules, De.pure_eq] at h
    rw [← h.1]; exact .nil
  | (id, v) :: t, s, a, s', h => by
    simp only [deRules, De.bind_eq, De.pure_eq] at h
    obtain ⟨r, s1, h1, l, s2, h2, rfl, -⟩ := h
    exact .cons ⟨rfl, deStruct_reads (P := IsRule R (.accepted R.rx)) (fun _ _ _ _ => deRule_reads R) _ _ _ _ h1⟩ (deRules_reads t _ _ _ h2)

theorem deRuleSet_reads {t s a s'} (h : deRuleSet R t s = some (a, s')) : IsRuleSet R (.accepted R.rx) t a := by
  unfold deRuleSet at h
  simp only [De.bind_eq, De.pure_eq] at h
  obtain ⟨sc, _, g1, f, _, g2, rs, _, g3, rfl, -⟩ := h
  exact ⟨optional_sound (deMatcher_reads R) g1, default_sound deTermination_reads g2,
    default_sound (deStruct_reads (P := IsRules R (.accepted R.rx)) (deRules_reads R)) g3⟩

/-! ### acceptance -/

theorem De.bind_takes {α β : Type} {x : De α} {f : α → De β} {a : α} {b : β} (h : ∀ s, ∃ s', x s = some (a, s'))
    (h' : ∀ s, ∃ s', f a s = some (b, s')) (s : Levels) : ∃ s', (x >>= f) s = some (b, s') := by
  obtain ⟨s1, h1⟩ := h s
  obtain ⟨s2, h2⟩ := h' s1
  exact ⟨s2, by simp only [De.bind_eq]; exact ⟨a, s1, h1, h2⟩⟩

theorem De.pure_takes {α : Type} (a : α) (s : Levels) : ∃ s', (pure a : De α) s = some (a, s') := ⟨s, rfl⟩

theorem deAllowList_takes {t a} (hp : Proper (.table t)) (h : IsList t a) (s : Levels) :
    ∃ s', deAllowList t s = some (a, s') := by
  unfold deAllowList
  refine De.bind_takes (required_takes deString_takes hp h.1) (fun s => ?_) s
  refine De.bind_takes (required_takes deString_takes hp h.2) (fun s => ?_) s
  exact De.pure_takes _ s

theorem deTarget_takes {t a} (hp : Proper (.table t)) (h : IsTarget (.always R.rx) t a) (s : Levels) :
    ∃ s', deTarget R t s = some (a, s') := by
  unfold deTarget
  refine De.bind_takes (required_takes (dePath_takes R) hp h.1) (fun s => ?_) s
  refine De.bind_takes (optional_takes (deMatcher_takes R) hp h.2) (fun s => ?_) s
  exact De.pure_takes _ s

theorem checkNames_nodup : [bs "allow", bs "datetime", bs "duplicates", bs "filter", bs "isni", bs "iso639-2b",
    bs "jelc", bs "link", bs "unicode"].Nodup := by decide +kernel

theorem deChecks_takes {t name c} (hp : Proper (.table t)) (hn : Given (bs "check") IsStr t name)
    (h : Describes R (.always R.rx) name t c) (s : Levels) : ∃ s', deChecks R t s = some (c, s') := by
  have key : ∀ (d : TTable → De RawCheck), (∀ s, ∃ s', d t s = some (c, s')) →
      (name, d) ∈ [(bs "allow", deAllow R), (bs "datetime", deDateTime R),
        (bs "duplicates", deDuplicates R), (bs "filter", deFilter R), (bs "isni", deIsni R),
        (bs "iso639-2b", deIso639 R), (bs "jelc", deJel R), (bs "link", deLink R),
        (bs "unicode", deUnicode R)] →
      ∃ s', deChecks R t s = some (c, s') := by
    intro d hd hname
    unfold deChecks
    refine De.bind_takes (a := d) ?_ hd s
    intro s
    obtain ⟨v, h1, rfl⟩ := hn
    cases hp with
    | table hnd _ =>
      unfold De.required
      rw [TTable.mem_get hnd h1]
      exact ⟨s, deVariant_eq.2 ⟨_, rfl, find_nodup checkNames_nodup hname, rfl⟩⟩
  have P := dePath_takes R
  have T : ∀ {th ci}, Common t th ci → ∀ s, ∃ s', deThreshold t s = some (th, s') :=
    fun h => default_takes deFloat_takes hp h.threshold
  have C : ∀ {th ci}, Common t th ci → ∀ s, ∃ s', deCase t s = some (ci, s') :=
    fun h => default_takes deBool_takes hp h.case
  cases h with
  | @allow _ p x th ci g1 g2 g3 =>
    refine key (deAllow R) (fun s => ?_) (.head _)
    unfold deAllow
    refine De.bind_takes (required_takes P hp g1) (fun s => ?_) s
    refine De.bind_takes (a := x) (required_takes (deStruct_takes (P := IsList) fun _ _ hp => deAllowList_takes hp) hp g2) (fun s => ?_) s
    refine De.bind_takes (T g3) (fun s => ?_) s
    refine De.bind_takes (C g3) (fun s => ?_) s
    exact De.pure_takes _ s
  | datetime g1 g2 g3 g4 =>
    refine key (deDateTime R) (fun s => ?_) (.tail _ (.head _))
    unfold deDateTime
    refine De.bind_takes (required_takes P hp g1) (fun s => ?_) s
    refine De.bind_takes (T g2) (fun s => ?_) s
    refine De.bind_takes (C g2) (fun s => ?_) s
    refine De.bind_takes (default_takes deString_takes hp g3) (fun s => ?_) s
    refine De.bind_takes (default_takes deNat_takes hp g4) (fun s => ?_) s
    exact De.pure_takes _ s
  | duplicates g1 g2 g3 g4 =>
    refine key (deDuplicates R) (fun s => ?_) (.tail _ (.tail _ (.head _)))
    unfold deDuplicates
    refine De.bind_takes (required_takes (deQuery_takes R) hp g1) (fun s => ?_) s
    refine De.bind_takes (default_takes deNat_takes hp g2) (fun s => ?_) s
    refine De.bind_takes (T g3) (fun s => ?_) s
    refine De.bind_takes (default_takes deString_takes hp g4) (fun s => ?_) s
    refine De.bind_takes (C g3) (fun s => ?_) s
    exact De.pure_takes _ s
  | filter g1 g2 g3 =>
    refine key (deFilter R) (fun s => ?_) (.tail _ (.tail _ (.tail _ (.head _))))
    unfold deFilter
    refine De.bind_takes (required_takes (deMatcher_takes R) hp g1) (fun s => ?_) s
    refine De.bind_takes (T g2) (fun s => ?_) s
    refine De.bind_takes (C g2) (fun s => ?_) s
    refine De.bind_takes (default_takes deBool_takes hp g3) (fun s => ?_) s
    exact De.pure_takes _ s
  | isni g1 g2 g3 =>
    refine key (deIsni R) (fun s => ?_) (.tail _ (.tail _ (.tail _ (.tail _ (.head _)))))
    unfold deIsni
    refine De.bind_takes (required_takes P hp g1) (fun s => ?_) s
    refine De.bind_takes (optional_takes deString_takes hp g2) (fun s => ?_) s
    refine De.bind_takes (T g3) (fun s => ?_) s
    refine De.bind_takes (C g3) (fun s => ?_) s
    exact De.pure_takes _ s
  | iso639 g1 g2 =>
    refine key (deIso639 R) (fun s => ?_) (.tail _ (.tail _ (.tail _ (.tail _ (.tail _ (.head _))))))
    unfold deIso639
    refine De.bind_takes (required_takes P hp g1) (fun s => ?_) s
    refine De.bind_takes (T g2) (fun s => ?_) s
    refine De.bind_takes (C g2) (fun s => ?_) s
    exact De.pure_takes _ s
  | jel g1 g2 =>
    refine key (deJel R) (fun s => ?_) (.tail _ (.tail _ (.tail _ (.tail _ (.tail _ (.tail _ (.head _)))))))
    unfold deJel
    refine De.bind_takes (required_takes P hp g1) (fun s => ?_) s
    refine De.bind_takes (T g2) (fun s => ?_) s
    refine De.bind_takes (C g2) (fun s => ?_) s
    exact De.pure_takes _ s
  | @link _ a b th ci g1 g2 g3 =>
    refine key (deLink R) (fun s => ?_) (.tail _ (.tail _ (.tail _ (.tail _ (.tail _ (.tail _ (.tail _ (.head _))))))))
    unfold deLink
    refine De.bind_takes (required_takes (deStruct_takes (P := fun u p => Given (bs "path") (IsPath (.always R.rx)) u p) fun _ _ hp h => required_takes P hp h) hp g1) (fun s => ?_) s
    refine De.bind_takes (a := b) (required_takes (deStruct_takes (P := IsTarget (.always R.rx)) fun _ _ hp => deTarget_takes R hp) hp g2) (fun s => ?_) s
    refine De.bind_takes (T g3) (fun s => ?_) s
    refine De.bind_takes (C g3) (fun s => ?_) s
    exact De.pure_takes _ s
  | unicode g1 =>
    refine key (deUnicode R) (fun s => ?_) (.tail _ (.tail _ (.tail _ (.tail _ (.tail _ (.tail _ (.tail _ (.tail _ (.head _)))))))))
    unfold deUnicode
    refine De.bind_takes (optional_takes deForm_takes hp g1) (fun s => ?_) s
    exact De.pure_takes _ s

theorem deRule_takes {t a} (hp : Proper (.table t)) (h : IsRule R (.always R.rx) t a) (s : Levels) :
    ∃ s', deRule R t s = some (a, s') := by
  obtain ⟨⟨d, h1⟩, ⟨l, h2⟩, h3, h4, name, h5, h6⟩ := h
  unfold deRule
  refine De.bind_takes (optional_takes deString_takes hp h1) (fun s => ?_) s
  refine De.bind_takes (optional_takes deString_takes hp h2) (fun s => ?_) s
  refine De.bind_takes (optional_takes deList_takes hp h3) (fun s => ?_) s
  refine De.bind_takes (default_takes deLevel_takes hp h4) (fun s => ?_) s
  refine De.bind_takes (deChecks_takes R hp h5 h6) (fun s => ?_) s
  exact De.pure_takes _ s

theorem deRules_takes : ∀ (t : TTable) a, (∀ e ∈ t, Proper e.2) → IsRules R (.always R.rx) t a → ∀ s,
    ∃ s', deRules R t s = some (a, s')
  | [], _, _, .nil, s => ⟨s, rfl⟩
  | (id, v) :: t, _, hp, .cons (b := r) ⟨h1, h2⟩ h3, s => by
    obtain ⟨id', r⟩ := r
    dsimp only at h1 h2
    subst h1
    unfold deRules
    refine De.bind_takes (deStruct_takes (P := IsRule R (.always R.rx)) (fun _ _ hp => deRule_takes R hp) v r (hp _ (List.mem_cons_self ..)) h2) (fun s => ?_) s
    refine De.bind_takes (deRules_takes t _ (fun e he => hp e (List.mem_cons_of_mem _ he)) h3) (fun s => ?_) s
    exact De.pure_takes _ s

theorem deRuleSet_takes {t a} (hp : Proper (.table t)) (h : IsRuleSet R (.always R.rx) t a) (s : Levels) :
    ∃ s', deRuleSet R t s = some (a, s') := by
  obtain ⟨h1, h2, h3⟩ := h
  unfold deRuleSet
  refine De.bind_takes (optional_takes (deMatcher_takes R) hp h1) (fun s => ?_) s
  refine De.bind_takes (default_takes deTermination_takes hp h2) (fun s => ?_) s
  refine De.bind_takes (default_takes (deStruct_takes (P := IsRules R (.always R.rx)) (fun t a hp h => ?_)) hp h3) (fun s => ?_) s
  · cases hp with
    | table _ hp => exact deRules_takes R t a hp h
  · exact De.pure_takes _ s

/-! ### keys without a meaning -/

theorem get_insert {a b : TTable} {k k' : Bytes} {v : TVal} (h : k ≠ k') :
    TTable.get (a ++ (k, v) :: b) k' = TTable.get (a ++ b) k' := by
  unfold TTable.get
  rw [List.find?_append, List.find?_append, List.find?_cons_of_neg (by simpa using h)]

/-- reading a rule looks only at the keys of `ruleKeys` -/
theorem deRule_keys {t t' : TTable} (h : ∀ k ∈ ruleKeys, t.get k = t'.get k) : deRule R t = deRule R t' := by
  have req : ∀ {α : Type} {k : Bytes} {d : TVal → De α}, k ∈ ruleKeys → De.required k d t = De.required k d t' :=
    fun hk => by unfold De.required; rw [h _ hk]
  have opt : ∀ {α : Type} {k : Bytes} {d : TVal → De α}, k ∈ ruleKeys → De.optional k d t = De.optional k d t' :=
    fun hk => by unfold De.optional; rw [h _ hk]
  have dfl : ∀ {α : Type} {k : Bytes} {d : TVal → De α} {a : α}, k ∈ ruleKeys →
      De.default k d a t = De.default k d a t' := fun hk => by unfold De.default; rw [h _ hk]
  have k1 : bs "description" ∈ ruleKeys := by decide +kernel
  have k2 : bs "link" ∈ ruleKeys := by decide +kernel
  have k3 : bs "tags" ∈ ruleKeys := by decide +kernel
  have k4 : bs "level" ∈ ruleKeys := by decide +kernel
  have k5 : bs "check" ∈ ruleKeys := by decide +kernel
  have k6 : bs "path" ∈ ruleKeys := by decide +kernel
  have k7 : bs "list" ∈ ruleKeys := by decide +kernel
  have k8 : bs "strsim-threshold" ∈ ruleKeys := by decide +kernel
  have k9 : bs "case-ignore" ∈ ruleKeys := by decide +kernel
  have k10 : bs "format" ∈ ruleKeys := by decide +kernel
  have k11 : bs "offset" ∈ ruleKeys := by decide +kernel
  have k12 : bs "query" ∈ ruleKeys := by decide +kernel
  have k13 : bs "threshold" ∈ ruleKeys := by decide +kernel
  have k14 : bs "separator" ∈ ruleKeys := by decide +kernel
  have k15 : bs "filter" ∈ ruleKeys := by decide +kernel
  have k16 : bs "invert-match" ∈ ruleKeys := by decide +kernel
  have k17 : bs "prefix" ∈ ruleKeys := by decide +kernel
  have k18 : bs "source" ∈ ruleKeys := by decide +kernel
  have k19 : bs "target" ∈ ruleKeys := by decide +kernel
  have k20 : bs "normalization" ∈ ruleKeys := by decide +kernel
  have th : deThreshold t = deThreshold t' := dfl k8
  have ci : deCase t = deCase t' := dfl k9
  have e : deChecks R t = deChecks R t' := by
    unfold deChecks
    rw [req k5]
    funext s
    generalize hx : De.required (bs "check") (deVariant _) t' = x
    show (x s).bind _ = (x s).bind _
    cases hs : x s with
    | none => rfl
    | some y =>
      obtain ⟨d, s1⟩ := y
      show d t s1 = d t' s1
      rw [← hx] at hs
      unfold De.required at hs
      cases hv : t'.get (bs "check") <;> rw [hv] at hs <;> dsimp only at hs
      case none => simp at hs
      case some v =>
        obtain ⟨n, -, h3, -⟩ := deVariant_eq.1 hs
        obtain ⟨e, h4, rfl⟩ := Option.map_eq_some_iff.1 h3
        have h6 := List.mem_of_find?_eq_some h4
        simp only [List.mem_cons, List.not_mem_nil, or_false] at h6
        rcases h6 with rfl | rfl | rfl | rfl | rfl | rfl | rfl | rfl | rfl <;> dsimp only
        · unfold deAllow; rw [req k6, req k7, th, ci]
        · unfold deDateTime; rw [req k6, th, ci, dfl k10, dfl k11]
        · unfold deDuplicates; rw [req k12, dfl k13, th, dfl k14, ci]
        · unfold deFilter; rw [req k15, th, ci, dfl k16]
        · unfold deIsni; rw [req k6, opt k17, th, ci]
        · unfold deIso639; rw [req k6, th, ci]
        · unfold deJel; rw [req k6, th, ci]
        · unfold deLink; rw [req k18, req k19, th, ci]
        · unfold deUnicode; rw [opt k20]
  unfold deRule
  rw [opt k1, opt k2, opt k3, dfl k4, e]

end
end Pica
