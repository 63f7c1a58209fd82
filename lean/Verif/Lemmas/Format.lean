import Verif.Spec.Format
import Verif.Lemmas.Path
import Verif.Base.List

/-! Formats. -/

namespace Pica
open Spec Parser

/-! ## Evaluation -/

theorem stripOverread_eq (v : Bytes) : stripOverread v = v.erase 0x40 := by
  induction v with
  | nil => rfl
  | cons b r ih =>
    rw [stripOverread, List.erase_cons, ih]

theorem modify_modOfCodes (E : FmtEnv) (ls v : Bytes) :
    (modOfCodes ls).modify E v = modified E ls v := by
  have e : ∀ c : Byte, ls.contains c = decide (c ∈ ls) := fun c => by simp
  simp only [Modifier.modify, modOfCodes, modified, e, decide_eq_true_eq]
  have hf : (fun b : Byte => b != 0x20) = (fun b : Byte => decide (b ≠ 0x20)) := by
    funext b; by_cases h : b = 0x20 <;> simp [h]
  rw [hf, stripOverread_eq]
  rfl

theorem modify_default (E : FmtEnv) (v : Bytes) : Modifier.default.modify E v = v := rfl

theorem value_loop (o : FmtOpts) (v : FmtValue) : ∀ (ss : List Subfield) (cnt : Nat) (acc : Bytes),
    FmtValue.loop o v cnt acc ss =
      acc ++ (((ss.filter (fun s => decide (s.code ∈ v.codes))).take (v.bound - cnt)).map (v.part o)).flatten := by
  intro ss
  induction ss with
  | nil => intro cnt acc; simp [FmtValue.loop]
  | cons s ss ih =>
    intro cnt acc
    rw [FmtValue.loop]
    by_cases hb : cnt < v.bound
    · by_cases hc : s.code ∈ v.codes
      · have e : v.bound - cnt = (v.bound - (cnt + 1)) + 1 := by omega
        simp [hb, hc, ih, e]
      · simp [hb, hc, ih]
    · have e : v.bound - cnt = 0 := by omega
      simp [hb, e]

theorem value_run (E : FmtEnv) (o : FmtOpts) (v : FmtValue) (f : Field) :
    v.run E o f = v.modifier.modify E
      (taken o.strip v.codes v.bound (v.pre.getD []) (v.suf.getD []) f) := by
  unfold FmtValue.run taken
  rw [value_loop]
  simp only [List.nil_append, Nat.sub_zero]
  congr 3
  funext s
  unfold FmtValue.part
  rw [stripOverread_eq]
  cases v.pre <;> cases v.suf <;> rfl

section
variable (E : FmtEnv) (o : FmtOpts)

/-- a fragment renders as `g` -/
def RunsTo (fr : Fragments) (g : Field → Bytes) : Prop := ∀ f, fr.run E o f = some (g f)

/-- a fragment renders as `g` and may stand in a group -/
def RunsIn (fr : Fragments) (g : Field → Bytes) : Prop :=
  RunsTo E o fr g ∧ ∀ b m, RunsTo E o (.group fr b m) (fun f => m.modify E (g f))

theorem runsIn_value (v : FmtValue) : RunsIn E o (.value v) (v.run E o) :=
  ⟨fun f => by rw [Fragments.run], fun b m f => by rw [Fragments.run]⟩

theorem runAndThen_eq {fs : List Fragments} {gs : List (Field → Bytes)}
    (h : All2 (RunsTo E o) fs gs) (f : Field) (acc : Bytes) :
    Fragments.runAndThen E o f acc fs = some (acc ++ andThen gs f) := by
  induction h generalizing acc with
  | nil => simp [Fragments.runAndThen, andThen]
  | @cons fr g fs gs h1 _ ih =>
    rw [Fragments.runAndThen, h1 f]
    by_cases hg : g f = []
    · simp [hg, andThen]
    · have hg' : (g f).isEmpty = false := by cases hgf : g f <;> simp_all
      simp only [hg', Bool.false_eq_true, if_false, ih]
      simp [andThen, hg]

theorem runCons_eq {fs : List Fragments} {gs : List (Field → Bytes)}
    (h : All2 (RunsTo E o) fs gs) (f : Field) (acc : Bytes) :
    Fragments.runCons E o f acc fs = some (acc ++ concat gs f) := by
  induction h generalizing acc with
  | nil => simp [Fragments.runCons, concat]
  | @cons fr g fs gs h1 _ ih =>
    rw [Fragments.runCons, h1 f]
    simp only [ih]
    simp [concat]

theorem runsIn_andThen {fs : List Fragments} {gs : List (Field → Bytes)}
    (h : All2 (RunsTo E o) fs gs) : RunsIn E o (.andThen fs) (andThen gs) :=
  ⟨fun f => by rw [Fragments.run, runAndThen_eq E o h]; rfl,
   fun b m f => by rw [Fragments.run, runAndThen_eq E o h]; rfl⟩

theorem runsIn_cons {fs : List Fragments} {gs : List (Field → Bytes)}
    (h : All2 (RunsTo E o) fs gs) : RunsIn E o (.cons fs) (concat gs) :=
  ⟨fun f => by rw [Fragments.run, runCons_eq E o h]; rfl,
   fun b m f => by rw [Fragments.run, runCons_eq E o h]; rfl⟩

/-! ## Texts -/

/-- items with separators, for the lemmas -/
inductive SepItems {α : Type} (R : α → Bytes → Prop) (Q : Bytes → Prop) : List α → Bytes → Prop
  | one {t x} : R x t → SepItems R Q [x] t
  | more {t x s t' xs} : R x t → Q s → SepItems R Q xs t' → SepItems R Q (x :: xs) (t ++ s ++ t')

theorem TParser.Sound.separatedAux {α β : Type} {p : TParser α} {sep : Parser β} {R : α → Bytes → Prop}
    {Q : Bytes → Prop} (hp : TParser.Sound p R) (hs : Reads sep (fun _ t => Q t)) : ∀ n s i xs r s',
    TParser.separatedAux p sep n s i = (some (xs, r), s') →
    ∃ t, i = t ++ r ∧ ((xs = [] ∧ t = []) ∨ ∃ u t', t = u ++ t' ∧ Q u ∧ SepItems R Q xs t') := by
  intro n
  induction n with
  | zero =>
    intro s i xs r s' h
    simp only [TParser.separatedAux, Prod.mk.injEq, Option.some.injEq] at h
    obtain ⟨⟨rfl, rfl⟩, rfl⟩ := h
    exact ⟨[], rfl, .inl ⟨rfl, rfl⟩⟩
  | succ n ih =>
    intro s i xs r s' h
    rw [TParser.separatedAux] at h
    split at h
    · simp only [Prod.mk.injEq, Option.some.injEq] at h
      obtain ⟨⟨rfl, rfl⟩, rfl⟩ := h
      exact ⟨[], rfl, .inl ⟨rfl, rfl⟩⟩
    · rename_i b r1 hb
      split at h
      · simp only [Prod.mk.injEq, Option.some.injEq] at h
        obtain ⟨⟨rfl, rfl⟩, rfl⟩ := h
        exact ⟨[], rfl, .inl ⟨rfl, rfl⟩⟩
      · rename_i a r2 s2 ha
        split at h
        · rename_i as r3 s3 he
          simp only [Prod.mk.injEq, Option.some.injEq] at h
          obtain ⟨⟨rfl, rfl⟩, rfl⟩ := h
          obtain ⟨u, rfl, hu⟩ := hs _ _ _ hb
          obtain ⟨t1, rfl, h1⟩ := hp _ _ _ _ _ ha
          obtain ⟨t2, rfl, h2⟩ := ih _ _ _ _ _ he
          rcases h2 with ⟨rfl, rfl⟩ | ⟨u', t', rfl, h3, h4⟩
          · exact ⟨u ++ t1, by simp, .inr ⟨u, t1, rfl, hu, .one h1⟩⟩
          · exact ⟨u ++ (t1 ++ u' ++ t'), by simp, .inr ⟨u, _, rfl, hu, .more h1 h3 h4⟩⟩
        · simp at h

theorem TParser.Sound.separated {α β : Type} {p : TParser α} {sep : Parser β} {R : α → Bytes → Prop}
    {Q : Bytes → Prop} (min : Nat) (hp : TParser.Sound p R) (hs : Reads sep (fun _ t => Q t)) :
    TParser.Sound (TParser.separated min p sep) (fun xs t => SepItems R Q xs t ∧ min ≤ xs.length) := by
  intro s i xs r s' h
  simp only [TParser.separated] at h
  split at h
  · simp at h
  · rename_i a r1 s1 ha
    split at h
    · rename_i as r2 s2 he
      split at h
      · rename_i hm
        simp only [Prod.mk.injEq, Option.some.injEq] at h
        obtain ⟨⟨rfl, rfl⟩, rfl⟩ := h
        obtain ⟨t1, rfl, h1⟩ := hp _ _ _ _ _ ha
        obtain ⟨t2, rfl, h2⟩ := TParser.Sound.separatedAux hp hs _ _ _ _ _ _ he
        rcases h2 with ⟨rfl, rfl⟩ | ⟨u, t', rfl, h3, h4⟩
        · exact ⟨t1, by simp, .one h1, by simpa using hm⟩
        · exact ⟨t1 ++ u ++ t', by simp, .more h1 h3 h4, by simpa using hm⟩
      · simp at h
    · simp at h

theorem sepItems_and {fs : List Fragments} {t : Bytes}
    (h : SepItems (fun fr t => ∃ g, PartText E o t g ∧ RunsTo E o fr g) (Padded (· = bs "<$>")) fs t) :
    ∃ gs, AndText E o t gs ∧ All2 (RunsTo E o) fs gs := by
  induction h with
  | one h => obtain ⟨g, h1, h2⟩ := h; exact ⟨[g], .one h1, .cons h2 .nil⟩
  | more h hs _ ih =>
    obtain ⟨g, h1, h2⟩ := h
    obtain ⟨gs, h3, h4⟩ := ih
    exact ⟨g :: gs, .more h1 hs h3, .cons h2 h4⟩

theorem sepItems_cons {fs : List Fragments} {t : Bytes}
    (h : SepItems (fun fr t => ∃ g, ConsPartText E o t g ∧ RunsTo E o fr g) (Padded (· = bs "<*>")) fs t) :
    ∃ gs, ConsText E o t gs ∧ All2 (RunsTo E o) fs gs := by
  induction h with
  | one h => obtain ⟨g, h1, h2⟩ := h; exact ⟨[g], .one h1, .cons h2 .nil⟩
  | more h hs _ ih =>
    obtain ⟨g, h1, h2⟩ := h
    obtain ⟨gs, h3, h4⟩ := ih
    exact ⟨g :: gs, .more h1 hs h3, .cons h2 h4⟩

theorem pBound_reads (d : Nat) : Reads (pBound d) (fun n t => BoundText d t n) := by
  unfold pBound
  have he : Reads (fun i => some (d, i) : Parser Nat) (fun n t => n = d ∧ t = []) := by
    intro i a r h
    simp only [Option.some.injEq, Prod.mk.injEq] at h
    obtain ⟨rfl, rfl⟩ := h
    exact ⟨[], rfl, rfl, rfl⟩
  refine (((Reads.lit _).preceded pUsize_reads).alt (((Reads.lit _).value usizeMax).alt he)).mono ?_
  rintro n t (⟨_, t1, t2, rfl, rfl, h1, h2, rfl, h3⟩ | ⟨rfl, _, rfl⟩ | ⟨rfl, rfl⟩)
  · exact .num h1 h2 h3
  · exact .open
  · exact .none

theorem isModCode_mem {b : Byte} (h : isModCode b = true) : b ∈ bs "lutwo" := by
  have e : bs "lutwo" = [0x6C, 0x75, 0x74, 0x77, 0x6F] := by decide +kernel
  rw [e]
  simp only [isModCode, Bool.or_eq_true, beq_iff_eq] at h
  simp only [List.mem_cons, List.not_mem_nil, or_false]
  rcases h with (((h | h) | h) | h) | h <;> simp [h]

theorem spells_bytes {f : Byte → Bool} {as t : Bytes}
    (h : Spells (fun a t => f a = true ∧ t = [a]) as t) : t = as ∧ ∀ b ∈ as, f b = true := by
  induction h with
  | nil => simp
  | cons h1 _ ih => obtain ⟨h1, rfl⟩ := h1; obtain ⟨rfl, h2⟩ := ih; simp [h1]; exact h2

theorem pModifier_reads : Reads pModifier
    (fun m t => ModText E t ((Modifier.orDefault m).modify E)) := by
  have h1 : Reads (repeat1 (oneOf isModCode)) (fun ls t => ls ≠ [] ∧ t = ls ∧ ∀ b ∈ ls, isModCode b = true) := by
    intro i a r h
    obtain ⟨t, h1, h2, h3⟩ := repeat1_spells (Reads.oneOf isModCode) h
    obtain ⟨rfl, h4⟩ := spells_bytes h3
    exact ⟨_, h1, h2, rfl, h4⟩
  unfold pModifier
  refine ((Reads.byte 0x3F).preceded (h1.map modOfCodes)).opt.mono ?_
  rintro m t (⟨m', rfl, _, t1, t2, rfl, ⟨_, rfl⟩, ls, rfl, h2, rfl, h3⟩ | ⟨rfl, rfl⟩)
  · have e : (Modifier.orDefault (some (modOfCodes t2))).modify E = modified E t2 := by
      funext v; exact modify_modOfCodes E t2 v
    rw [e, bs_qm]
    exact .some h2 (fun b hb => isModCode_mem (h3 b hb))
  · exact .none

theorem repeat0Aux_oneOf (f : Byte → Bool) : ∀ (n : Nat) (i : Bytes),
    ∃ a r, repeat0Aux (oneOf f) n i = some (a, r) ∧ r.length ≤ i.length ∧
      (i.length < n → ∀ b, r.head? = some b → f b = false)
  | 0, i => ⟨[], i, rfl, Nat.le_refl _, fun h => absurd h (Nat.not_lt_zero _)⟩
  | n + 1, [] => ⟨[], [], by simp [repeat0Aux, oneOf], Nat.le_refl _, fun _ b hb => by simp at hb⟩
  | n + 1, b :: i => by
    obtain ⟨a, r, h, hl, hs⟩ := repeat0Aux_oneOf f n i
    cases hb : f b
    · exact ⟨[], b :: i, by simp [repeat0Aux, oneOf, hb], Nat.le_refl _, fun _ c hc => by
        simp only [List.head?_cons, Option.some.injEq] at hc; exact hc ▸ hb⟩
    · exact ⟨b :: a, r, by simp [repeat0Aux, oneOf, hb, h], by simp only [List.length_cons]; omega,
        fun hn => hs (by simp only [List.length_cons] at hn; omega)⟩

theorem isModCode_mem' {b : Byte} : b ∈ bs "lutwo" ↔ isModCode b = true := by
  have e : bs "lutwo" = [0x6C, 0x75, 0x74, 0x77, 0x6F] := by decide +kernel
  rw [e]; simp [isModCode, or_assoc]

/-- the letters of a modifier are read as far as they go -/
theorem pModifier_stop {i r : Bytes} {m : Option Modifier} (h : pModifier i = some (m, r)) :
    r = i ∨ ∀ b, r.head? = some b → b ∉ bs "lutwo" := by
  unfold pModifier at h
  rcases opt_eq_some.1 h with ⟨m', rfl, h1⟩ | ⟨rfl, _, rfl⟩
  · refine .inr fun b hb => ?_
    obtain ⟨_, i1, h2, h3⟩ := preceded_eq_some.1 h1
    obtain ⟨ls, h4, rfl⟩ := map_eq_some.1 h3
    unfold repeat1 at h4
    split at h4
    · simp at h4
    · rename_i c r1 hc
      split at h4
      · rename_i as r' hr
        simp only [Option.some.injEq, Prod.mk.injEq] at h4
        obtain ⟨-, rfl⟩ := h4
        obtain ⟨a, r2, g1, -, g3⟩ := repeat0Aux_oneOf isModCode (r1.length + 1) r1
        rw [repeat0, g1] at hr
        simp only [Option.some.injEq, Prod.mk.injEq] at hr
        obtain ⟨-, rfl⟩ := hr
        have := g3 (Nat.lt_succ_self _) b hb
        rw [isModCode_mem', this]
        simp
      · simp at h4
  · exact .inl rfl

theorem greedy_prefix {t u v : Bytes} (h : Greedy t (u ++ v)) : Greedy t u := by
  intro l hl hm b hb
  refine h l hl hm b ?_
  cases u with
  | nil => simp at hb
  | cons c u => simpa using hb

theorem pModifier_greedy {t r : Bytes} {m : Option Modifier} (h : pModifier (t ++ r) = some (m, r)) : Greedy t r := by
  intro l hl hm b hb
  rcases pModifier_stop h with h | h
  · have : t = [] := by
      have := congrArg List.length h
      simp only [List.length_append] at this
      exact List.length_eq_zero_iff.1 (by omega)
    subst this
    simp at hl
  · exact h b hb

theorem ws_not_letter {b : Byte} (h : b = 0x20 ∨ b = 0x09 ∨ b = 0x0D ∨ b = 0x0A) : b ∉ bs "lutwo" := by
  rw [isModCode_mem']
  rcases h with rfl | rfl | rfl | rfl <;> decide

theorem wsModifier_greedy {i r : Bytes} {m : Option Modifier} (h : ws pModifier i = some (m, r)) :
    ∃ t, i = t ++ r ∧ Padded (ModText E · ((Modifier.orDefault m).modify E)) t ∧ Greedy t r := by
  obtain ⟨_, r1, _, r2, h1, h2, h3⟩ := Parser.delimited_eq_some.1 h
  obtain ⟨e1, w1⟩ := multispace0_sound h1
  obtain ⟨t, e2, ht⟩ := pModifier_reads E _ _ _ h2
  obtain ⟨e3, w3⟩ := multispace0_sound h3
  refine ⟨_ ++ t ++ _, by rw [e1, e2, e3]; simp only [List.append_assoc], ⟨_, t, _, rfl, w1, ht, w3⟩, ?_⟩
  intro l hl hm b hb
  rename_i w w'
  cases hw' : w'.getLast? with
  | some x =>
    rw [List.getLast?_append, hw'] at hl
    simp only [Option.some_or, Option.some.injEq] at hl
    subst hl
    exact absurd hm (ws_not_letter (w3 x (List.mem_of_getLast? hw')))
  | none =>
    have : w' = [] := List.getLast?_eq_none_iff.1 hw'
    subst this
    simp only [List.nil_append] at e3
    subst e3
    rw [e2] at h2
    refine pModifier_greedy h2 l ?_ hm b hb
    rw [List.append_nil, List.getLast?_append] at hl
    cases ht' : t.getLast? with
    | some x => rw [ht'] at hl; simpa using hl
    | none =>
      rw [ht'] at hl
      simp only [Option.none_or] at hl
      exact absurd hm (ws_not_letter (w1 l (List.mem_of_getLast? hl)))

theorem affix_reads : Reads (opt (ws pString)) (fun s t => AffixText t (s.getD [])) := by
  refine pString_reads.padded.opt.mono ?_
  rintro s t (⟨x, rfl, h⟩ | ⟨rfl, rfl⟩)
  · exact .some h
  · exact .none

theorem pFmtValue_reads : Reads pFmtValue (fun v t => ValueText E o t (v.run E o)) := by
  unfold pFmtValue
  intro i v r h
  obtain ⟨⟨m, pre, cs, n, suf⟩, h0, rfl⟩ := map_eq_some.1 h
  obtain ⟨r1, h1, h2⟩ := seq_eq_some.1 h0
  obtain ⟨t1, rfl, g1, g2⟩ := wsModifier_greedy E h1
  obtain ⟨t2, rfl, t3, t4, rfl, g3, t5, t6, rfl, g4, t7, t8, rfl, g5, g6⟩ :=
    (affix_reads.seq (pCodes_of.seq ((pBound_reads 1).seq affix_reads))) _ _ _ h2
  refine ⟨t1 ++ (t3 ++ (t5 ++ (t7 ++ t8))), by simp only [List.append_assoc], ?_⟩
  have := ValueText.mk (E := E) (o := o) g1 (greedy_prefix (v := t7 ++ t8 ++ r) (by simpa using g2)) g3 g4 g5 g6
  have e : FmtValue.run E o ⟨cs, pre, suf, n, Modifier.orDefault m⟩ = fun f =>
      (Modifier.orDefault m).modify E (taken o.strip cs n (pre.getD []) (suf.getD []) f) := by
    funext f; exact value_run E o _ f
  simp only [e]
  simpa using this

theorem wsLit_reads (x : Bytes) : Reads (ws (lit x)) (fun _ t => Padded (· = x) t) :=
  (Reads.lit x).padded.mono (fun _ _ h => h)

theorem value_sound : TParser.Sound (TParser.lift (map Fragments.value pFmtValue))
    (fun fr t => ∃ g, ValueText E o t g ∧ RunsIn E o fr g) := by
  refine TParser.Sound.lift (((pFmtValue_reads E o).map _).mono ?_)
  rintro fr t ⟨v, rfl, h⟩
  exact ⟨_, h, runsIn_value E o v⟩

theorem item_sound {p : TParser Fragments}
    (h : TParser.Sound p (fun fr t => ∃ g, GroupText E o t g ∧ RunsTo E o fr g)) :
    TParser.Sound (TParser.alt p (TParser.lift (map Fragments.value pFmtValue)))
      (fun fr t => ∃ g, PartText E o t g ∧ RunsTo E o fr g) :=
  (h.mono (fun _ _ ⟨g, h1, h2⟩ => ⟨g, .group h1, h2⟩)).alt
    ((value_sound E o).mono (fun _ _ ⟨g, h1, h2⟩ => ⟨g, .value h1, h2.1⟩))

theorem pAndThen_sound {p : TParser Fragments}
    (h : TParser.Sound p (fun fr t => ∃ g, GroupText E o t g ∧ RunsTo E o fr g)) :
    TParser.Sound (pAndThen p) (fun fr t => ∃ gs, AndText E o t gs ∧ 2 ≤ gs.length ∧
      RunsIn E o fr (andThen gs)) := by
  unfold pAndThen
  refine ((TParser.Sound.separated 2 (item_sound E o h) (wsLit_reads _)).map _).mono ?_
  rintro fr t ⟨fs, rfl, h1, h2⟩
  obtain ⟨gs, h3, h4⟩ := sepItems_and E o h1
  exact ⟨gs, h3, h4.length ▸ h2, runsIn_andThen E o h4⟩

theorem pCons_sound {p : TParser Fragments}
    (h : TParser.Sound p (fun fr t => ∃ g, GroupText E o t g ∧ RunsTo E o fr g)) :
    TParser.Sound (pCons p) (fun fr t => ∃ gs, ConsText E o t gs ∧ 2 ≤ gs.length ∧
      RunsIn E o fr (concat gs)) := by
  unfold pCons
  have hi : TParser.Sound (TParser.alt (pAndThen p) (TParser.alt p (TParser.lift (map Fragments.value pFmtValue))))
      (fun fr t => ∃ g, ConsPartText E o t g ∧ RunsTo E o fr g) :=
    ((pAndThen_sound E o h).mono (fun _ _ ⟨gs, h1, h2, h3⟩ => ⟨_, .andThen h1 h2, h3.1⟩)).alt
      ((item_sound E o h).mono (fun _ _ ⟨g, h1, h2⟩ => ⟨g, .item h1, h2⟩))
  refine ((TParser.Sound.separated 2 hi (wsLit_reads _)).map _).mono ?_
  rintro fr t ⟨fs, rfl, h1, h2⟩
  obtain ⟨gs, h3, h4⟩ := sepItems_cons E o h1
  exact ⟨gs, h3, h4.length ▸ h2, runsIn_cons E o h4⟩

theorem inner_sound {p : TParser Fragments}
    (h : TParser.Sound p (fun fr t => ∃ g, GroupText E o t g ∧ RunsTo E o fr g)) :
    TParser.Sound (TParser.alt (tws (pFmtList p)) (TParser.lift (ws (map Fragments.value pFmtValue))))
      (fun fr t => ∃ g, InnerText E o t g ∧ RunsIn E o fr g) := by
  have hl : TParser.Sound (pFmtList p) (fun fr t => ∃ g, FmtListText E o t g ∧ RunsIn E o fr g) := by
    unfold pFmtList
    exact ((pCons_sound E o h).mono (fun _ _ ⟨gs, h1, h2, h3⟩ => ⟨_, .cons h1 h2, h3⟩)).alt
      ((pAndThen_sound E o h).mono (fun _ _ ⟨gs, h1, h2, h3⟩ => ⟨_, .andThen h1 h2, h3⟩))
  refine ((tws_sound hl).mono ?_).alt (TParser.Sound.lift ((((pFmtValue_reads E o).map Fragments.value).padded).mono ?_))
  · rintro fr t ⟨w, u, w', rfl, h1, ⟨g, h2, h3⟩, h4⟩
    exact ⟨g, .list h1 h2 h4, h3⟩
  · rintro fr t ⟨w, u, w', rfl, h1, ⟨v, rfl, h2⟩, h4⟩
    exact ⟨_, .value h1 h2 h4, runsIn_value E o v⟩

theorem fmtInc_sound : TParser.Sound fmtInc (fun _ t => t = []) := by
  intro s i a r s' h
  simp only [fmtInc] at h
  split at h
  · simp at h
  · simp only [Prod.mk.injEq, Option.some.injEq] at h
    exact ⟨[], by simpa using h.1.2, rfl⟩

theorem pModifier_front {l : Byte} (u : Bytes) (hl : l ∈ bs "lutwo") :
    ∃ m r, pModifier (0x3F :: l :: u) = some (m, r) ∧ r.length ≤ u.length := by
  have e : bs "lutwo" = [0x6C, 0x75, 0x74, 0x77, 0x6F] := by decide +kernel
  have hl' : isModCode l = true := by
    rw [e] at hl
    simp only [List.mem_cons, List.not_mem_nil, or_false] at hl
    rcases hl with rfl | rfl | rfl | rfl | rfl <;> decide
  obtain ⟨a, r, h, hr, -⟩ := repeat0Aux_oneOf isModCode (u.length + 1) u
  refine ⟨some (modOfCodes (l :: a)), r, ?_, hr⟩
  have h1 : repeat1 (oneOf isModCode) (l :: u) = some (l :: a, r) := by
    simp only [repeat1, oneOf, hl', if_true]
    unfold repeat0
    rw [h]
  have h2 : preceded (byte 0x3F) (map modOfCodes (repeat1 (oneOf isModCode))) (0x3F :: l :: u) =
      some (modOfCodes (l :: a), r) := by
    simp [preceded, seq, map, byte, oneOf, h1]
  unfold pModifier opt
  rw [h2]

/-- the modifier of a group is looked for first -/
theorem groupFront_sound {α : Type} {q : TParser α} {R : α → Bytes → Prop} (hq : TParser.Sound q R) :
    TParser.Sound (TParser.preceded (TParser.terminated (TParser.lift (ws (byte 0x28))) fmtInc)
        (TParser.seq (TParser.lift pModifier) q))
      (fun x t => ∃ t1 t2 t3, t = t1 ++ (t2 ++ t3) ∧ Padded (· = bs "(") t1 ∧
        ModText E t2 ((Modifier.orDefault x.1).modify E) ∧ R x.2 t3 ∧
        (t2 = [] → Unmodified t3) ∧ Greedy t2 t3) := by
  intro s i x r s' h
  obtain ⟨_, i1, s1, h1, h2⟩ := TParser.preceded_inv h
  obtain ⟨j1, z1, h3, h4⟩ := TParser.seq_inv h2
  obtain ⟨_, i0, s0, h5, h6⟩ := TParser.terminated_inv h1
  obtain ⟨e5, -⟩ := TParser.lift_inv h5
  obtain ⟨e3, -⟩ := TParser.lift_inv h3
  obtain ⟨t1, q1, p1⟩ := wsByte_sound 0x28 _ _ _ _ _ h5
  obtain ⟨_, q0, rfl⟩ := fmtInc_sound _ _ _ _ _ h6
  obtain ⟨t2, q2, p2⟩ := pModifier_reads E _ _ _ e3
  obtain ⟨t3, q3, p3⟩ := hq _ _ _ _ _ h4
  rw [← bs_lpar] at p1
  simp only [List.nil_append] at q0
  subst q0
  refine ⟨t1 ++ (t2 ++ t3), by rw [q1, q2, q3]; simp, t1, t2, t3, rfl, p1, p2, p3, ?_, by
    rw [q2] at e3; rw [q3] at e3; exact greedy_prefix (pModifier_greedy e3)⟩
  rintro rfl w l u hw hl ht
  simp only [List.nil_append] at q2
  subst q2
  have hns : ∀ b y, i0 = b :: y → isMultispace b = false := by
    obtain ⟨_, k1, _, k2, -, -, g3⟩ := Parser.delimited_eq_some.1 e5
    simp only [multispace0, Option.some.injEq, Prod.mk.injEq] at g3
    intro b y hb
    have := g3.2.trans hb
    have hd := List.head?_dropWhile_not isMultispace k2
    rw [this] at hd
    simpa using hd
  cases w with
  | cons b w =>
    have := hns b (w ++ bs "?" ++ [l] ++ u ++ r) (by rw [q3, ht]; simp)
    rcases hw b (by simp) with rfl | rfl | rfl | rfl <;> exact absurd this (by decide)
  | nil =>
    obtain ⟨m, r', g1, g2⟩ := pModifier_front (u ++ r) hl
    have e : i0 = 0x3F :: l :: (u ++ r) := by
      rw [q3, ht]
      have : bs "?" = [0x3F] := by decide +kernel
      simp [this]
    rw [e, g1] at e3
    simp only [Option.some.injEq, Prod.mk.injEq] at e3
    rw [e3.2] at g2
    simp only [List.length_cons] at g2
    omega

theorem pFmtGroup_sound : ∀ k, TParser.Sound (pFmtGroup k)
    (fun fr t => ∃ g, GroupText E o t g ∧ RunsTo E o fr g) := by
  intro k
  induction k with
  | zero => exact TParser.Sound.fail
  | succ k ih =>
    rw [pFmtGroup]
    refine ((groupFront_sound E ((inner_sound E o ih).seq
        (((wsByte_sound 0x29).terminated (TParser.Sound.update fmtDec)).preceded
          (TParser.Sound.lift (pBound_reads usizeMax))))).map _).mono ?_
    rintro fr t ⟨⟨m, fr', n⟩, rfl, t1, t2, t4, rfl, h1, h2, ⟨t5, t6, rfl,
      ⟨g, h3, h4⟩, _, t7, t8, rfl, ⟨_, u3, u4, rfl, h5, rfl⟩, h6⟩, h7, h8⟩
    rw [← bs_rpar] at h5
    refine ⟨_, ?_, h4.2 n (Modifier.orDefault m)⟩
    have := GroupText.mk h1 h2 h3 (fun e w l u hw hl ht => h7 e w l (u ++ (u3 ++ [] ++ t8)) hw hl
      (by rw [ht]; simp)) (greedy_prefix h8) h5 h6
    simpa using this

theorem pFragments_sound (k : Nat) : TParser.Sound (pFragments k)
    (fun fr t => ∃ g, FragsText E o t g ∧ RunsTo E o fr g) := by
  have hg := pFmtGroup_sound E o k
  have hi := inner_sound E o hg
  unfold pFragments
  intro s i a r s' h
  simp only [TParser.alt] at h
  split at h
  · rename_i x s1 he
    have := hi s i a r s' (by simp only [TParser.alt]; rw [he]; exact h)
    obtain ⟨t, h1, g, h2, h3⟩ := this
    exact ⟨t, h1, g, .inner h2, h3.1⟩
  · rename_i s1 he
    split at h
    · rename_i x s2 he2
      obtain ⟨t, h1, w, u, w', rfl, h2, ⟨g, h3, h4⟩, h5⟩ := tws_sound hg s1 i a r s' (by rw [he2]; exact h)
      exact ⟨_, h1, g, .group h2 h3 h5, h4⟩
    · rename_i s2 he2
      obtain ⟨t, h1, w, u, w', rfl, h2, ⟨v, rfl, h3⟩, h5⟩ := (TParser.Sound.lift
        (((pFmtValue_reads E o).map Fragments.value).padded)) s2 i a r s' h
      exact ⟨_, h1, _, .inner (.value h2 h3 h5), (runsIn_value E o v).1⟩

variable (rx : Bytes → Bool)

theorem pFormat_sound : TParser.Sound (pFormat rx) (fun fm t => ∃ g,
    FormatText rx E o t (selOf fm.tag fm.occ) (subDen E.toEnv o.opts fm.sub) g ∧
    RunsTo E o fm.fragments g) := by
  have key : ∀ k, TParser.Sound (TParser.map
      (fun x : (TagMatcher × OccMatcher × Fragments × Option SubMatcher) × Bytes =>
        (⟨x.1.1, x.1.2.1, x.1.2.2.2, trimAscii x.2, x.1.2.2.1⟩ : Format))
      (TParser.withTaken
        (TParser.seq (TParser.lift pTagMatcher)
          (TParser.seq (TParser.lift pOccMatcher)
            (TParser.delimited (TParser.lift (ws (byte 0x7B)))
              (TParser.seq (pFragments k) (pFilterOpt rx))
              (TParser.lift (ws (byte 0x7D)))))))) (fun fm t => ∃ g,
      FormatText rx E o t (selOf fm.tag fm.occ) (subDen E.toEnv o.opts fm.sub) g ∧
      RunsTo E o fm.fragments g) := by
    intro k
    refine (((TParser.Sound.lift pTagMatcher_reads).seq
      ((TParser.Sound.lift pOccMatcher_reads).seq
        ((wsByte_sound 0x7B).delimited ((pFragments_sound E o k).seq
          (pFilterOpt_sound rx E.toEnv o.opts)) (wsByte_sound 0x7D)))).withTaken.map _).mono ?_
    rintro fm t ⟨⟨⟨m, om, fr, mo⟩, u⟩, rfl, ⟨t1, t2, rfl, h2, t3, t4, rfl, h3, _, _,
      t5, t6, t7, rfl, h4, ⟨t8, t9, rfl, ⟨g, h5, h5'⟩, h6⟩, h7⟩, h9⟩
    rw [bs_lbrace] at h4; rw [bs_rbrace] at h7
    refine ⟨g, ?_, h5'⟩
    have := FormatText.mk (⟨m, om, h2, h3, rfl⟩ : Selects t1 t3 (selOf m om)) h4 h5 h6 h7
    simpa using this
  intro s i
  exact key (i.length + 1) s i

theorem format_new_sound {s s' text fm} (h : Format.new rx s text = (some fm, s')) : ∃ g,
    FormatText rx E o text (selOf fm.tag fm.occ) (subDen E.toEnv o.opts fm.sub) g ∧
    RunsTo E o fm.fragments g := by
  unfold Format.new at h
  obtain ⟨t, he, ht⟩ := pFormat_sound E o rx _ _ _ _ _ (TParser.parseAll_eq_some.1 h)
  rw [List.append_nil] at he
  exact he ▸ ht

end

theorem mapP_of_total {α β : Type} {f : α → Option β} {g : α → β} {l : List α}
    (h : ∀ x ∈ l, f x = some (g x)) : mapP f l = some (l.map g) := by
  induction l with
  | nil => rfl
  | cons x xs ih =>
    rw [mapP, h x (by simp)]
    simp [ih (fun x hx => h x (by simp [hx]))]

/-- the strings of a format -/
theorem format_run {E : FmtEnv} {o : FmtOpts} {fm : Format} {g : Field → Bytes} {r : Record}
    (hg : RunsTo E o fm.fragments g)
    (ht : ∀ f ∈ r, ∃ b, fieldTest E.toEnv o.opts fm.tag fm.occ fm.sub f = some b) :
    fm.run E o r = some (rendered (selOf fm.tag fm.occ) (subDen E.toEnv o.opts fm.sub) g r) := by
  unfold Format.run
  rw [filterP_of_total (f := fieldTest E.toEnv o.opts fm.tag fm.occ fm.sub) ht]
  simp only
  rw [mapP_of_total (g := fun f => if g f = [] then none else some (g f))]
  · rw [Option.map_some, Option.some.injEq]
    unfold rendered
    have aux : ∀ l : List Field, List.filterMap id (l.map (fun f => if g f = [] then none else some (g f)))
        = (l.map g).filter (fun x => decide (x ≠ [])) := by
      intro l
      induction l with
      | nil => rfl
      | cons x xs ih =>
        rw [List.map_cons, List.filterMap_cons, ih, List.map_cons, List.filter_cons]
        by_cases hx : g x = [] <;> simp [hx]
    rw [aux]
    congr 2
    apply List.filter_congr
    intro f _
    rw [Bool.eq_iff_iff]
    simp only [beq_iff_eq, fieldTest_eq_true, decide_eq_true_eq]
  · intro f _
    unfold Format.fmtField
    rw [hg f]
    cases hx : g f <;> simp

end Pica
