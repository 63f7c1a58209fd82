import Verif.Lemmas.OperandRun

/-! Parentheses: what the group parsers do with the counters. -/

namespace Pica
open Spec Parser

/-! ## Subfields: every group that is read costs a level -/

/-- the counter after `c` more levels -/
def Levels.addSub (s : Levels) (c : Nat) : Levels := { s with sub := s.sub + c }

/-- `f` has a result with `Q` and uses `c` levels if there are that many left;
otherwise it fails and the levels are used up -/
def Costs {α : Type} (f : Levels → Option α × Levels) (c : Nat) (Q : Option α → Prop) : Prop :=
  ∀ s : Levels, (s.sub + c < 256 → ∃ x, Q x ∧ f s = (x, s.addSub c)) ∧
    (256 ≤ s.sub + c → ∃ s', f s = (none, s') ∧ 256 ≤ s'.sub)

/-- failure -/
def IsNone {α : Type} (x : Option α) : Prop := x = none

/-- success with matcher `m`, `rest` remains up to white space -/
def IsMat {M : Type} (m : M) (rest : Bytes) (x : Option (M × Bytes)) : Prop :=
  ∃ r', x = some (m, r') ∧ dws r' = rest

/-- success with matcher `m`, exactly `rest` remains -/
def IsMatE {M : Type} (m : M) (rest : Bytes) (x : Option (M × Bytes)) : Prop := x = some (m, rest)

theorem IsMatE.isMat {M : Type} {m : M} {rest : Bytes} (h : NoWs rest)
    {x : Option (M × Bytes)} (hx : IsMatE m rest x) : IsMat m rest x := ⟨rest, hx, dws_of_noWs h⟩

theorem Costs.mono {α : Type} {f : Levels → Option α × Levels} {c : Nat} {Q Q' : Option α → Prop}
    (h : Costs f c Q) (hQ : ∀ x, Q x → Q' x) : Costs f c Q' := fun s =>
  ⟨fun hs => by obtain ⟨x, h1, h2⟩ := (h s).1 hs; exact ⟨x, hQ x h1, h2⟩, (h s).2⟩

section
variable {M : Type} {p q : TParser M} {D : M}

theorem Costs.alt {i c c' Q} (h : Costs (fun s => p s i) c IsNone) (h' : Costs (fun s => q s i) c' Q) :
    Costs (fun s => TParser.alt p q s i) (c + c') Q := by
  intro s
  constructor
  · intro hs
    obtain ⟨_, rfl, h1⟩ := (h s).1 (by omega)
    obtain ⟨x, hx, h2⟩ := (h' (s.addSub c)).1 (by simp only [Levels.addSub]; omega)
    refine ⟨x, hx, ?_⟩
    simp only at h1 h2 ⊢
    rw [TParser.alt_right h1, h2]
    simp [Levels.addSub, Nat.add_assoc]
  · intro hs
    by_cases hc : s.sub + c < 256
    · obtain ⟨_, rfl, h1⟩ := (h s).1 hc
      obtain ⟨s', h2, h3⟩ := (h' (s.addSub c)).2 (by simp only [Levels.addSub]; omega)
      simp only at h1 h2 ⊢
      exact ⟨s', by rw [TParser.alt_right h1, h2], h3⟩
    · obtain ⟨s1, h1, h4⟩ := (h s).2 (by omega)
      obtain ⟨s', h2, h3⟩ := (h' s1).2 (by omega)
      simp only at h1 h2 ⊢
      exact ⟨s', by rw [TParser.alt_right h1, h2], h3⟩

theorem chain_none_st {op : Parser Unit} {f : M → M → M} {s s' : Levels} {i m r}
    (h : Pica.tws p s i = (some (m, r), s')) (ho : op r = none) :
    Pica.chain op (Pica.tws p) f s i = (none, s') := by
  unfold Pica.chain
  refine TParser.map_none (TParser.seq_none' h ?_)
  unfold TParser.repeat1
  rw [TParser.preceded_none (TParser.lift_none ho)]

/-- a single operand: the chain fails after reading it -/
theorem Costs.chain {op : Parser Unit} {f : M → M → M} {i c r} (hi : NoWs i)
    (h : Costs (fun s => p s i) c (IsMat D r)) (hop : op r = none) :
    Costs (fun s => Pica.chain op (Pica.tws p) f s i) c IsNone := by
  intro s
  constructor
  · intro hs
    obtain ⟨_, ⟨r', rfl, hr⟩, h1⟩ := (h s).1 hs
    simp only at h1 ⊢
    refine ⟨none, rfl, chain_none_st (tws_run (by rw [dws_of_noWs hi]; exact h1)) ?_⟩
    rw [hr]; exact hop
  · intro hs
    obtain ⟨s', h1, h2⟩ := (h s).2 hs
    simp only at h1 ⊢
    refine ⟨s', ?_, h2⟩
    exact TParser.map_none (TParser.seq_none (tws_none (by rw [dws_of_noWs hi]; exact h1)))

/-- reading a single operand through `composite`: seven attempts -/
theorem Costs.composite {S : Syn M} {i c r} (hS : SynRuns S) (hi : NoWs i)
    (h : Costs (fun s => p s i) c (IsMat D r)) (hr : Stop r) :
    Costs (fun s => Pica.composite S p s i) (7 * c) IsNone := by
  have a1 : Costs (fun s => andChain S p s i) c IsNone :=
    Costs.chain hi h (hS.and_none _ (.inl (.inl hr)))
  have x1 : Costs (fun s => xorChain S p s i) (c + c) IsNone :=
    Costs.chain hi (Costs.alt a1 h) (pXorOp_none _ (.inl hr))
  have o1 : Costs (fun s => orChain S p s i) (c + (c + c + c)) IsNone :=
    Costs.chain hi (Costs.alt a1 (Costs.alt x1 h)) (hS.or_none _ hr)
  have := Costs.alt o1 (Costs.alt x1 a1)
  have e : c + (c + c + c) + (c + c + c) = 7 * c := by omega
  rw [e] at this
  exact this

theorem Costs.free {i} (h : ∀ s, p s i = (none, s)) : Costs (fun s => p s i) 0 IsNone := by
  intro s
  constructor
  · intro _; exact ⟨none, rfl, h s⟩
  · intro hs; exact ⟨s, h s, by omega⟩

end

/-- levels used by reading `d` nested parentheses once -/
def groupCost : Nat → Nat
  | 0 => 0
  | d + 1 => 1 + 8 * groupCost d

/-- what is tried inside parentheses -/
def subInner (rx : Bytes → Bool) (k : Nat) : TParser SubMatcher :=
  TParser.alt (composite subSyn (subAtoms rx (pSubGroup rx k) (pSubNot rx k)))
    (TParser.alt (pSubSingleM rx) (TParser.alt (pSubNot rx k) (pSubGroup rx k)))

theorem nest_succ (d : Nat) (e : Bytes) : nest (d + 1) e = 0x28 :: (nest d e ++ [0x29]) := by
  simp [nest, bs_lpar, bs_rpar]

theorem parens_nest (d : Nat) (e : Bytes) : Parens d e (nest d e) := by
  induction d with
  | zero => exact .zero
  | succ d ih =>
    have := Parens.succ (w := []) (w' := []) (by simp [Ws]) (by simp [Ws]) ih
    simpa [nest] using this

theorem parens_noWs {d : Nat} {e u : Bytes} (hu : Parens d e u) (h : NoWs e) (h' : e ≠ []) :
    NoWs u ∧ u ≠ [] := by
  cases hu with
  | zero => exact ⟨h, h'⟩
  | succ =>
    rw [bs_lpar]
    exact ⟨noWs_cons.2 (by decide), by simp⟩

theorem parens_length {d : Nat} {e u : Bytes} (hu : Parens d e u) : 2 * d + e.length ≤ u.length := by
  induction hu with
  | zero => simp
  | succ _ _ _ ih => rw [bs_lpar, bs_rpar]; simp; omega

theorem parens_head {d : Nat} {e u : Bytes} (hu : Parens (d + 1) e u) : ∃ r, u = 0x28 :: r := by
  cases hu with
  | succ => rw [bs_lpar]; exact ⟨_, rfl⟩

/-- one group around something that costs `c` -/
theorem pSubGroup_costs {rx : Bytes → Bool} {k : Nat} {t : Bytes} {D : SubMatcher}
    {c : Nat} {w w' rest : Bytes} (hw : Ws w) (hw' : Ws w') (ht : NoWs t) (ht' : t ≠ []) (hr : NoWs rest)
    (h : ∀ s : Levels, s.sub < 256 →
      (s.sub + c < 256 → ∃ x, IsMat D (0x29 :: (w' ++ rest)) x ∧
        subInner rx k s (t ++ (0x29 :: (w' ++ rest))) = (x, s.addSub c)) ∧
      (256 ≤ s.sub + c → ∃ s', subInner rx k s (t ++ (0x29 :: (w' ++ rest))) = (none, s') ∧ 256 ≤ s'.sub)) :
    Costs (fun s => pSubGroup rx (k + 1) s (0x28 :: (w ++ (t ++ (0x29 :: (w' ++ rest)))))) (1 + c)
      (IsMatE D.group rest) := by
  have w1 : Pica.ws (byte 0x28) (0x28 :: (w ++ (t ++ (0x29 :: (w' ++ rest))))) = some (0x28, t ++ (0x29 :: (w' ++ rest))) := by
    have := ws_run' (p := byte 0x28) (i := 0x28 :: (w ++ (t ++ (0x29 :: (w' ++ rest)))))
      (by rw [dws_cons _ (by decide)]; exact byte_cons_self _ _)
    rw [dws_append hw, dws_of_noWs (noWs_append ht' ht)] at this
    exact this
  have w2 : ∀ r', dws r' = 0x29 :: (w' ++ rest) → Pica.ws (byte 0x29) r' = some (0x29, rest) := by
    intro r' hr'
    have := ws_run' (p := byte 0x29) (i := r') (by rw [hr']; exact byte_cons_self _ _)
    rw [dws_append hw', dws_of_noWs hr] at this
    exact this
  intro s
  simp only [pSubGroup]
  by_cases h0 : s.sub + 1 < 256
  · have inc : TParser.terminated (TParser.lift (Pica.ws (byte 0x28))) subInc s
        (0x28 :: (w ++ (t ++ (0x29 :: (w' ++ rest))))) = (some (0x28, t ++ (0x29 :: (w' ++ rest))), s.addSub 1) := by
      refine TParser.terminated_run (TParser.lift_run w1) (b := ()) ?_
      simp [subInc, Levels.addSub, Nat.not_le.2 h0]
    constructor
    · intro hs
      obtain ⟨_, ⟨r', rfl, hr'⟩, h1⟩ := (h (s.addSub 1) h0).1 (by simp only [Levels.addSub]; omega)
      have := TParser.map_run (f := SubMatcher.group)
        (TParser.delimited_run inc h1 (TParser.lift_run (w2 r' hr')))
      refine ⟨_, rfl, ?_⟩
      unfold subInner at this
      rw [this]
      simp [Levels.addSub, Nat.add_assoc]
    · intro hs
      obtain ⟨s', h1, h2⟩ := (h (s.addSub 1) h0).2 (by simp only [Levels.addSub]; omega)
      exact ⟨s', TParser.map_none (TParser.preceded_none' inc (TParser.terminated_none h1)), h2⟩
  · have inc : TParser.terminated (TParser.lift (Pica.ws (byte 0x28))) subInc s
        (0x28 :: (w ++ (t ++ (0x29 :: (w' ++ rest))))) = (none, s.addSub 1) := by
      refine TParser.terminated_none' (TParser.lift_run w1) ?_
      simp [subInc, Levels.addSub, Nat.not_lt.1 h0]
    constructor
    · intro hs; omega
    · intro hs
      exact ⟨s.addSub 1, TParser.map_none (TParser.preceded_none inc), by
        simp only [Levels.addSub]; omega⟩

/-- an inner expression: read without using levels -/
structure Inner (rx : Bytes → Bool) (e : Bytes) (m : SubMatcher) : Prop where
  noWs : NoWs e
  ne : e ≠ []
  head : e.head? ≠ some 0x28
  run : ∀ k s rest, Stop rest → e.length ≤ k → ∃ r', dws r' = rest ∧
    subInner rx k s (e ++ rest) = (some (m, r'), s)

theorem stop_rpar (r : Bytes) : Stop (0x29 :: r) := .inr (.inl rfl)

theorem stop_noWs {r : Bytes} (h : Stop r) : NoWs r := fAnd_noWs (.inl (.inl (.inl h)))

/-- what is tried inside parentheses, applied to parentheses -/
theorem subInner_costs {rx : Bytes → Bool} {k c : Nat} {i rest : Bytes}
    {D : SubMatcher} (hr : Stop rest)
    (h : Costs (fun s => pSubGroup rx k s (0x28 :: i)) c (IsMatE D rest)) :
    Costs (fun s => subInner rx k s (0x28 :: i)) (8 * c) (IsMatE D rest) := by
  have hn : NoWs (0x28 :: i) := noWs_cons.2 (by decide)
  have f1 : ∀ s, pSubSingleM rx s (0x28 :: i) = (none, s) := fun s =>
    TParser.lift_none (map_none (pSubSingle_none_lpar rx i))
  have f2 : ∀ s, pSubNot rx k s (0x28 :: i) = (none, s) := fun s => pSubNot_none hn (by simp)
  have ha : Costs (fun s => subAtoms rx (pSubGroup rx k) (pSubNot rx k) s (0x28 :: i)) c
      (IsMatE D rest) := by
    intro s
    constructor
    · intro hs
      obtain ⟨_, rfl, h3⟩ := (h s).1 hs
      exact ⟨_, rfl, TParser.alt_left h3⟩
    · intro hs
      obtain ⟨s', h1, h2⟩ := (h s).2 hs
      refine ⟨s', ?_, h2⟩
      unfold subAtoms
      simp only at h1 ⊢
      rw [TParser.alt_right h1, TParser.alt_right (f1 s'), f2]
  have hc := Costs.composite subSyn_runs hn (ha.mono fun _ => IsMatE.isMat (stop_noWs hr)) hr
  have := Costs.alt hc (Costs.alt (Costs.free f1) (Costs.alt (Costs.free f2) h))
  have e : 7 * c + (0 + (0 + c)) = 8 * c := by omega
  rw [e] at this
  exact this

/-- the same with the alternatives in the order of `parse_subfield_matcher` -/
theorem subTop_costs {rx : Bytes → Bool} {k c : Nat} {i rest : Bytes}
    {D : SubMatcher} (hr : Stop rest)
    (h : Costs (fun s => pSubGroup rx k s (0x28 :: i)) c (IsMatE D rest)) :
    ∀ s : Levels, (s.sub + 8 * c < 256 →
      TParser.alt (pSubComposite rx k)
      (TParser.alt (pSubSingleM rx) (TParser.alt (pSubGroup rx k) (pSubNot rx k))) s (0x28 :: i) =
        (some (D, rest), s.addSub (8 * c))) ∧
      (256 ≤ s.sub + 8 * c → ∃ s', TParser.alt (pSubComposite rx k)
      (TParser.alt (pSubSingleM rx) (TParser.alt (pSubGroup rx k) (pSubNot rx k))) s (0x28 :: i) =
        (none, s') ∧ 256 ≤ s'.sub) := by
  have key := subInner_costs hr h
  have f2 : ∀ s, pSubNot rx k s (0x28 :: i) = (none, s) := fun s =>
    pSubNot_none (noWs_cons.2 (by decide)) (by simp)
  have swap : ∀ s, TParser.alt (pSubComposite rx k)
      (TParser.alt (pSubSingleM rx) (TParser.alt (pSubGroup rx k) (pSubNot rx k))) s (0x28 :: i) =
      subInner rx k s (0x28 :: i) := by
    intro s
    unfold subInner pSubComposite
    simp only [TParser.alt, f2]
    generalize composite _ _ s _ = x1
    obtain ⟨x | x, s1⟩ := x1
    · simp only
      generalize pSubSingleM rx s1 (0x28 :: i) = x2
      obtain ⟨x | x, s2⟩ := x2
      · simp only
        generalize pSubGroup rx k s2 (0x28 :: i) = x3
        obtain ⟨x | x, s3⟩ := x3 <;> rfl
      · rfl
    · rfl
  intro s
  rw [swap]
  constructor
  · intro hs
    obtain ⟨_, rfl, h3⟩ := (key s).1 hs
    exact h3
  · exact (key s).2

/-- the matcher of `d` nested parentheses -/
def groups : Nat → SubMatcher → SubMatcher
  | 0, m => m
  | d + 1, m => .group (groups d m)

theorem groups_eval (E : Env) (o : Opts) (d : Nat) (m : SubMatcher) :
    (groups d m).eval E o = m.eval E o := by
  induction d with
  | zero => rfl
  | succ d ih => rw [groups, SubMatcher.eval_group, ih]

/-- **nested groups** `d + 1` deep around an inner expression -/
theorem nest_costs {rx : Bytes → Bool} {e : Bytes} {D : SubMatcher}
    (hin : Inner rx e D) : ∀ d k rest u, Stop rest → Parens (d + 1) e u → d + e.length < k →
      Costs (fun s => pSubGroup rx k s (u ++ rest)) (groupCost (d + 1))
        (IsMatE (groups (d + 1) D) rest)
  | d, 0, rest, u, _, _, hk => by omega
  | 0, k + 1, rest, u, hr, hu, hk => by
    rcases hu with _ | ⟨hw, hw', hu⟩
    cases hu
    rename_i w w'
    have := pSubGroup_costs (rx := rx) (k := k) (D := D) (c := 0) hw hw' hin.noWs hin.ne
      (stop_noWs hr) (by
        intro s hs0
        obtain ⟨r', h1, h3⟩ := hin.run k s _ (stop_rpar (w' ++ rest)) (by omega)
        constructor
        · intro _
          exact ⟨_, ⟨r', rfl, h1⟩, h3⟩
        · intro hs
          omega)
    have e : bs "(" ++ w ++ e ++ bs ")" ++ w' ++ rest = 0x28 :: (w ++ (e ++ (0x29 :: (w' ++ rest)))) := by
      rw [bs_lpar, bs_rpar]; simp
    rw [e]
    exact this
  | d + 1, k + 1, rest, u, hr, hu, hk => by
    rcases hu with _ | ⟨hw, hw', hu⟩
    rename_i u w w'
    have ih := nest_costs hin d k (0x29 :: (w' ++ rest)) u (stop_rpar _) hu (by omega)
    have hn := parens_noWs hu hin.noWs hin.ne
    have : Costs (fun s => subInner rx k s (u ++ (0x29 :: (w' ++ rest)))) (8 * groupCost (d + 1))
        (IsMat (groups (d + 1) D) (0x29 :: (w' ++ rest))) := by
      obtain ⟨u', rfl⟩ := parens_head hu
      exact (subInner_costs (stop_rpar _) ih).mono fun _ => IsMatE.isMat (stop_noWs (stop_rpar _))
    have := pSubGroup_costs hw hw' hn.1 hn.2 (stop_noWs hr) (fun s _ => this s)
    have e : bs "(" ++ w ++ u ++ bs ")" ++ w' ++ rest = 0x28 :: (w ++ (u ++ (0x29 :: (w' ++ rest)))) := by
      rw [bs_lpar, bs_rpar]; simp
    rw [e]
    exact this

/-- the operands are part of the text -/
theorem Seq.item_le {A : Type} {f : A → Bytes} {a : Seq A} :
    a.all (fun x => (f x).length ≤ (a.text f).length) := by
  refine ⟨by simp [Seq.text], fun x hx => ?_⟩
  have : (x.1 ++ (x.2.1 ++ f x.2.2)).length ≤
      ((a.tail.map (fun x => x.1 ++ (x.2.1 ++ f x.2.2))).flatten).length :=
    (List.sublist_flatten_of_mem
      (List.mem_map_of_mem (f := fun x : Bytes × Bytes × A => x.1 ++ (x.2.1 ++ f x.2.2)) hx)).length_le
  simp only [Seq.text, List.length_append] at this ⊢
  omega

theorem OrSeq.ok_short {X : Type} {P : Operand X → Prop} {a : OrSeq X} (h : OrSeq.ok P a) {n : Nat}
    (hn : (OrSeq.txt a).length ≤ n) : OrSeq.ok (fun x => P x ∧ x.text.length ≤ n) a := by
  have and : ∀ b : AndSeq X, AndSeq.ok P b → (AndSeq.txt b).length ≤ n →
      AndSeq.ok (fun x => P x ∧ x.text.length ≤ n) b := fun b hb hl =>
    have := Seq.item_le (f := Operand.text) (a := b)
    ⟨hb.1, ⟨hb.2.1, Nat.le_trans this.1 hl⟩, fun x hx => ⟨hb.2.2 x hx, Nat.le_trans (this.2 x hx) hl⟩⟩
  have xor : ∀ b : XorSeq X, XorSeq.ok P b → (XorSeq.txt b).length ≤ n →
      XorSeq.ok (fun x => P x ∧ x.text.length ≤ n) b := fun b hb hl =>
    have := Seq.item_le (f := AndSeq.txt) (a := b)
    ⟨hb.1, and _ hb.2.1 (Nat.le_trans this.1 hl),
      fun x hx => and _ (hb.2.2 x hx) (Nat.le_trans (this.2 x hx) hl)⟩
  have := Seq.item_le (f := XorSeq.txt) (a := a)
  exact ⟨h.1, xor _ h.2.1 (Nat.le_trans this.1 hn),
    fun x hx => xor _ (h.2.2 x hx) (Nat.le_trans (this.2 x hx) hn)⟩

/-- the matchers of subfield operands -/
theorem subOperand_fun (rx : Bytes → Bool) (E : Env) (o : Opts) :
    ∃ f : Operand (List Subfield) → SubMatcher, ∀ a, SubOperand rx E o a →
      (f a).eval E o = a.den ∧ ∀ s k, a.text.length ≤ k → SubOpdRun rx s k a.text (f a) := by
  classical
  refine ⟨fun a => if h : SubOperand rx E o a then Classical.choose (subOperand_run rx h)
    else .single (.exists [] []), fun a h => ?_⟩
  simp only [dif_pos h]
  exact Classical.choose_spec (subOperand_run rx h)

/-- sequences without parentheses are inner expressions -/
theorem inner_of_seq (rx : Bytes → Bool) {E : Env} {o : Opts} {a : OrSeq (List Subfield)}
    (h : a.ok (SubOperand rx E o)) (hp : a.plain) :
    ∃ m : SubMatcher, m.eval E o = a.val ∧ Inner rx a.txt m := by
  obtain ⟨f, hf⟩ := subOperand_fun rx E o
  have hval := OrSeq.valV_hom (S := subSyn) (SubMatcher.eval_bitand E o) (SubMatcher.eval_bitxor E o)
    (SubMatcher.eval_bitor E o) (fun a ha => (hf a ha).1) h
  refine ⟨_, hval, ?_⟩
  obtain ⟨-, hrun0⟩ := hf _ h.2.1.2.1.2.1
  obtain ⟨n1, n2, n3⟩ := (hrun0 Levels.zero _ (Nat.le_refl _)).noWs
  obtain ⟨r0, hpre⟩ : ∃ r, a.txt = a.head.head.head.text ++ r := by
    simp only [OrSeq.txt, Seq.text, XorSeq.txt, AndSeq.txt, List.append_assoc]
    exact ⟨_, rfl⟩
  have hnw : NoWs a.txt := by rw [hpre]; exact noWs_append n2 n1
  refine ⟨hnw, by rw [hpre]; simp [n2], ?_, fun k s rest hr hk => ?_⟩
  · rw [hpre]
    cases ht : a.head.head.head.text with
    | nil => exact absurd ht n2
    | cons b t => rw [ht] at n3; exact n3
  rcases orSeq_mat (S := subSyn) (s := s) (f := f)
    (atoms := subAtoms rx (pSubGroup rx k) (pSubNot rx k))
    (fun x hx => ((hf x hx.1).2 s k hx.2).atom) subSyn_runs a (OrSeq.ok_short h hk) hp rest hr with
    ⟨-, hc⟩ | ⟨hl, hc⟩
  · exact ⟨rest, dws_of_noWs (stop_noWs hr), TParser.alt_left hc⟩
  · obtain ⟨et, ev⟩ := not_long hl
    obtain ⟨r', hr1, hr2⟩ := (hrun0 s k (by rw [← et]; exact hk)).alone (stop_follow hr)
    refine ⟨r', hr1, ?_⟩
    rw [ev]
    unfold subInner
    rw [TParser.alt_right hc]
    rw [← et] at hr2
    simp only [TParser.alt] at hr2 ⊢
    generalize pSubSingleM rx s (a.txt ++ rest) = x1 at hr2 ⊢
    obtain ⟨x | x, s1⟩ := x1
    · simp only at hr2 ⊢
      rw [hr2]
    · exact hr2

/-- the alternatives in the order of `parse_subfield_matcher` -/
theorem Inner.top {rx : Bytes → Bool} {e : Bytes} {m : SubMatcher}
    (hin : Inner rx e m) {k s rest} (hr : Stop rest) (hk : e.length ≤ k) :
    ∃ r', dws r' = rest ∧ TParser.alt (pSubComposite rx k)
      (TParser.alt (pSubSingleM rx) (TParser.alt (pSubGroup rx k) (pSubNot rx k))) s (e ++ rest) =
        (some (m, r'), s) := by
  obtain ⟨r', h1, h3⟩ := hin.run k s rest hr hk
  refine ⟨r', h1, ?_⟩
  rw [← h3]
  have hg : ∀ s, pSubGroup rx k s (e ++ rest) = (none, s) := fun s => by
    refine pSubGroup_none (noWs_append hin.ne hin.noWs) ?_
    have := hin.head
    have := hin.ne
    cases e with
    | nil => simp_all
    | cons b e => simp_all
  unfold subInner pSubComposite
  simp only [TParser.alt, hg]
  generalize composite _ _ s _ = x1
  obtain ⟨x | x, s1⟩ := x1
  · simp only
    generalize pSubSingleM rx s1 (e ++ rest) = x2
    obtain ⟨x | x, s2⟩ := x2
    · simp only
      generalize pSubNot rx k s2 (e ++ rest) = x3
      obtain ⟨x | x, s3⟩ := x3 <;> rfl
    · rfl
  · rfl

/-- `parse_subfield_matcher` if one of the alternatives reads the text -/
theorem pSubMatcher_run {rx : Bytes → Bool} {s s' : Levels} {i : Bytes} {x : SubMatcher × Bytes}
    (h : TParser.alt (pSubComposite rx (i.length + 1)) (TParser.alt (pSubSingleM rx)
      (TParser.alt (pSubGroup rx (i.length + 1)) (pSubNot rx (i.length + 1)))) s i = (some x, s')) :
    pSubMatcher rx s i = (some x, subReset s') := by
  unfold pSubMatcher
  simp only [h]

/-- a **subfield expression** as it stands in braces, on a thread whose counter is 0 -/
theorem subBody_run (rx : Bytes → Bool) {E : Env} {o : Opts} {u v} (h : SubBody rx E o u v) :
    NoWs u ∧ u ≠ [] ∧ ∃ m : SubMatcher, m.eval E o = v ∧ ∀ s rest, s.sub = 0 → Stop rest →
      ∃ r', dws r' = rest ∧ pSubMatcher rx s (u ++ rest) = (some (m, r'), s) := by
  rcases h with @⟨d, _, a, hd, ha, hp, hu⟩
  obtain ⟨m, hm, hin⟩ := inner_of_seq rx ha hp
  obtain ⟨n1, n2⟩ := parens_noWs hu hin.noWs hin.ne
  refine ⟨n1, n2, groups d m, by rw [groups_eval, hm], fun s rest hs hr => ?_⟩
  have hreset : ∀ c, subReset (s.addSub c) = s := by
    intro c
    rcases s with ⟨s1, s2, s3⟩
    simp only at hs
    subst hs
    rfl
  rcases d with _ | d
  · cases hu
    obtain ⟨r', h1, h3⟩ := hin.top (s := s) hr (k := (a.txt ++ rest).length + 1) (by simp; omega)
    refine ⟨r', h1, ?_⟩
    have := pSubMatcher_run h3
    rw [show subReset s = s from hreset 0] at this
    exact this
  · have hc := nest_costs hin d ((u ++ rest).length + 1) rest u hr hu (by
      have := parens_length hu
      rw [List.length_append]; omega)
    refine ⟨rest, dws_of_noWs (stop_noWs hr), ?_⟩
    have h2 : TParser.alt (pSubComposite rx ((u ++ rest).length + 1))
        (TParser.alt (pSubSingleM rx) (TParser.alt (pSubGroup rx ((u ++ rest).length + 1))
          (pSubNot rx ((u ++ rest).length + 1)))) s (u ++ rest) =
        (some (groups (d + 1) m, rest), s.addSub (8 * groupCost (d + 1))) := by
      revert hc
      generalize (u ++ rest).length + 1 = k
      obtain ⟨u', rfl⟩ := parens_head hu
      intro hc
      refine (subTop_costs hr hc s).1 ?_
      have : groupCost (d + 1) ≤ 9 := by
        rcases d with _ | _ | d
        · decide
        · decide
        · omega
      omega
    have := pSubMatcher_run h2
    rw [hreset] at this
    exact this

end Pica
