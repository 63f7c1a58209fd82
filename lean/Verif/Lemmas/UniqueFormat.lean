import Verif.Lemmas.UniquePath

/-!
Formats have one meaning each.
-/

namespace Pica
open Parser Spec

variable {E : FmtEnv} {o : FmtOpts}

theorem affix_prefix {tp pre} (h : AffixText tp pre) : ∃ w t, tp = w ++ t ∧ Ws w ∧ PrefixText t pre := by
  cases h with
  | none => exact ⟨[], [], rfl, ws_nil', .none⟩
  | some h =>
    obtain ⟨w, u, w', rfl, h1, h2, h3⟩ := h
    exact ⟨w, u ++ w', by simp, h1, .some h2 h3⟩

theorem affix_suffix {ts suf} (h : AffixText ts suf) : ∃ t w, ts = t ++ w ∧ Ws w ∧ SuffixText t suf := by
  cases h with
  | none => exact ⟨[], [], rfl, ws_nil', .none⟩
  | some h =>
    obtain ⟨w, u, w', rfl, h1, h2, h3⟩ := h
    exact ⟨w ++ u, w', rfl, h3, .some h1 h2⟩

theorem prefixCodes_head {t pre c S} (h : PrefixText t pre) (hc : CodesText c S) : (t ++ c).head? ≠ some 0x3F := by
  cases h with
  | none =>
    obtain ⟨b, r, rfl, hb, -⟩ := codesText_head hc
    simpa using codes_not hb (by simp)
  | some h _ =>
    obtain ⟨q, r', rfl, hq⟩ := stringText_quote h
    rcases hq with rfl | rfl <;> simp

/-- a value, with white space in front, as one that is read -/
theorem value_split {t g} (h : ValueText E o t g) : ∃ w x, t = w ++ x.text ∧ Ws w ∧ FmtVal E o x ∧ x.den = g := by
  rcases h with @⟨tm, m, tp, pre, c, cs, tb, n, ts, suf, h1, h2, h3, h4, h5, h6⟩
  obtain ⟨v1, tp', rfl, hv1, hp⟩ := affix_prefix h3
  obtain ⟨ts', v2, rfl, hv2, hs⟩ := affix_suffix h6
  obtain ⟨w, u, w', rfl, hw, hu, hw'⟩ := h1
  cases hu with
  | none =>
    refine ⟨w ++ w' ++ v1, _, ?_, ws_append (ws_append hw hw') hv1,
      .mk (.none (prefixCodes_head hp h4)) hp h4 h5 hs hv2, rfl⟩
    simp
  | @some ls hne hl =>
    refine ⟨w, _, ?_, hw, .mk (.some (w := w' ++ v1) hne hl (ws_append hw' hv1) ?_) hp h4 h5 hs hv2, rfl⟩
    · simp
    · intro e
      obtain ⟨rfl, rfl⟩ := List.append_eq_nil_iff.1 e
      obtain ⟨ls', l, rfl⟩ : ∃ ls' l, ls = ls' ++ [l] := by
        rcases List.eq_nil_or_concat ls with rfl | ⟨a, b, rfl⟩
        · exact absurd rfl hne
        · exact ⟨a, b, by simp⟩
      have := h2 l (by simp) (hl l (by simp))
      simpa using this

theorem fmtVal_trail {x : FPart} (h : FmtVal E o x) {w : Bytes} (hw : Ws w) : FmtVal E o ⟨x.text ++ w, x.den⟩ := by
  rcases h with @⟨tm, m, tp, pre, c, cs, tb, n, ts, suf, w', h1, h2, h3, h4, h5, h6⟩
  have := FmtVal.mk (E := E) (o := o) h1 h2 h3 h4 h5 (ws_append h6 hw)
  simpa using this

theorem fmtVal_det {x y : FPart} (h : FmtVal E o x) (h' : FmtVal E o y) {r r' : Bytes} (hr : FmtEndA (dws r))
    (hr' : FmtEndA (dws r')) (e : x.text ++ r = y.text ++ r') : x.den = y.den ∧ dws r = dws r' := by
  obtain ⟨w, hw, e1⟩ := take_dws r
  obtain ⟨w', hw', e1'⟩ := take_dws r'
  obtain ⟨v, h1, h2⟩ := fmtVal_run E o (fmtVal_trail h hw)
  obtain ⟨v', h1', h2'⟩ := fmtVal_run E o (fmtVal_trail h' hw')
  obtain ⟨a, a1, a2⟩ := h2 _ (fmtEndA_noWs hr) (fmtEndA_after hr)
  obtain ⟨a', a1', a2'⟩ := h2' _ (fmtEndA_noWs hr') (fmtEndA_after hr')
  simp only [List.append_assoc, ← e1] at a2
  simp only [List.append_assoc, ← e1'] at a2'
  rw [e, a2'] at a2
  cases a2
  exact ⟨h1.symm.trans h1', a1.symm.trans a1'⟩

/-! ### what a part starts with -/

/-- a text that starts as a modifier does -/
def ModHead (u : Bytes) : Prop := u.head? = some 0x3F → ∃ l z, u = 0x3F :: l :: z ∧ l ∈ bs "lutwo"

theorem fmtVal_modHead {x : FPart} (h : FmtVal E o x) : ModHead x.text := by
  rcases h with @⟨tm, m, tp, pre, c, cs, tb, n, ts, suf, w', h1, h2, h3, h4, h5, h6⟩
  intro hq
  cases h1 with
  | none h =>
    exfalso
    apply h
    cases htc : tp ++ c with
    | nil =>
      obtain ⟨b, r, rfl, -⟩ := codesText_head h3
      simp at htc
    | cons b z =>
      have e : [] ++ tp ++ c ++ tb ++ ts ++ w' = b :: (z ++ tb ++ ts ++ w') := by
        rw [List.nil_append, htc]; simp
      simp only [e] at hq
      exact hq
  | @some ls w u hne hl hw hg =>
    cases ls with
    | nil => exact absurd rfl hne
    | cons l ls => exact ⟨l, ls ++ w ++ tp ++ c ++ tb ++ ts ++ w', by rw [← bs_qm]; simp, hl l (by simp)⟩

/-! ### chains -/

section
variable {V : Type} {S : Bytes → Prop} {op : V → V → V} {R : Bytes → V → Prop}

theorem LChain.head_cons (ha : ∀ a b c, op (op a b) c = op a (op b c)) {t v s t' v'} (h : R t v) (hs : S s)
    (h' : LChain S op R t' v') : LChain S op R (t ++ s ++ t') (op v v') := by
  induction h' with
  | one h' => exact .more (.one h) hs h'
  | more _ h2 h3 ih =>
    rw [← ha]
    have := LChain.more ih h2 h3
    simpa using this

theorem LChain.lead (hR : ∀ w t v, Ws w → R t v → R (w ++ t) v) {w t v} (hw : Ws w) (h : LChain S op R t v) :
    LChain S op R (w ++ t) v := by
  induction h with
  | one h => exact .one (hR _ _ _ hw h)
  | more _ h2 h3 ih =>
    have := LChain.more ih h2 h3
    simpa using this

theorem LChain.trail (hR : ∀ w t v, Ws w → R t v → R (t ++ w) v) {w t v} (hw : Ws w) (h : LChain S op R t v) :
    LChain S op R (t ++ w) v := by
  cases h with
  | one h => exact .one (hR _ _ _ hw h)
  | more h1 h2 h3 =>
    have := LChain.more h1 h2 (hR _ _ _ hw h3)
    simpa using this

theorem LChain.strip {Q : Bytes → Prop} (hQ : ∀ t r, Q t → Q (t ++ r))
    (hR : ∀ t v, R t v → ∃ w u, t = w ++ u ∧ Ws w ∧ R u v ∧ Q u) {t v} (h : LChain S op R t v) :
    ∃ w u, t = w ++ u ∧ Ws w ∧ LChain S op R u v ∧ Q u := by
  induction h with
  | one h =>
    obtain ⟨w, u, e, h1, h2, h3⟩ := hR _ _ h
    exact ⟨w, u, e, h1, .one h2, h3⟩
  | @more t v s t' v' _ h2 h3 ih =>
    obtain ⟨w, u, rfl, g1, g2, g3⟩ := ih
    exact ⟨w, u ++ s ++ t', by simp, g1, .more g2 h2 h3, by rw [List.append_assoc]; exact hQ _ _ g3⟩

end

/-- a part with white space around it -/
inductive PPart (E : FmtEnv) (o : FmtOpts) : Bytes → (Field → Bytes) → Prop
  | value {w x} : Ws w → FmtVal E o x → PPart E o (w ++ x.text) x.den
  | group {w t w' g} : Ws w → GroupText E o t g → Ws w' → PPart E o (w ++ t ++ w') g

/-- a part, as a list of one part -/
def PItem (E : FmtEnv) (o : FmtOpts) (t : Bytes) (gs : List (Field → Bytes)) : Prop := ∃ g, PPart E o t g ∧ gs = [g]

/-- parts with `<$>` -/
abbrev AndC (E : FmtEnv) (o : FmtOpts) := LChain (· = bs "<$>") (· ++ ·) (PItem E o)

/-- an item of `<*>` -/
def AItem (E : FmtEnv) (o : FmtOpts) (t : Bytes) (gs : List (Field → Bytes)) : Prop :=
  ∃ hs, AndC E o t hs ∧ gs = [andThen hs]

/-- items with `<*>` -/
abbrev ConsC (E : FmtEnv) (o : FmtOpts) := LChain (· = bs "<*>") (· ++ ·) (AItem E o)

theorem pItem_lead (w t : Bytes) (gs) (hw : Ws w) (h : PItem E o t gs) : PItem E o (w ++ t) gs := by
  obtain ⟨g, h, rfl⟩ := h
  refine ⟨g, ?_, rfl⟩
  cases h with
  | @value w' x hw' hx => rw [← List.append_assoc]; exact .value (ws_append hw hw') hx
  | group h1 h2 h3 => rw [← List.append_assoc, ← List.append_assoc]; exact .group (ws_append hw h1) h2 h3

theorem pItem_trail (w t : Bytes) (gs) (hw : Ws w) (h : PItem E o t gs) : PItem E o (t ++ w) gs := by
  obtain ⟨g, h, rfl⟩ := h
  refine ⟨g, ?_, rfl⟩
  cases h with
  | @value w' x hw' hx => rw [List.append_assoc]; exact .value (x := ⟨x.text ++ w, x.den⟩) hw' (fmtVal_trail hx hw)
  | group h1 h2 h3 => rw [List.append_assoc]; exact .group h1 h2 (ws_append h3 hw)

theorem aItem_lead (w t : Bytes) (gs) (hw : Ws w) (h : AItem E o t gs) : AItem E o (w ++ t) gs := by
  obtain ⟨hs, h, rfl⟩ := h
  exact ⟨hs, h.lead pItem_lead hw, rfl⟩

theorem aItem_trail (w t : Bytes) (gs) (hw : Ws w) (h : AItem E o t gs) : AItem E o (t ++ w) gs := by
  obtain ⟨hs, h, rfl⟩ := h
  exact ⟨hs, h.trail pItem_trail hw, rfl⟩

theorem value_pPart {t g} (h : ValueText E o t g) : PPart E o t g := by
  obtain ⟨w, x, rfl, hw, hx, rfl⟩ := value_split h
  exact .value hw hx

theorem part_pPart {t g} (h : PartText E o t g) : PPart E o t g := by
  cases h with
  | group h => have := PPart.group ws_nil' h ws_nil'; simpa using this
  | value h => exact value_pPart h

theorem andText_chain : ∀ {t : Bytes} {gs}, AndText E o t gs → AndC E o t gs
  | _, _, .one h => .one ⟨_, part_pPart h, rfl⟩
  | _, _, .more h hs h' => by
    obtain ⟨w, u, w', rfl, h1, rfl, h3⟩ := hs
    have := LChain.head_cons (S := (· = bs "<$>")) (op := (· ++ ·)) (fun a b c => List.append_assoc a b c)
      (pItem_trail _ _ _ h1 ⟨_, part_pPart h, rfl⟩) rfl ((andText_chain h').lead pItem_lead h3)
    simpa using this

theorem consPart_item {t : Bytes} {g} (h : ConsPartText E o t g) : AItem E o t [g] := by
  cases h with
  | andThen h _ => exact ⟨_, andText_chain h, rfl⟩
  | item h => exact ⟨[g], .one ⟨g, part_pPart h, rfl⟩, by rw [andThen_single]⟩

theorem consText_chain : ∀ {t : Bytes} {gs}, ConsText E o t gs → ConsC E o t gs
  | _, _, .one h => .one (consPart_item h)
  | _, _, .more h hs h' => by
    obtain ⟨w, u, w', rfl, h1, rfl, h3⟩ := hs
    have := LChain.head_cons (S := (· = bs "<*>")) (op := (· ++ ·)) (fun a b c => List.append_assoc a b c)
      (aItem_trail _ _ _ h1 (consPart_item h)) rfl ((consText_chain h').lead aItem_lead h3)
    simpa using this

theorem pPart_chain {t g} (h : PPart E o t g) : ∃ gs, ConsC E o t gs ∧ g = concat gs :=
  ⟨[g], .one ⟨[g], .one ⟨g, h, rfl⟩, by rw [andThen_single]⟩, by rw [concat_single]⟩

theorem inner_chain {t g} (h : InnerText E o t g) : ∃ gs, ConsC E o t gs ∧ g = concat gs := by
  cases h with
  | list h1 h2 h3 =>
    cases h2 with
    | cons h _ => exact ⟨_, ((consText_chain h).lead aItem_lead h1).trail aItem_trail h3, rfl⟩
    | andThen h _ =>
      exact ⟨_, .one ⟨_, ((andText_chain h).lead pItem_lead h1).trail pItem_trail h3, rfl⟩, by rw [concat_single]⟩
  | value h1 h2 h3 =>
    obtain ⟨w, x, rfl, hw, hx, rfl⟩ := value_split h2
    refine pPart_chain ?_
    have := PPart.value (ws_append h1 hw) (fmtVal_trail hx h3)
    simpa using this

theorem frags_chain {t g} (h : FragsText E o t g) : ∃ gs, ConsC E o t gs ∧ g = concat gs := by
  cases h with
  | inner h => exact inner_chain h
  | group h1 h2 h3 => exact pPart_chain (.group h1 h2 h3)

/-- without white space in front, not empty, and a modifier in front is one -/
def Firm (t : Bytes) : Prop := Solid t ∧ ModHead t

theorem firm_append (t r : Bytes) (h : Firm t) : Firm (t ++ r) := by
  obtain ⟨⟨h1, h2⟩, h3⟩ := h
  refine ⟨⟨Solid.noWs ⟨h1, h2⟩ r, by simp [h2]⟩, fun hq => ?_⟩
  cases t with
  | nil => exact absurd rfl h2
  | cons b t =>
    obtain ⟨l, z, e, hl⟩ := h3 hq
    exact ⟨l, z ++ r, by rw [e]; simp, hl⟩

theorem groupText_head {t g} (h : GroupText E o t g) (r : Bytes) : ∃ z, dws (t ++ r) = 0x28 :: z := by
  rcases h with @⟨tl, tm, m, t, g, tr, tb, n, h1, h2, h3, h4, h5, h6, h7⟩
  rw [bs_lpar] at h1
  obtain ⟨w, hw, e⟩ := padded_byte_dws h1 (by decide) (tm ++ t ++ tr ++ tb ++ r)
  exact ⟨_, by simpa using e⟩

theorem groupText_strip {t g} (h : GroupText E o t g) : ∃ w u, t = w ++ u ∧ Ws w ∧ GroupText E o u g ∧ Firm u := by
  rcases h with @⟨tl, tm, m, t, g, tr, tb, n, h1, h2, h3, h4, h5, h6, h7⟩
  obtain ⟨w, u, w', rfl, hw, rfl, hw'⟩ := h1
  refine ⟨w, _, ?_, hw, .mk (tl := bs "(" ++ w') ⟨[], _, w', by simp, ws_nil', rfl, hw'⟩ h2 h3 h4 h5 h6 h7, ?_⟩
  · simp
  · rw [bs_lpar]
    simp only [List.append_assoc, List.cons_append, List.nil_append]
    exact ⟨⟨noWs_cons.2 (by decide), by simp⟩, fun h => by simp at h⟩

theorem pItem_strip (t : Bytes) (gs) (h : PItem E o t gs) : ∃ w u, t = w ++ u ∧ Ws w ∧ PItem E o u gs ∧ Firm u := by
  obtain ⟨g, h, rfl⟩ := h
  cases h with
  | @value w x hw hx =>
    obtain ⟨n1, n2, -⟩ := fmtVal_ne E o hx
    exact ⟨w, x.text, rfl, hw, ⟨_, by simpa using PPart.value ws_nil' hx, rfl⟩, ⟨n1, n2⟩, fmtVal_modHead hx⟩
  | @group w t w' g h1 h2 h3 =>
    obtain ⟨w1, u, rfl, g1, g2, g3⟩ := groupText_strip h2
    exact ⟨w ++ w1, u ++ w', by simp, ws_append h1 g1, ⟨g, by simpa using PPart.group ws_nil' g2 h3, rfl⟩,
      firm_append _ _ g3⟩

theorem consC_strip {t : Bytes} {gs} (h : ConsC E o t gs) :
    ∃ w u, t = w ++ u ∧ Ws w ∧ ConsC E o u gs ∧ Firm u := by
  refine LChain.strip firm_append (fun t v h => ?_) h
  obtain ⟨hs, h, rfl⟩ := h
  obtain ⟨w, u, e, h1, h2, h3⟩ := LChain.strip firm_append pItem_strip h
  exact ⟨w, u, e, h1, ⟨hs, h2, rfl⟩, h3⟩

/-- what a group looks like behind the parenthesis -/
theorem groupText_front {t g} (h : GroupText E o t g) (r : Bytes) : ∃ X tm u m gs tr tb n,
    dws (t ++ r) = 0x28 :: X ∧ dws X = tm ++ (u ++ (tr ++ tb ++ r)) ∧ ModFront E tm u m ∧ Solid u ∧
    ConsC E o u gs ∧ u.length < t.length ∧ (g = fun f => m (concat gs f)) ∧ Padded (· = bs ")") tr ∧
    BoundText (2 ^ 64 - 1) tb n := by
  rcases h with @⟨tl, tm, m, t, g, tr, tb, n, h1, h2, h3, h4, h5, h6, h7⟩
  obtain ⟨gs, hc, rfl⟩ := inner_chain h3
  obtain ⟨w0, u, rfl, hw0, hu, hfirm⟩ := consC_strip hc
  rw [bs_lpar] at h1
  obtain ⟨w, hw, e⟩ := padded_byte_dws h1 (by decide) (tm ++ (w0 ++ u) ++ tr ++ tb ++ r)
  have hlen : u.length < (tl ++ tm ++ (w0 ++ u) ++ tr ++ tb).length := by
    obtain ⟨a, b, c, rfl, -, rfl, -⟩ := h1
    simp only [List.length_append, List.length_cons]
    omega
  cases h2 with
  | none =>
    refine ⟨_, [], u, id, gs, tr, tb, n, by simpa using e, ?_, .none ?_, hfirm.1, hu, hlen, rfl, h6, h7⟩
    · simp only [List.nil_append, List.append_assoc]
      rw [dws_append hw, dws_append hw0]
      exact dws_of_noWs (hfirm.1.noWs _)
    · intro hq
      obtain ⟨l, z, rfl, hl⟩ := hfirm.2 hq
      exact h4 rfl w0 l z hw0 hl (by rw [← bs_qm]; simp)
  | @some ls hne hl =>
    refine ⟨_, bs "?" ++ ls ++ w0, u, modified E ls, gs, tr, tb, n, by simpa using e, ?_, .some hne hl hw0 ?_, hfirm.1, hu,
      hlen, rfl, h6, h7⟩
    · rw [← bs_qm]
      simp only [List.append_assoc]
      rw [dws_append hw]
      exact cons_noWs_dws (by decide)
    · rintro rfl b hb
      obtain ⟨ls', l, rfl⟩ : ∃ ls' l, ls = ls' ++ [l] := by
        rcases List.eq_nil_or_concat ls with rfl | ⟨a, b, rfl⟩
        · exact absurd rfl hne
        · exact ⟨a, b, by simp⟩
      exact h5 l (by simp) (hl l (by simp)) b (by simpa using hb)

theorem bound_dws {d tb n} (h : BoundText d tb n) {w r : Bytes} (hw : Ws w) (hr : FmtEndA (dws r)) :
    ∃ r1, pBound d (dws (w ++ (tb ++ r))) = some (n, r1) ∧ dws r1 = dws r := by
  obtain ⟨w1, hw1, e1⟩ := take_dws r
  have ha := after_ws hw1 (fmtEndA_after hr)
  have ha' := after_ws ws_nil' (fmtEndA_after hr)
  rw [← e1] at ha
  rw [dws_append hw]
  have hdot : bs ".." = 0x2E :: [0x2E] := by rw [← bs_dotdot]
  cases h with
  | none => exact ⟨dws r, pBound_run (tb := []) .none ha'.1 ha'.2, dws_dws r⟩
  | «open» =>
    refine ⟨r, ?_, rfl⟩
    rw [dws_of_noWs (by rw [hdot]; exact noWs_cons.2 (by decide))]
    exact pBound_run .open ha.1 ha.2
  | num h1 h2 h3 =>
    refine ⟨r, ?_, rfl⟩
    rw [dws_of_noWs (by rw [hdot]; exact noWs_cons.2 (by decide))]
    exact pBound_run (.num h1 h2 h3) ha.1 ha.2

theorem group_det {n : Nat} (ih : Det FmtEnd (UpTo n (ConsC E o))) {t t' g g'} (h : GroupText E o t g)
    (h' : GroupText E o t' g') (hn : t.length ≤ n) (hn' : t'.length ≤ n) {r r' : Bytes} (hr : FmtEndA (dws r))
    (hr' : FmtEndA (dws r')) (e : dws (t ++ r) = dws (t' ++ r')) : g = g' ∧ dws r = dws r' := by
  obtain ⟨X, tm, u, m, gs, tr, tb, k, a1, a2, a3, a4, a5, a6, rfl, a8, a9⟩ := groupText_front h r
  obtain ⟨X', tm', u', m', gs', tr', tb', k', b1, b2, b3, b4, b5, b6, rfl, b8, b9⟩ := groupText_front h' r'
  rw [a1, b1] at e
  obtain ⟨-, rfl⟩ := List.cons.inj e
  obtain ⟨mo, em, hm⟩ := pModifier_run E a3 a4.2
  obtain ⟨mo', em', hm'⟩ := pModifier_run E b3 b4.2
  obtain ⟨z, c1, c2⟩ := hm (tr ++ tb ++ r) (a4.noWs _)
  obtain ⟨z', c1', c2'⟩ := hm' (tr' ++ tb' ++ r') (b4.noWs _)
  rw [← a2, b2, c1'] at c1
  cases c1
  rw [bs_rpar] at a8 b8
  obtain ⟨w, hw, d1⟩ := padded_byte_dws a8 (by decide) (tb ++ r)
  obtain ⟨w', hw', d1'⟩ := padded_byte_dws b8 (by decide) (tb' ++ r')
  rw [← List.append_assoc] at d1 d1'
  have hend : ∀ z : Bytes, FmtEnd (0x29 :: z) := fun z => .inr (.inl rfl)
  obtain ⟨rfl, e2⟩ := ih u gs u' gs' (tr ++ tb ++ r) (tr' ++ tb' ++ r') ⟨a5, Nat.lt_of_lt_of_le a6 hn⟩
    ⟨b5, Nat.lt_of_lt_of_le b6 hn'⟩ (by rw [d1]; exact hend _) (by rw [d1']; exact hend _) (c2.symm.trans c2')
  refine ⟨by rw [← em, ← em'], ?_⟩
  rw [d1, d1'] at e2
  have e3 := (List.cons.inj e2).2
  obtain ⟨r1, f1, f2⟩ := bound_dws a9 hw hr
  obtain ⟨r1', f1', f2'⟩ := bound_dws b9 hw' hr'
  rw [e3, f1'] at f1
  cases f1
  exact f2.symm.trans f2'

theorem pItem_det {n : Nat} (ih : Det FmtEnd (UpTo n (ConsC E o))) : Det FmtEndA (UpTo (n + 1) (PItem E o)) := by
  rintro t v t' v' r r' ⟨⟨g, h, rfl⟩, hn⟩ ⟨⟨g', h', rfl⟩, hn'⟩ hr hr' e
  have e := congrArg dws e
  have hval : ∀ {x : FPart} (hx : FmtVal E o x) (z : Bytes), dws (x.text ++ z) = x.text ++ z ∧ (x.text ++ z).head? ≠ some 0x28 := by
    intro x hx z
    obtain ⟨n1, n2, n3⟩ := fmtVal_ne E o hx
    refine ⟨dws_of_noWs (Solid.noWs ⟨n1, n2⟩ z), ?_⟩
    cases hx' : x.text with
    | nil => exact absurd hx' n2
    | cons b y => rw [hx'] at n3; simpa using n3
  cases h with
  | @value w x hw hx =>
    rw [List.append_assoc, dws_append hw, (hval hx r).1] at e
    cases h' with
    | @value w' x' hw' hx' =>
      rw [List.append_assoc, dws_append hw', (hval hx' r').1] at e
      obtain ⟨h1, h2⟩ := fmtVal_det hx hx' hr hr' e
      exact ⟨by rw [h1], h2⟩
    | @group w1 t1 w1' g1 k1 k2 k3 =>
      obtain ⟨z, hz⟩ := groupText_head k2 (w1' ++ r')
      rw [List.append_assoc, List.append_assoc, dws_append k1, hz] at e
      exact absurd (by rw [e]; rfl) (hval hx r).2
  | @group w1 t1 w1' g1 k1 k2 k3 =>
    rw [List.append_assoc, List.append_assoc, dws_append k1] at e
    cases h' with
    | @value w' x' hw' hx' =>
      obtain ⟨z, hz⟩ := groupText_head k2 (w1' ++ r)
      rw [hz, List.append_assoc, dws_append hw', (hval hx' r').1] at e
      exact absurd (by rw [← e]; rfl) (hval hx' r').2
    | @group w2 t2 w2' g2 j1 j2 j3 =>
      rw [List.append_assoc, List.append_assoc, dws_append j1] at e
      simp only [List.length_append] at hn hn'
      rw [← dws_append (r := r) k3] at hr ⊢
      rw [← dws_append (r := r') j3] at hr' ⊢
      obtain ⟨h1, h2⟩ := group_det ih k2 j2 (by omega) (by omega) hr hr' e
      exact ⟨by rw [h1], h2⟩

theorem star_dws (s a : Bytes) (h : s = bs "<*>") : dws (s ++ a) = s ++ a := by
  subst h; rw [bs_star]; exact cons_noWs_dws (by decide)
theorem dollar_dws (s a : Bytes) (h : s = bs "<$>") : dws (s ++ a) = s ++ a := by
  subst h; rw [bs_dollar]; exact cons_noWs_dws (by decide)

theorem endC_not_dollar (r : Bytes) (h : FmtEndC r) : ¬ StartsWith (· = bs "<$>") r := by
  rintro ⟨s, u, rfl, rfl⟩
  rcases h with (h | h | h | h) | ⟨u', h⟩
  · rw [bs_dollar] at h; simp at h
  · rw [bs_dollar] at h; simp at h
  · rw [bs_dollar] at h; simp at h
  · rw [bs_dollar] at h; simp at h
  · rw [bs_dollar, bs_star] at h; simp at h

theorem end_not_star (r : Bytes) (h : FmtEnd r) : ¬ StartsWith (· = bs "<*>") r := by
  rintro ⟨s, u, rfl, rfl⟩
  rw [bs_star] at h
  rcases h with h | h | h | h <;> simp at h

/-- the parts of a format are determined by its text -/
theorem consC_det : ∀ n, Det FmtEnd (UpTo n (ConsC E o))
  | 0 => fun t v t' v' r r' h => absurd h.2 (Nat.not_lt_zero _)
  | n + 1 => by
    have h1 : Det FmtEndC (UpTo (n + 1) (AndC E o)) :=
      (Det.chain (op := (· ++ ·)) ((pItem_det (consC_det n)).mono (fun r h => by
          rcases h with h | ⟨s, u, rfl, rfl⟩
          · exact .inl h
          · exact .inr ⟨u, rfl⟩)) endC_not_dollar (fun s s' a b h h' _ => h.trans h'.symm) dollar_dws).sub
        (fun t v h => h.1.upTo h.2)
    have h2 : Det FmtEndC (UpTo (n + 1) (AItem E o)) := by
      rintro t v t' v' r r' ⟨⟨hs, h, rfl⟩, hn⟩ ⟨⟨hs', h', rfl⟩, hn'⟩ hr hr' e
      obtain ⟨rfl, e2⟩ := h1 _ _ _ _ _ _ ⟨h, hn⟩ ⟨h', hn'⟩ hr hr' e
      exact ⟨rfl, e2⟩
    exact (Det.chain (op := (· ++ ·)) (h2.mono (fun r h => by
          rcases h with h | ⟨s, u, rfl, rfl⟩
          · exact .inl h
          · exact .inr ⟨u, rfl⟩)) end_not_star (fun s s' a b h h' _ => h.trans h'.symm) star_dws).sub
        (fun t v h => h.1.upTo h.2)

theorem fragsText_det : Det FmtEnd (FragsText E o) := by
  intro t v t' v' r r' h h' hr hr' e
  obtain ⟨gs, h1, rfl⟩ := frags_chain h
  obtain ⟨gs', h1', rfl⟩ := frags_chain h'
  obtain ⟨rfl, e2⟩ := consC_det (t.length + t'.length + 1) _ _ _ _ _ _ ⟨h1, by omega⟩ ⟨h1', by omega⟩ hr hr' e
  exact ⟨rfl, e2⟩

/-- a format has one meaning -/
theorem formatText_unique {rx : Bytes → Bool} {t sel sel' v v' g g'} (h : FormatText rx E o t sel v g)
    (h' : FormatText rx E o t sel' v' g') : sel = sel' ∧ v = v' ∧ g = g' := by
  have key : ∀ {t sel v g}, FormatText rx E o t sel v g → ∃ m om Y tg tf tr W, sel = (fun f => fieldSel m om f = true) ∧
      seq pTagMatcher pOccMatcher t = some ((m, om), Y) ∧ dws Y = 0x7B :: (tg ++ (tf ++ tr)) ∧ FragsText E o tg g ∧
      FilterText rx E.toEnv o.opts tf v ∧ dws tr = 0x7D :: W := by
    rintro t sel v g @⟨t, to, sel, tl, tg, g, tf, v, tr, hs, hl, hg, hf, hr⟩
    obtain ⟨m, om, rfl, hm, -, hrun⟩ := selects_run hs
    rw [← bs_lbrace] at hl
    rw [← bs_rbrace] at hr
    obtain ⟨w1, hw1, e1⟩ := padded_byte_dws hl (by decide) (tg ++ (tf ++ tr))
    obtain ⟨w2, hw2, e2⟩ := padded_byte_dws hr (by decide) []
    refine ⟨m, om, tl ++ (tg ++ (tf ++ tr)), w1 ++ tg, tf, tr, w2 ++ [], rfl, ?_, by rw [e1, List.append_assoc], ?_, hf,
      by simpa using e2⟩
    · have := hrun (tl ++ (tg ++ (tf ++ tr))) (padded_byte hl (by decide) (by decide) _).1
      simpa using this
    · cases hg with
      | inner h =>
        refine .inner ?_
        cases h with
        | list a b c => have := InnerText.list (ws_append hw1 a) b c; simpa using this
        | value a b c => have := InnerText.value (ws_append hw1 a) b c; simpa using this
      | group a b c => have := FragsText.group (ws_append hw1 a) b c; simpa using this
  obtain ⟨m, om, Y, tg, tf, tr, W, rfl, a1, a2, a3, a4, a5⟩ := key h
  obtain ⟨m', om', Y', tg', tf', tr', W', rfl, b1, b2, b3, b4, b5⟩ := key h'
  rw [a1] at b1; cases b1
  rw [a2] at b2
  have e := (List.cons.inj b2).2
  have hend : ∀ {tf tr W v}, FilterText rx E.toEnv o.opts tf v → dws tr = 0x7D :: W → FmtEnd (dws (tf ++ tr)) := by
    intro tf tr W v hf htr
    rcases filterText_cases hf tr with ⟨rfl, -⟩ | ⟨ts, h1, -⟩
    · rw [List.nil_append, htr]; exact .inr (.inr (.inl rfl))
    · rw [h1]; exact .inr (.inr (.inr rfl))
  obtain ⟨rfl, e2⟩ := fragsText_det _ _ _ _ _ _ a3 b3 (hend a4 a5) (hend b4 b5) e
  refine ⟨rfl, ?_, rfl⟩
  rcases filterText_cases a4 tr with ⟨rfl, rfl⟩ | ⟨ts, h1, h2⟩
  · rcases filterText_cases b4 tr' with ⟨rfl, rfl⟩ | ⟨ts', h1', h2'⟩
    · rfl
    · rw [h1', List.nil_append, a5] at e2; cases e2
  · rcases filterText_cases b4 tr' with ⟨rfl, rfl⟩ | ⟨ts', h1', h2'⟩
    · rw [h1, List.nil_append, b5] at e2; cases e2
    · rw [h1, h1'] at e2
      exact (subExpr_det _ _ _ _ _ _ h2 h2' (stop_of_rbrace a5) (stop_of_rbrace b5) (List.cons.inj e2).2).1

end Pica
