import Verif.Lemmas.ExprSound

/-! Meanings of expressions are total when those of the simple matchers are. -/

namespace Pica
open Spec

/-- evaluation yields a truth value everywhere -/
def DTotal {X : Type} (v : Den X) : Prop := ∀ x, ∃ b, v x = some b

theorem DTotal.dNot {X : Type} {v : Den X} (h : DTotal v) : DTotal (dNot v) := fun x => by
  obtain ⟨b, hb⟩ := h x
  exact ⟨!b, by simp [Spec.dNot, hb]⟩

theorem DTotal.dAnd {X : Type} {v w : Den X} (h : DTotal v) (h' : DTotal w) : DTotal (dAnd v w) :=
  fun x => by
    obtain ⟨b, hb⟩ := h x
    obtain ⟨c, hc⟩ := h' x
    cases b
    · exact ⟨false, by simp [Spec.dAnd, hb]⟩
    · exact ⟨c, by simp [Spec.dAnd, hb, hc]⟩

theorem DTotal.dOr {X : Type} {v w : Den X} (h : DTotal v) (h' : DTotal w) : DTotal (dOr v w) :=
  fun x => by
    obtain ⟨b, hb⟩ := h x
    obtain ⟨c, hc⟩ := h' x
    cases b
    · exact ⟨c, by simp [Spec.dOr, hb, hc]⟩
    · exact ⟨true, by simp [Spec.dOr, hb]⟩

theorem DTotal.dXor {X : Type} {v w : Den X} (h : DTotal v) (h' : DTotal w) : DTotal (dXor v w) :=
  fun x => by
    obtain ⟨b, hb⟩ := h x
    obtain ⟨c, hc⟩ := h' x
    exact ⟨b != c, by simp [Spec.dXor, hb, hc]⟩

section
variable {X : Type} {Single Neg : Bytes → Den X → Prop}

mutual
theorem atomT_total (hs : ∀ t v, Single t v → DTotal v) (hn : ∀ t v, Neg t v → DTotal v) :
    ∀ {t v}, AtomT Single Neg t v → DTotal v
  | _, _, .single _ h _ => hs _ _ h
  | _, _, .group _ h _ => orT_total hs hn h
  | _, _, .not _ h _ => (negT_total hs hn h).dNot
theorem negT_total (hs : ∀ t v, Single t v → DTotal v) (hn : ∀ t v, Neg t v → DTotal v) :
    ∀ {t v}, NegT Single Neg t v → DTotal v
  | _, _, .leaf _ h _ => hn _ _ h
  | _, _, .group _ h _ => orT_total hs hn h
  | _, _, .not _ h _ => (negT_total hs hn h).dNot
theorem andT_total (hs : ∀ t v, Single t v → DTotal v) (hn : ∀ t v, Neg t v → DTotal v) :
    ∀ {t v}, AndT Single Neg t v → DTotal v
  | _, _, .one h => atomT_total hs hn h
  | _, _, .and h h' => (andT_total hs hn h).dAnd (atomT_total hs hn h')
theorem xorT_total (hs : ∀ t v, Single t v → DTotal v) (hn : ∀ t v, Neg t v → DTotal v) :
    ∀ {t v}, XorT Single Neg t v → DTotal v
  | _, _, .one h => andT_total hs hn h
  | _, _, .xor h _ h' => (xorT_total hs hn h).dXor (andT_total hs hn h')
theorem orT_total (hs : ∀ t v, Single t v → DTotal v) (hn : ∀ t v, Neg t v → DTotal v) :
    ∀ {t v}, OrT Single Neg t v → DTotal v
  | _, _, .one h => xorT_total hs hn h
  | _, _, .or h h' => (orT_total hs hn h).dOr (xorT_total hs hn h')
end
end

/-- Regular expressions accepted by the parser compile when they are needed:
one by one and as sets, with the case option in force. -/
structure RegexOk (rx : Bytes → Bool) (E : Env) (o : Opts) : Prop where
  one : ∀ re, rx re = true → (E.regex o.caseIgnore re).isSome = true
  set : ∀ res, (∀ re ∈ res, rx re = true) → (E.regexSet o.caseIgnore res).isSome = true

theorem truth_total {p : Prop} : ∃ b, truth p = some b := ⟨_, rfl⟩

theorem itemsText_all {R : Bytes → Bytes → Prop} {P : Bytes → Prop} (hR : ∀ t s, R t s → P s) :
    ∀ {t xs}, ItemsText R t xs → ∀ x ∈ xs, P x := by
  intro t xs h
  induction h with
  | one h => intro x hx; simp at hx; subst hx; exact hR _ _ h
  | more h _ _ ih =>
    intro x hx
    rcases List.mem_cons.1 hx with rfl | hx
    · exact hR _ _ h
    · exact ih x hx

theorem rxDen_total {f : Option (Bytes → Bool)} (h : f.isSome = true) (q S inv) :
    DTotal (rxDen f q S inv) := fun sf => by
  obtain ⟨g, rfl⟩ := Option.isSome_iff_exists.1 h
  exact truth_total

theorem subText_total {rx E o} (hr : RegexOk rx E o) : ∀ t v, SubText rx E o t v → DTotal v := by
  intro t v h
  cases h with
  | «exists» => intro sf; exact truth_total
  | relation => intro sf; exact truth_total
  | contains => intro sf; exact truth_total
  | isIn => intro sf; exact truth_total
  | card => intro sf; exact truth_total
  | regex _ _ _ h4 => exact rxDen_total (hr.one _ h4.2) _ _ _
  | regexSet _ _ _ h4 =>
    obtain ⟨_, _, _, _, _, _, _, _, _, hi, _⟩ := h4
    exact rxDen_total (hr.set _ (itemsText_all (fun _ _ h => h.2) hi)) _ _ _

theorem existsText_total : ∀ t v, ExistsText t v → DTotal v := by
  rintro t v ⟨_⟩ sf; exact truth_total

theorem subExprText_total {rx E o} (hr : RegexOk rx E o) {t v} (h : SubExprText rx E o t v) :
    DTotal v := orT_total (subText_total hr) existsText_total h

theorem fquant_total {q sel v} (h : DTotal v) : DTotal (FQuant q sel v) := by
  intro fs
  induction fs with
  | nil => cases q <;> exact ⟨_, rfl⟩
  | cons f fs ih =>
    rw [FQuant.eq_def]
    simp only
    split
    · obtain ⟨b, hb⟩ := h f.subfields
      rw [hb]
      cases q <;> cases b <;> first | exact ih | exact ⟨_, rfl⟩
    · exact ih

theorem fcount_total {sel v} (h : DTotal v) (fs : List Field) : ∃ n, FCount sel v fs = some n := by
  induction fs with
  | nil => exact ⟨0, rfl⟩
  | cons f fs ih =>
    rw [FCount]
    split
    · obtain ⟨b, hb⟩ := h f.subfields
      obtain ⟨n, hn⟩ := ih
      rw [hb, hn]
      exact ⟨_, rfl⟩
    · exact ih

theorem fldText_total {rx E o} (hr : RegexOk rx E o) : ∀ t v, FldText rx E o t v → DTotal v := by
  intro t v h
  cases h with
  | «exists» => intro sf; exact truth_total
  | dot _ _ _ _ h => exact fquant_total (subText_total hr _ _ h)
  | braces _ _ _ h => exact fquant_total (subExprText_total hr h)
  | card =>
    intro fs
    simp only
    obtain ⟨n, hn⟩ := fcount_total (sel := ‹_›) (v := fun _ => some true) (fun _ => ⟨_, rfl⟩) fs
    rw [hn]; exact truth_total
  | cardSub _ _ _ _ _ _ _ h =>
    intro fs
    simp only
    obtain ⟨n, hn⟩ := fcount_total (sel := ‹_›) (subExprText_total hr h) fs
    rw [hn]; exact truth_total

theorem fldNegText_total {rx E o} (hr : RegexOk rx E o) : ∀ t v, FldNegText rx E o t v → DTotal v := by
  intro t v h
  cases h with
  | «exists» => intro sf; exact truth_total
  | dot _ _ _ _ h => exact fquant_total (existsText_total _ _ h)
  | braces _ _ _ h => exact fquant_total (subExprText_total hr h)

theorem fldExprText_total {rx E o} (hr : RegexOk rx E o) {t v} (h : FldExprText rx E o t v) :
    DTotal v := orT_total (fldText_total hr) (fldNegText_total hr) h

/-! ## Parsing whole texts -/

theorem subMatcher_new_sound {rx s text m s'} (E : Env) (o : Opts)
    (h : SubMatcher.new rx s text = (some m, s')) : SubExprText rx E o text (m.eval E o) := by
  unfold SubMatcher.new at h
  have h' := TParser.parseAll_eq_some.1 h
  obtain ⟨t, he, ht⟩ := pSubMatcher_sound rx E o _ _ _ _ _ h'
  rw [List.append_nil] at he
  exact he ▸ ht

theorem fieldMatcher_new_sound {rx s text m s'} (E : Env) (o : Opts)
    (h : FieldMatcher.new rx s text = (some m, s')) : FldExprText rx E o text (m.eval E o) := by
  unfold FieldMatcher.new at h
  have h' := TParser.parseAll_eq_some.1 h
  obtain ⟨t, he, ht⟩ := pFieldMatcher_sound rx E o _ _ _ _ _ h'
  rw [List.append_nil] at he
  exact he ▸ ht

end Pica
