import Verif.Lemmas.UniqueText
import Verif.Lemmas.PathRun

/-!
Paths have one meaning each.
-/

namespace Pica
open Parser Spec

/-- `|` or `}` -/
def EndCodes (r : Bytes) : Prop := r.head? = some 0x7C ∨ r.head? = some 0x7D

theorem codeLists_run {tc css} (h : CodeLists tc css) : ∃ css', All2 SameCodes css' css ∧ ∀ r, EndCodes (dws r) →
    ∃ r', dws r' = dws r ∧ pPathCodes (dws (tc ++ r)) = some (css', r') := by
  have hstop : ∀ r, EndCodes (dws r) → (dws r).head? ≠ some 0x2C := by
    intro r hr
    rcases hr with h | h <;> rw [h] <;> simp
  cases h with
  | bare h =>
    obtain ⟨css', h1, h2⟩ := codesItems h
    refine ⟨css', h2, fun r hr => ⟨r, rfl, ?_⟩⟩
    rw [dws_of_noWs (itemsText_noWs codesRuns h1 r)]
    unfold pPathCodes
    refine alt_left ?_
    exact separated1_run codesRuns h1 (hstop r hr)
  | @parens tl t tr css hl h hr =>
    obtain ⟨css', h1, h2⟩ := codesItems h
    rw [bs_lpar] at hl
    rw [bs_rpar] at hr
    refine ⟨css', h2, fun r hr' => ⟨dws r, dws_dws r, ?_⟩⟩
    obtain ⟨w, hw, e⟩ := padded_byte_dws hl (by decide) (t ++ (tr ++ r))
    obtain ⟨w', hw', e'⟩ := padded_byte_dws hr (by decide) r
    rw [show tl ++ t ++ tr ++ r = tl ++ (t ++ (tr ++ r)) by simp, e]
    unfold pPathCodes
    rw [alt_right]
    · refine delimited_run (r := t ++ (tr ++ r)) (r' := tr ++ r) (a := 0x28) (c := 0x29) ?_ ?_ ?_
      · rw [wsByte_dws (cons_noWs_dws (by decide)), dws_append_noWs hw (itemsText_noWs codesRuns h1 _)]
      · exact separated1_run codesRuns h1 (by rw [e']; simp)
      · rw [wsByte_dws e', dws_append hw']
    · have : pCodes (0x28 :: (w ++ (t ++ (tr ++ r)))) = none := rfl
      unfold separated1
      simp only [this]

/-- what a path starts with -/
inductive PKind (rx : Bytes → Bool) (E : Env) (o : Opts) :
    Bytes → Bytes → (Field → Prop) → Den (List Subfield) → List Bytes → Prop
  | dot {i m om Y cs' Z cs} : seq pTagMatcher pOccMatcher i = some ((m, om), 0x2E :: Y) →
      pCodes Y = some (cs', Z) → SameCodes cs' cs →
      PKind rx E o i (dws Z) (fun f => fieldSel m om f = true) (fun _ => some true) [cs]
  | all {i m om Y Y' css' Z W css} : seq pTagMatcher pOccMatcher i = some ((m, om), Y) →
      dws Y = 0x7B :: Y' → pPathCodes (dws Y') = some (css', Z) → All2 SameCodes css' css →
      dws Z = 0x7D :: W →
      PKind rx E o i (dws W) (fun f => fieldSel m om f = true) (fun _ => some true) css
  | some {i m om Y Y' css' Z ts v Z' W css} : seq pTagMatcher pOccMatcher i = some ((m, om), Y) →
      dws Y = 0x7B :: Y' → pPathCodes (dws Y') = some (css', Z) → All2 SameCodes css' css →
      dws Z = 0x7C :: (ts ++ Z') → SubExprText rx E o ts v → dws Z' = 0x7D :: W →
      PKind rx E o i (dws W) (fun f => fieldSel m om f = true) v css

theorem sameCodes_join {a b c : Bytes} (h : SameCodes a b) (h' : SameCodes a c) : SameCodes b c :=
  fun x => (h x).symm.trans (h' x)

theorem all2_join : ∀ {a b c : List Bytes}, All2 SameCodes a b → All2 SameCodes a c → All2 SameCodes b c
  | _, _, _, .nil, .nil => .nil
  | _, _, _, .cons h t, .cons h' t' => .cons (sameCodes_join h h') (all2_join t t')

section
variable {rx : Bytes → Bool} {E : Env} {o : Opts}

theorem PKind.det {i e e' sel sel' v v' css css'} (h : PKind rx E o i e sel v css)
    (h' : PKind rx E o i e' sel' v' css') : sel = sel' ∧ v = v' ∧ All2 SameCodes css css' ∧ e = e' := by
  have dot : ∀ Y : Bytes, dws (0x2E :: Y) = 0x2E :: Y := fun Y => cons_noWs_dws (by decide)
  cases h with
  | dot h1 h2 h3 =>
    cases h' with
    | dot g1 g2 g3 =>
      rw [h1] at g1; cases g1; rw [h2] at g2; cases g2
      exact ⟨rfl, rfl, .cons (sameCodes_join h3 g3) .nil, rfl⟩
    | all g1 g2 => rw [h1] at g1; cases g1; rw [dot] at g2; cases g2
    | some g1 g2 => rw [h1] at g1; cases g1; rw [dot] at g2; cases g2
  | all h1 h2 h3 h4 h5 =>
    cases h' with
    | dot g1 => rw [h1] at g1; cases g1; rw [dot] at h2; cases h2
    | all g1 g2 g3 g4 g5 =>
      rw [h1] at g1; cases g1; rw [h2] at g2; cases g2; rw [h3] at g3; cases g3; rw [h5] at g5; cases g5
      exact ⟨rfl, rfl, all2_join h4 g4, rfl⟩
    | some g1 g2 g3 g4 g5 =>
      rw [h1] at g1; cases g1; rw [h2] at g2; cases g2; rw [h3] at g3; cases g3; rw [h5] at g5; cases g5
  | some h1 h2 h3 h4 h5 h6 h7 =>
    cases h' with
    | dot g1 => rw [h1] at g1; cases g1; rw [dot] at h2; cases h2
    | all g1 g2 g3 g4 g5 =>
      rw [h1] at g1; cases g1; rw [h2] at g2; cases g2; rw [h3] at g3; cases g3; rw [h5] at g5; cases g5
    | some g1 g2 g3 g4 g5 g6 g7 =>
      rw [h1] at g1; cases g1; rw [h2] at g2; cases g2; rw [h3] at g3; cases g3; rw [h5] at g5
      obtain ⟨e1, e2⟩ := subExpr_det _ _ _ _ _ _ h6 g6 (stop_of_rbrace h7) (stop_of_rbrace g7) (List.cons.inj g5).2
      rw [h7, g7] at e2
      exact ⟨rfl, e1, all2_join h4 g4, by rw [(List.cons.inj e2).2]⟩

/-- what follows a filter -/
theorem filterText_cases {tf v} (h : FilterText rx E o tf v) (r : Bytes) :
    (tf = [] ∧ v = fun _ => some true) ∨
      ∃ ts, dws (tf ++ r) = 0x7C :: (ts ++ r) ∧ SubExprText rx E o ts v := by
  cases h with
  | none => exact .inl ⟨rfl, rfl⟩
  | @some tb ts v hb hs =>
    rw [← bs_bar] at hb
    obtain ⟨w, hw, e⟩ := padded_byte_dws hb (by decide) (ts ++ r)
    exact .inr ⟨w ++ ts, by rw [List.append_assoc, e, List.append_assoc], orT_lead hw hs⟩

theorem pathText_kind {t sel v css} (h : PathText rx E o t sel v css) (r : Bytes) :
    PKind rx E o (dws (t ++ r)) (dws r) sel v css := by
  cases h with
  | @dot w t to sel c cs w' hw hs hc hw' =>
    obtain ⟨m, om, rfl, hm, -, hrun⟩ := selects_run hs
    obtain ⟨cs', h1, h2⟩ := pCodes_complete hc
    have e : w ++ (t ++ to ++ bs "." ++ c) ++ w' ++ r = w ++ (t ++ (to ++ (0x2E :: (c ++ (w' ++ r))))) := by
      rw [← bs_dot]; simp
    rw [e, dws_append_noWs hw (tagText_noWs hm _).1, ← dws_append (r := r) hw']
    exact .dot (hrun _ (OccStop.cons (by decide))) (h1 _) h2
  | @braces w t to sel tl tc css tf v tr w' hw hs hl hc hf hr hw' =>
    obtain ⟨m, om, rfl, hm, -, hrun⟩ := selects_run hs
    obtain ⟨css', h1, h2⟩ := codeLists_run hc
    rw [← bs_lbrace] at hl
    rw [← bs_rbrace] at hr
    have e : w ++ (t ++ to ++ (tl ++ (tc ++ tf) ++ tr)) ++ w' ++ r =
        w ++ (t ++ (to ++ (tl ++ (tc ++ (tf ++ (tr ++ (w' ++ r))))))) := by simp
    obtain ⟨w1, hw1, e1⟩ := padded_byte_dws hl (by decide) (tc ++ (tf ++ (tr ++ (w' ++ r))))
    obtain ⟨w2, hw2, e2⟩ := padded_byte_dws hr (by decide) (w' ++ r)
    rw [e, dws_append_noWs hw (tagText_noWs hm _).1, ← dws_append (r := r) hw', ← dws_append (r := w' ++ r) hw2]
    have hhead := hrun _ (padded_byte hl (by decide) (by decide) (tc ++ (tf ++ (tr ++ (w' ++ r))))).1
    rcases filterText_cases hf (tr ++ (w' ++ r)) with ⟨rfl, rfl⟩ | ⟨ts, e3, h3⟩
    · obtain ⟨r', h4, h5⟩ := h2 (tr ++ (w' ++ r)) (by rw [e2]; exact .inr rfl)
      exact .all hhead e1 (by rw [dws_append hw1]; exact h5) h1 (by rw [h4, e2])
    · obtain ⟨r', h4, h5⟩ := h2 (tf ++ (tr ++ (w' ++ r))) (by rw [e3]; exact .inl rfl)
      exact .some hhead e1 (by rw [dws_append hw1]; exact h5) h1 (by rw [h4, e3]) h3 e2

/-- a path has one meaning -/
theorem pathText_unique {t sel sel' v v' css css'} (h : PathText rx E o t sel v css)
    (h' : PathText rx E o t sel' v' css') : sel = sel' ∧ v = v' ∧ All2 SameCodes css css' := by
  obtain ⟨h1, h2, h3, -⟩ := (pathText_kind h []).det (pathText_kind h' [])
  exact ⟨h1, h2, h3⟩

end
end Pica
