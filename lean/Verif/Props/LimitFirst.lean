import Verif.Props.LimitPipe
import Verif.Props.Piped
import Verif.Props.Print
import Verif.Props.Sample
import Verif.Props.Partition

/-! # C98: a limit is the same as a limit of the filter before

`command --limit n OPTIONS` does what `filter --limit n OPTIONS | command` does, also where a run with a limit is
not a part of the run without (`check` with link rules, `sample`). -/

namespace Pica.Props
open Pica Spec

/-- what `filter --limit n` writes; it lets the records through that the options of the other command select -/
def Feeds (f : FilterCmd) (n : Nat) (sel : Selection) (files : List (String × Bytes)) (out : Bytes) : Prop :=
  f.limit = n ∧ f.discard = [] ∧ f.keep = [] ∧ (∀ r, Passes f r ↔ Picked sel r) ∧
    ∃ o k, f.run files = .ok (o, k) ∧ o.out = out

theorem feeds_input {f : FilterCmd} {n : Nat} {sel : Selection} {files : List (String × Bytes)} {out : Bytes}
    (h : Feeds f n sel files out) {rs : List ByteRecord} (hi : Input files rs) (name : String) :
    Input [(name, out)] (limited n (picked sel rs)) ∧ AllValid [(name, out)] := by
  classical
  obtain ⟨rfl, hd, hk, hp, o, k, hr, rfl⟩ := h
  have h1 := (C28_output f files rs hi o k hr).1
  have e : rs.filter (fun r => decide (Passes f r.record)) = picked sel rs := by
    unfold picked
    exact List.filter_congr (fun r _ => by rw [decide_eq_decide]; exact hp r.record)
  rw [e] at h1
  have hl : ∀ r ∈ limited f.limit (picked sel rs), LineRecord r := fun r hr =>
    input_lineRecord hi r (List.mem_filter.1 (mem_limited hr)).1
  have h2 : o.out = (limited f.limit (picked sel rs)).flatMap ByteRecord.write := by
    rw [h1, hd, hk]
    generalize limited f.limit (picked sel rs) = l at hl
    induction l with
    | nil => rfl
    | cons r l ih =>
      rw [List.flatMap_cons, List.flatMap_cons, ih (fun x hx => hl x (by simp [hx])), reduced_nil,
        line_write (hl r (by simp))]
  rw [h2]
  exact lines_input name hl

/-- a step that counts and stops at the limit, and the same step without the limit -/
def CountsOne {S : Type} (n : Nat) (cnt : S → Nat) (x y : Step S) (s : S) : Prop :=
  (x = .panic ∧ y = .panic) ∨ ∃ t, cnt t = cnt s + 1 ∧ x = limitStep n (cnt t) t ∧ y = .next t

theorem runSteps_first {S : Type} {n : Nat} {cnt : S → Nat} {body body' : S → ByteRecord → Step S}
    (hb : ∀ s r, CountsOne n cnt (body s r) (body' s r) s) (rs : List ByteRecord) (s : S) (hs : n = 0 ∨ cnt s < n) :
    runSteps body rs s = runSteps body' (if n = 0 then rs else rs.take (n - cnt s)) s := by
  induction rs generalizing s with
  | nil => split <;> simp [runSteps]
  | cons r rs ih =>
    have e : (if n = 0 then r :: rs else (r :: rs).take (n - cnt s)) =
        r :: (if n = 0 then rs else rs.take (n - (cnt s + 1))) := by
      split
      · rfl
      · obtain ⟨m, hm⟩ : ∃ m, n - cnt s = m + 1 := ⟨n - cnt s - 1, by omega⟩
        rw [hm, List.take_succ_cons, show n - (cnt s + 1) = m by omega]
    rw [e, runSteps, runSteps]
    rcases hb s r with ⟨h1, h2⟩ | ⟨t, ht, h1, h2⟩
    · rw [h1, h2]
    · rw [h1, h2]
      unfold limitStep
      by_cases hc : (decide (n > 0) && decide (cnt t ≥ n)) = true
      · rw [if_pos hc]
        simp only [Bool.and_eq_true, decide_eq_true_eq] at hc
        rw [if_neg (by omega), show n - (cnt s + 1) = 0 by omega]
        rfl
      · rw [if_neg hc]
        simp only [Bool.and_eq_true, decide_eq_true_eq] at hc
        dsimp only
        rw [ih t (by omega), ht]

theorem loop_first {S : Type} {n : Nat} {cnt : S → Nat} {body body' : S → ByteRecord → Step S}
    (hb : ∀ s r, CountsOne n cnt (body s r) (body' s r) s) {skip skip' : Bool} {test test' : ByteRecord → Option Bool}
    {files : List (String × Bytes)} {rs : List ByteRecord} {name : String} {out : Bytes} (hi : Input files rs)
    (hi' : Input [(name, out)] (limited n (chosen test rs))) (hv : AllValid [(name, out)])
    (ht : ∀ r, test' r = some true) {s t : S} (hs : cnt s = 0)
    (h : filesLoop skip id (selBody test body) files s = .ok t) :
    filesLoop skip' id (selBody test' body') [(name, out)] s = .ok t := by
  rw [filesLoop_clean hi' (.inr hv), runSteps_sel_total (fun r _ => ⟨true, ht r⟩)]
  have e : chosen test' (limited n (chosen test rs)) = limited n (chosen test rs) :=
    List.filter_eq_self.2 (fun r _ => by rw [ht]; rfl)
  have h1 := runSteps_sel (filesLoop_ok hi h)
  rw [runSteps_first hb _ _ (by omega), hs, Nat.sub_zero] at h1
  rw [e]
  unfold limited
  rw [h1]

theorem counts_result {S X : Type} {n : Nat} {cnt : S → Nat} {f : ByteRecord → Option X} {g : S → X → S}
    (hg : ∀ s x, cnt (g s x) = cnt s + 1) (s : S) (r : ByteRecord) :
    CountsOne n cnt (resultBody n cnt f g s r) (resultBody 0 cnt f g s r) s := by
  unfold resultBody
  cases f r with
  | none => exact .inl ⟨rfl, rfl⟩
  | some x => exact .inr ⟨g s x, hg s x, rfl, by simp [limitStep]⟩

theorem counts_step {S : Type} {n : Nat} {cnt : S → Nat} {g : S → ByteRecord → S}
    (hg : ∀ s r, cnt (g s r) = cnt s + 1) (s : S) (r : ByteRecord) :
    CountsOne n cnt (limitStep n (cnt (g s r)) (g s r)) (limitStep 0 (cnt (g s r)) (g s r)) s :=
  .inr ⟨g s r, hg s r, rfl, by simp [limitStep]⟩

theorem select_count (c : SelectCmd) (s : SelectState) (x : Outcome) : (c.step s x).count = s.count + 1 := by
  have key : ∀ (rows : Outcome) (s : SelectState), (rows.foldl c.row s).count = s.count := by
    intro rows
    induction rows with
    | nil => intro s; rfl
    | cons row rows ih =>
      intro s
      rw [List.foldl_cons, ih]
      unfold SelectCmd.row
      split
      · rfl
      · split
        · rfl
        · cases c.unique <;> dsimp only <;> split <;> rfl
  unfold SelectCmd.step
  dsimp only
  rw [key]

theorem emit_same (c : FreqCmd) (sel' : Selection) (skip : Bool) (i : Nat) (l : List (Row × Nat)) :
    FreqCmd.emit { c with limit := 0, sel := sel', skip := skip } i l = c.emit i l := by
  induction l generalizing i with
  | nil => rfl
  | cons x l ih =>
    obtain ⟨a, b⟩ := x
    rw [FreqCmd.emit, FreqCmd.emit, ih]

/-- **C98** a run with a limit and filter options does what the command does without them with the output of
`filter --limit`. -/
theorem C98_before (f : FilterCmd) (sel' : Selection) (hs : ∀ r, sel'.test r = some true) (skip : Bool)
    (files : List (String × Bytes)) (name : String) (out : Bytes) :
    (∀ (c : SelectCmd) s, Feeds f c.limit c.sel files out → c.run files = .ok s →
      ({ c with limit := 0, sel := sel', skip := skip } : SelectCmd).run [(name, out)] = .ok s) ∧
    (∀ (c : PrintCmd) s, Feeds f c.limit c.sel files out → c.run files = .ok s →
      ({ c with limit := 0, sel := sel', skip := skip } : PrintCmd).run [(name, out)] = .ok s) ∧
    (∀ (c : HashCmd) s, sel'.E₀ = c.sel.E₀ → Feeds f c.limit c.sel files out → c.run files = .ok s →
      ({ c with limit := 0, sel := sel', skip := skip } : HashCmd).run [(name, out)] = .ok s) ∧
    (∀ (c : FreqCmd) s, Feeds f c.limit c.sel files out → c.run files = .ok s →
      ({ c with limit := 0, sel := sel', skip := skip } : FreqCmd).run [(name, out)] = .ok s) ∧
    (∀ (c : DescribeCmd) s, Feeds f c.limit c.sel files out → c.run files = .ok s →
      ({ c with limit := 0, sel := sel', skip := skip } : DescribeCmd).run [(name, out)] = .ok s) ∧
    (∀ (c : SplitCmd) s, Feeds f c.limit c.sel files out → c.run files = .ok s →
      ({ c with limit := 0, sel := sel', skip := skip } : SplitCmd).run [(name, out)] = .ok s) ∧
    (∀ (c : SampleCmd) s, Feeds f c.limit c.sel files out → c.run files = .ok s →
      ({ c with limit := 0, sel := sel', skip := skip } : SampleCmd).run [(name, out)] = .ok s) ∧
    (∀ (c : CheckCmd) s, Feeds f c.limit c.sel files out → c.run files = .ok s →
      ({ c with limit := 0, sel := sel', skip := skip } : CheckCmd).run [(name, out)] = .ok s) := by
  obtain ⟨rs, hi⟩ := input_exists files
  have go : ∀ {S : Type} (n : Nat) (cnt : S → Nat) (body body' : S → ByteRecord → Step S) (sk : Bool) (sel : Selection)
      (s t : S), Feeds f n sel files out → (∀ s r, CountsOne n cnt (body s r) (body' s r) s) → cnt s = 0 →
      filesLoop sk id (selBody sel.test body) files s = .ok t →
      filesLoop skip id (selBody sel'.test body') [(name, out)] s = .ok t := by
    intro S n cnt body body' sk sel s t hf hb h0 h
    obtain ⟨h1, h2⟩ := feeds_input hf hi name
    rw [← chosen_eq_picked] at h1
    exact loop_first hb hi h1 h2 hs h0 h
  refine ⟨fun c s hf h => ?_, fun c s hf h => ?_, fun c s he hf h => ?_, fun c s hf h => ?_, fun c s hf h => ?_,
    fun c s hf h => ?_, fun c s hf h => ?_, fun c s hf h => ?_⟩
  · exact go c.limit SelectState.count _ _ c.skip c.sel _ s hf (counts_result (select_count c)) rfl h
  · obtain ⟨h1, h2⟩ := feeds_input hf hi name
    rw [← print_chosen] at h1
    exact loop_first (cnt := PrintState.count) (counts_result (fun _ _ => rfl)) hi h1 h2
      (fun r => (print_test sel' r).2 ((picked_iff sel' r).1 (hs r))) rfl h
  · refine go c.limit HashState.count _ _ c.skip c.sel _ s hf (fun s r => ?_) rfl h
    have e : ({ c with limit := 0, sel := sel', skip := skip } : HashCmd).row = c.row := by
      funext r
      unfold HashCmd.row
      dsimp only
      rw [he]
    rw [e]
    exact counts_result (cnt := HashState.count) (f := c.row) (g := fun s x => ⟨s.out ++ [x], s.count + 1⟩) (fun _ _ => rfl) s r
  · unfold FreqCmd.run at h ⊢
    cases hl : c.loop files with
    | ok t =>
      have := go c.limit FreqState.count _ _ c.skip c.sel _ t hf (counts_result (fun _ _ => rfl)) rfl hl
      rw [show ({ c with limit := 0, sel := sel', skip := skip } : FreqCmd).loop [(name, out)] = .ok t from this]
      rw [hl] at h
      rw [← h]
      dsimp only
      rw [emit_same c sel' skip]
    | err e t => rw [hl] at h; simp at h
    | panic => rw [hl] at h; simp at h
  · unfold DescribeCmd.run at h ⊢
    cases hl : c.loop files with
    | ok t =>
      have := go c.limit DescribeState.count _ _ c.skip c.sel _ t hf (counts_step (fun _ _ => rfl)) rfl hl
      rw [show ({ c with limit := 0, sel := sel', skip := skip } : DescribeCmd).loop [(name, out)] = .ok t from this]
      rw [hl] at h
      exact h
    | err e t => rw [hl] at h; simp at h
    | panic => rw [hl] at h; simp at h
  · exact go c.limit SplitState.count _ _ c.skip c.sel _ s hf (counts_step (step_count c)) rfl h
  · unfold SampleCmd.run at h ⊢
    cases hl : c.loop files with
    | ok t =>
      have := go c.limit SampleState.count _ _ c.skip c.sel _ t hf (counts_step (sample_step_count c)) rfl hl
      rw [show ({ c with limit := 0, sel := sel', skip := skip } : SampleCmd).loop [(name, out)] = .ok t from this]
      rw [hl] at h
      exact h
    | err e t => rw [hl] at h; simp at h
    | panic => rw [hl] at h; simp at h
  · unfold CheckCmd.run at h ⊢
    cases hl : filesLoop c.skip id (selBody c.sel.test c.body) files ⟨c.prepared, [], 0⟩ with
    | ok t =>
      have := go c.limit CheckState.count _ (CheckCmd.body { c with limit := 0, sel := sel', skip := skip }) c.skip c.sel _ t hf
        (fun s r => by
          unfold CheckCmd.body
          dsimp only
          split
          · exact .inl ⟨rfl, rfl⟩
          · rename_i ss o _
            exact .inr ⟨⟨ss, s.out ++ o, s.count + 1⟩, rfl, rfl, by simp [limitStep]⟩) rfl hl
      rw [hl] at h
      dsimp only at h ⊢
      change (match filesLoop skip id (selBody sel'.test (CheckCmd.body { c with limit := 0, sel := sel', skip := skip }))
        [(name, out)] ⟨c.prepared, [], 0⟩ with
        | .ok s => LoopResult.ok (s.out ++ s.rulesets.flatMap (RuleSet.finish c.C))
        | .err e s => .err e s.out
        | .panic => .panic) = _
      rw [this]
      exact h
    | err e t => rw [hl] at h; simp at h
    | panic => rw [hl] at h; simp at h

/-- the selection of `appendFilter` as an option -/
def feedSelection : Selection := { noSelection with matcher := some ((fldM "003@?").get (by decide +kernel)) }

theorem feedSample : Feeds (appendFilter 1 false) 1 feedSelection [("a", linkLine "1" "2" ++ linkLine "2" "1")]
    (linkLine "1" "2") := by
  refine ⟨rfl, rfl, rfl, fun r => ?_, ⟨linkLine "1" "2", none⟩, 1, by decide +kernel, rfl⟩
  unfold Passes Picked
  constructor
  · exact fun h => ⟨h.1, fun m hm => by
      simp only [feedSelection, Option.some.injEq] at hm
      subst hm
      exact h.2⟩
  · exact fun h => ⟨h.1, h.2 _ rfl⟩

/-- the dangling reference that is reported with the limit is reported by the pipeline, too -/
example : ({ linkCmd with sel := noSelection, limit := 0, skip := false } : CheckCmd).run [("b", linkLine "1" "2")] =
    .ok [⟨some (bs "1"), bs "L", .error, some (bs "2")⟩] :=
  (C98_before (appendFilter 1 false) noSelection (fun r => (picked_iff noSelection r).2 (noSelection_all r.record)) false
    [("a", linkLine "1" "2" ++ linkLine "2" "1")] "b" (linkLine "1" "2")).2.2.2.2.2.2.2
    { linkCmd with limit := 1, sel := feedSelection } _ feedSample (by decide +kernel)

/-- **C98** for `partition`, `explode` and `slice` this is false: they count what they write. With one record of two
values or parts `filter --limit 1` changes nothing, and a slice may begin after the limit. -/
theorem C98_before_false :
    ((appendFilter 1 false).run [("a", twoLine)] = .ok (⟨twoLine, none⟩, 1) ∧
      (partitionSample "{}" 1).run [("a", twoLine)] = .ok ⟨[(bs "1", twoLine)], 1⟩ ∧
      (partitionSample "{}" 0).run [("b", twoLine)] = .ok ⟨[(bs "1", twoLine), (bs "2", twoLine)], 2⟩) ∧
    ((appendFilter 1 false).run [("a", explodeSample.write)] = .ok (⟨explodeSample.write, none⟩, 1) ∧
      (partSample 1).run [("a", explodeSample.write)] ≠ (partSample 0).run [("b", explodeSample.write)]) ∧
    ((appendFilter 1 false).run [("a", recLine "1" ++ recLine "2")] = .ok (⟨recLine "1", none⟩, 1) ∧
      ({ sliceSample false 1 2 0 with limit := 1 } : SliceCmd).run [("a", recLine "1" ++ recLine "2")] =
        .ok ⟨2, 1, 1, recLine "2"⟩ ∧
      (sliceSample false 1 2 0).run [("b", recLine "1")] = .ok ⟨2, 1, 0, []⟩) := by decide +kernel

end Pica.Props
