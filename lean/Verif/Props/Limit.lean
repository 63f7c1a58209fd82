import Verif.Lemmas.Limit
import Verif.Model.FilterCmd
import Verif.Model.Select
import Verif.Model.Print
import Verif.Model.Explode
import Verif.Model.Slice
import Verif.Model.Split
import Verif.Model.Partition
import Verif.Model.Frequency
import Verif.Model.Describe
import Verif.Model.Sample
import Verif.Model.Check
import Verif.Props.Link
import Verif.Props.Append
import Verif.Props.Split
import Verif.Props.Explode

/-! # C98: runs with `--limit` -/

namespace Pica.Props
open Pica Spec

/-! ## a part of the results -/

/-- **C98** `filter`: the output with a smaller limit is the beginning of the output with a larger one or
without, and so is the tee file. -/
theorem C98_filter (c : FilterCmd) (m n : Nat) (h : LimitLe m n) (files : List (String × Bytes)) :
    Shorter (fun s t => s.1.out <+: t.1.out ∧ s.1.tee.getD [] <+: t.1.tee.getD [] ∧ s.2 ≤ t.2)
      (({ c with limit := m } : FilterCmd).run files) (({ c with limit := n } : FilterCmd).run files) := by
  unfold FilterCmd.run
  refine filesLoop_sooner (fun s => ⟨List.prefix_refl _, List.prefix_refl _, Nat.le_refl _⟩)
    (fun a b d h1 h2 => ⟨h1.1.trans h2.1, h1.2.1.trans h2.2.1, Nat.le_trans h1.2.2 h2.2.2⟩)
    (fun s => ⟨List.prefix_refl _, List.prefix_refl _, Nat.le_refl _⟩)
    (selBody_sooner (fun s r => limitStep_sooner (fun s => ⟨List.prefix_refl _, List.prefix_refl _, Nat.le_refl _⟩) h _ _))
    (selBody_grows (fun s => ⟨List.prefix_refl _, List.prefix_refl _, Nat.le_refl _⟩) (fun s r t ht => ?_)) files _
  rw [limitStep_state ht]
  refine ⟨List.prefix_append _ _, ?_, Nat.le_succ _⟩
  simp only [FilterCmd.emit]
  cases s.1.tee with
  | none => exact List.prefix_refl _
  | some d => exact List.prefix_append _ _

theorem row_grows (c : SelectCmd) (rows : List (List Bytes)) (s : SelectState) : s.out <+: (rows.foldl c.row s).out := by
  induction rows generalizing s with
  | nil => exact List.prefix_refl _
  | cons row rows ih =>
    rw [List.foldl_cons]
    refine List.IsPrefix.trans ?_ (ih (c.row s row))
    unfold SelectCmd.row
    split
    · exact List.prefix_refl _
    · split
      · exact List.prefix_refl _
      · cases c.unique <;> dsimp only <;> split <;>
          first
            | exact List.prefix_append _ _
            | exact List.prefix_refl _

/-- **C98** `select`: the rows -/
theorem C98_select (c : SelectCmd) (m n : Nat) (h : LimitLe m n) (files : List (String × Bytes)) :
    Shorter (fun s t => s.out <+: t.out)
      (({ c with limit := m } : SelectCmd).run files) (({ c with limit := n } : SelectCmd).run files) := by
  unfold SelectCmd.run
  have hr : ∀ s : SelectState, (fun s t : SelectState => s.out <+: t.out) s s := fun s => List.prefix_refl _
  refine filesLoop_sooner (R := fun s t : SelectState => s.out <+: t.out) hr (fun a b d h1 h2 => List.IsPrefix.trans h1 h2) hr
    (selBody_sooner (resultBody_sooner hr h)) (selBody_grows hr (resultBody_grows (fun s x => ?_))) files _
  exact row_grows c x s

/-- **C98** `print`: the text -/
theorem C98_print (c : PrintCmd) (m n : Nat) (h : LimitLe m n) (files : List (String × Bytes)) :
    Shorter (fun s t => s.out <+: t.out)
      (({ c with limit := m } : PrintCmd).run files) (({ c with limit := n } : PrintCmd).run files) := by
  unfold PrintCmd.run
  have hr : ∀ s : PrintState, (fun s t : PrintState => s.out <+: t.out) s s := fun s => List.prefix_refl _
  exact filesLoop_sooner (R := fun s t : PrintState => s.out <+: t.out) hr (fun a b d h1 h2 => List.IsPrefix.trans h1 h2) hr
    (selBody_sooner (resultBody_sooner hr h)) (selBody_grows hr (resultBody_grows (fun s x => List.prefix_append _ _))) files _

/-- **C98** `hash`: the rows -/
theorem C98_hash (c : HashCmd) (m n : Nat) (h : LimitLe m n) (files : List (String × Bytes)) :
    Shorter (fun s t => s.out <+: t.out)
      (({ c with limit := m } : HashCmd).run files) (({ c with limit := n } : HashCmd).run files) := by
  unfold HashCmd.run
  have hr : ∀ s : HashState, (fun s t : HashState => s.out <+: t.out) s s := fun s => List.prefix_refl _
  exact filesLoop_sooner (R := fun s t : HashState => s.out <+: t.out) hr (fun a b d h1 h2 => List.IsPrefix.trans h1 h2) hr
    (selBody_sooner (resultBody_sooner hr h)) (selBody_grows hr (resultBody_grows (fun s x => List.prefix_append _ _))) files _

theorem each_grows (c : ExplodeCmd) (xs : List Record) (s t : Bytes × Nat) (h : c.each xs s = .next t ∨ c.each xs s = .stop t) :
    s.1 <+: t.1 := by
  induction xs generalizing s with
  | nil => simp [ExplodeCmd.each] at h; exact h ▸ List.prefix_refl _
  | cons x xs ih =>
    rw [ExplodeCmd.each] at h
    cases hx : ByteRecord.fromBytes (x.flatMap Field.write ++ [LF]) with
    | none => rw [hx] at h; simp at h
    | some r =>
      rw [hx] at h
      dsimp only at h
      have hg := selBody_grows (R := fun s t : Bytes × Nat => s.1 <+: t.1) (fun s => List.prefix_refl _)
        (test := c.sel.test) (act := fun s r => limitStep c.limit (s.2 + 1) (s.1 ++ (c.reduce r).write, s.2 + 1))
        (fun s r t ht => by rw [limitStep_state ht]; exact List.prefix_append _ _) s r
      cases hb : selBody c.sel.test (fun s r => limitStep c.limit (s.2 + 1) (s.1 ++ (c.reduce r).write, s.2 + 1)) s r with
      | next u => rw [hb] at h; exact (hg u (.inl hb)).trans (ih u h)
      | stop u => rw [hb] at h; simp at h; exact h ▸ hg u (.inr hb)
      | panic => rw [hb] at h; simp at h

theorem each_sooner (c : ExplodeCmd) (m n : Nat) (h : LimitLe m n) (xs : List Record) (s : Bytes × Nat) :
    Sooner (fun s t : Bytes × Nat => s.1 <+: t.1) (({ c with limit := m } : ExplodeCmd).each xs s)
      (({ c with limit := n } : ExplodeCmd).each xs s) := by
  induction xs generalizing s with
  | nil => exact .inl rfl
  | cons x xs ih =>
    rw [ExplodeCmd.each, ExplodeCmd.each]
    cases hx : ByteRecord.fromBytes (x.flatMap Field.write ++ [LF]) with
    | none => exact .inl rfl
    | some r =>
      dsimp only
      rcases selBody_sooner (R := fun s t : Bytes × Nat => s.1 <+: t.1) (test := c.sel.test)
        (fun s r => limitStep_sooner (R := fun s t : Bytes × Nat => s.1 <+: t.1) (fun s => List.prefix_refl _) h (s.2 + 1)
          (s.1 ++ (c.reduce r).write, s.2 + 1)) s r
        with hb | ⟨t, hb, hb'⟩
      · have hb1 : selBody c.sel.test (fun s r => limitStep m (s.2 + 1)
            (s.1 ++ (({ c with limit := m } : ExplodeCmd).reduce r).write, s.2 + 1)) s r =
            selBody c.sel.test (fun s r => limitStep n (s.2 + 1)
              (s.1 ++ (({ c with limit := n } : ExplodeCmd).reduce r).write, s.2 + 1)) s r := hb
        rw [hb1]
        cases selBody c.sel.test (fun s r => limitStep n (s.2 + 1)
              (s.1 ++ (({ c with limit := n } : ExplodeCmd).reduce r).write, s.2 + 1)) s r with
        | next u => exact ih u
        | stop u => exact .inl rfl
        | panic => exact .inl rfl
      · have hb1 : selBody c.sel.test (fun s r => limitStep m (s.2 + 1)
            (s.1 ++ (({ c with limit := m } : ExplodeCmd).reduce r).write, s.2 + 1)) s r = .stop t := hb
        rw [hb1]
        refine .inr ⟨t, rfl, ?_⟩
        rcases hb' with hb' | ⟨u, hu, hb' | hb'⟩
        · have hb2 : selBody c.sel.test (fun s r => limitStep n (s.2 + 1)
            (s.1 ++ (({ c with limit := n } : ExplodeCmd).reduce r).write, s.2 + 1)) s r = .panic := hb'
          rw [hb2]; exact .inl rfl
        · have hb2 : selBody c.sel.test (fun s r => limitStep n (s.2 + 1)
            (s.1 ++ (({ c with limit := n } : ExplodeCmd).reduce r).write, s.2 + 1)) s r = .next u := hb'
          rw [hb2]
          dsimp only
          cases he : ({ c with limit := n } : ExplodeCmd).each xs u with
          | next v => exact .inr ⟨v, hu.trans (each_grows _ _ _ _ (.inl he)), .inl rfl⟩
          | stop v => exact .inr ⟨v, hu.trans (each_grows _ _ _ _ (.inr he)), .inr rfl⟩
          | panic => exact .inl rfl
        · have hb2 : selBody c.sel.test (fun s r => limitStep n (s.2 + 1)
            (s.1 ++ (({ c with limit := n } : ExplodeCmd).reduce r).write, s.2 + 1)) s r = .stop u := hb'
          rw [hb2]; exact .inr ⟨u, hu, .inr rfl⟩

/-- **C98** `explode`: the output -/
theorem C98_explode (c : ExplodeCmd) (m n : Nat) (h : LimitLe m n) (files : List (String × Bytes)) :
    Shorter (fun s t => s.1 <+: t.1)
      (({ c with limit := m } : ExplodeCmd).run files) (({ c with limit := n } : ExplodeCmd).run files) := by
  unfold ExplodeCmd.run
  have hr : ∀ s : Bytes × Nat, (fun s t : Bytes × Nat => s.1 <+: t.1) s s := fun s => List.prefix_refl _
  refine filesLoop_sooner (R := fun s t : Bytes × Nat => s.1 <+: t.1) hr (fun a b d h1 h2 => List.IsPrefix.trans h1 h2) hr
    (fun s r => ?_) (fun s r t ht => ?_) files _
  · unfold ExplodeCmd.body
    dsimp only
    cases explodeRecord c.level r.record with
    | none => exact .inl rfl
    | some xs => exact each_sooner c m n h xs s
  · unfold ExplodeCmd.body at ht
    dsimp only at ht
    cases hx : explodeRecord c.level r.record with
    | none => rw [hx] at ht; simp at ht
    | some xs => rw [hx] at ht; exact each_grows _ _ _ _ ht

/-- **C98** `slice`: the output -/
theorem C98_slice (c : SliceCmd) (m n : Nat) (h : LimitLe m n) (files : List (String × Bytes)) :
    Shorter (fun s t => s.out <+: t.out)
      (({ c with limit := m } : SliceCmd).run files) (({ c with limit := n } : SliceCmd).run files) := by
  unfold SliceCmd.run
  have hr : ∀ s : SliceState, (fun s t : SliceState => s.out <+: t.out) s s := fun s => List.prefix_refl _
  refine filesLoop_sooner (R := fun s t : SliceState => s.out <+: t.out) (onSkip := c.onSkip) hr (fun a b d h1 h2 => List.IsPrefix.trans h1 h2) (fun s => ?_)
    (selBody_sooner (fun s r => ?_)) (selBody_grows hr (fun s r t ht => ?_)) files _
  · unfold SliceCmd.onSkip
    split <;> exact List.prefix_refl _
  · unfold SliceCmd.act
    dsimp only
    split
    · rcases limitStep_sooner (R := fun s t : SliceState => s.out <+: t.out) (fun s => List.prefix_refl _) h (s.count + 1)
        { s with out := s.out ++ r.write, count := s.count + 1 } with hl | ⟨t, hl, hl'⟩
      · unfold limitStep at hl
        split
        · rename_i hm
          rw [if_pos hm] at hl
          split
          · exact .inl rfl
          · rename_i hn
            rw [if_neg hn] at hl
            simp at hl
        · rename_i hm
          rw [if_neg hm] at hl
          split
          · rename_i hn
            rw [if_pos hn] at hl
            simp at hl
          · exact .inl rfl
      · unfold limitStep at hl
        split at hl
        · rename_i hm
          rw [if_pos hm]
          simp only [Step.stop.injEq] at hl
          refine .inr ⟨_, rfl, .inr ?_⟩
          split
          · exact ⟨_, List.prefix_refl _, .inr rfl⟩
          · exact ⟨{ s with i := s.i + 1, count := s.count + 1, out := s.out ++ r.write }, List.prefix_refl _, .inl rfl⟩
        · simp at hl
    · exact .inl rfl
  · unfold SliceCmd.act at ht
    dsimp only at ht
    split at ht
    · split at ht <;> simp at ht <;> rw [← ht] <;> exact List.prefix_append _ _
    · split at ht <;> simp at ht <;> rw [← ht] <;> exact List.prefix_refl _

/-- the writers of `partition` -/
def WrittenLe (s t : PartitionState) : Prop := ∀ v d, (v, d) ∈ s.writers → ∃ d', (v, d') ∈ t.writers ∧ d <+: d'

theorem put_grows (s : PartitionState) (v data : Bytes) : WrittenLe s (PartitionCmd.put s v data) := by
  intro w d hw
  unfold PartitionCmd.put
  split
  · by_cases h : (w == v) = true
    · exact ⟨d ++ data, List.mem_map.2 ⟨(w, d), hw, by simp only [h, if_true]⟩, List.prefix_append _ _⟩
    · refine ⟨d, List.mem_map.2 ⟨(w, d), hw, ?_⟩, List.prefix_refl _⟩
      simp only [h]
      rfl
  · exact ⟨d, List.mem_append_left _ hw, List.prefix_refl _⟩

theorem writtenLe_refl (s : PartitionState) : WrittenLe s s := fun _ d h => ⟨d, h, List.prefix_refl _⟩

theorem writtenLe_trans (a b c : PartitionState) (h1 : WrittenLe a b) (h2 : WrittenLe b c) : WrittenLe a c := by
  intro v d h
  obtain ⟨d', h', hp⟩ := h1 v d h
  obtain ⟨d'', h'', hp'⟩ := h2 v d' h'
  exact ⟨d'', h'', hp.trans hp'⟩

theorem puts_grows (c : PartitionCmd) (r : ByteRecord) (vs : List Bytes) (s t : PartitionState)
    (h : c.puts r vs s = .next t ∨ c.puts r vs s = .stop t) : WrittenLe s t := by
  induction vs generalizing s with
  | nil => simp [PartitionCmd.puts] at h; exact h ▸ writtenLe_refl _
  | cons v vs ih =>
    rw [PartitionCmd.puts] at h
    split at h
    · simp at h; exact h ▸ put_grows s v r.write
    · exact writtenLe_trans _ _ _ (put_grows s v r.write) (ih _ h)

theorem puts_sooner (c : PartitionCmd) (m n : Nat) (h : LimitLe m n) (r : ByteRecord) (vs : List Bytes) (s : PartitionState) :
    Sooner WrittenLe (({ c with limit := m } : PartitionCmd).puts r vs s) (({ c with limit := n } : PartitionCmd).puts r vs s) := by
  induction vs generalizing s with
  | nil => exact .inl rfl
  | cons v vs ih =>
    rw [PartitionCmd.puts, PartitionCmd.puts]
    by_cases hm : (decide (m > 0) && decide ((PartitionCmd.put s v r.write).count ≥ m)) = true
    · rw [if_pos hm]
      refine .inr ⟨_, rfl, ?_⟩
      split
      · exact .inr ⟨_, writtenLe_refl _, .inr rfl⟩
      · cases he : ({ c with limit := n } : PartitionCmd).puts r vs (PartitionCmd.put s v r.write) with
        | next u => exact .inr ⟨u, puts_grows _ _ _ _ _ (.inl he), .inl rfl⟩
        | stop u => exact .inr ⟨u, puts_grows _ _ _ _ _ (.inr he), .inr rfl⟩
        | panic => exact .inl rfl
    · rw [if_neg hm, if_neg]
      · exact ih _
      · simp only [Bool.and_eq_true, decide_eq_true_eq, not_and, ge_iff_le, Nat.not_le] at hm ⊢
        intro hn
        rcases h with rfl | ⟨h1, h2⟩
        · omega
        · have := hm h1
          omega

/-- **C98** `partition`: every file has the beginning of its content. -/
theorem C98_partition (c : PartitionCmd) (m n : Nat) (h : LimitLe m n) (files : List (String × Bytes)) :
    Shorter WrittenLe
      (({ c with limit := m } : PartitionCmd).run files) (({ c with limit := n } : PartitionCmd).run files) := by
  unfold PartitionCmd.run
  refine filesLoop_sooner writtenLe_refl writtenLe_trans writtenLe_refl
    (selBody_sooner (fun s r => ?_)) (selBody_grows writtenLe_refl (fun s r t ht => ?_)) files _
  · unfold PartitionCmd.body
    dsimp only
    cases c.path.values c.sel.E c.sel.o r.record with
    | none => exact .inl rfl
    | some vs => exact puts_sooner c m n h r _ s
  · unfold PartitionCmd.body at ht
    dsimp only at ht
    cases hx : c.path.values c.sel.E c.sel.o r.record with
    | none => rw [hx] at ht; simp at ht
    | some vs => rw [hx] at ht; exact puts_grows _ _ _ _ _ ht

/-- counts of `frequency` -/
def CountsLe (s t : FreqState) : Prop := ∀ x k, (x, k) ∈ s.table → ∃ k', (x, k') ∈ t.table ∧ k ≤ k'

theorem bump_grows (t : List (Row × Nat)) (key : Row) (x : Row) (k : Nat) (h : (x, k) ∈ t) :
    ∃ k', (x, k') ∈ FreqCmd.bump t key ∧ k ≤ k' := by
  unfold FreqCmd.bump
  split
  · by_cases he : (x == key) = true
    · exact ⟨k + 1, List.mem_map.2 ⟨(x, k), h, by simp only [he, if_true]⟩, Nat.le_succ _⟩
    · refine ⟨k, List.mem_map.2 ⟨(x, k), h, ?_⟩, Nat.le_refl _⟩
      simp only [he]
      rfl
  · exact ⟨k, List.mem_append_left _ h, Nat.le_refl _⟩

theorem addRows_grows (unique : Bool) (rows : List Row) (seen : List Row) (t : List (Row × Nat)) (x : Row) (k : Nat)
    (h : (x, k) ∈ t) : ∃ k', (x, k') ∈ FreqCmd.addRows unique rows seen t ∧ k ≤ k' := by
  induction rows generalizing seen t k with
  | nil => exact ⟨k, h, Nat.le_refl _⟩
  | cons key rows ih =>
    rw [FreqCmd.addRows]
    split
    · split
      · exact ih seen t k h
      · obtain ⟨k', h', hk⟩ := bump_grows t key x k h
        obtain ⟨k'', h'', hk'⟩ := ih _ _ k' h'
        exact ⟨k'', h'', Nat.le_trans hk hk'⟩
    · exact ih seen t k h

/-- **C98** `frequency`: no value is counted more often with a smaller limit. -/
theorem C98_frequency (c : FreqCmd) (m n : Nat) (h : LimitLe m n) (files : List (String × Bytes)) :
    Shorter CountsLe (({ c with limit := m } : FreqCmd).loop files) (({ c with limit := n } : FreqCmd).loop files) := by
  unfold FreqCmd.loop
  have hr : ∀ s, CountsLe s s := fun s x k h => ⟨k, h, Nat.le_refl _⟩
  exact filesLoop_sooner hr (fun a b d h1 h2 x k h => by
      obtain ⟨k', h', hk⟩ := h1 x k h
      obtain ⟨k'', h'', hk'⟩ := h2 x k' h'
      exact ⟨k'', h'', Nat.le_trans hk hk'⟩) hr
    (selBody_sooner (resultBody_sooner hr h))
    (selBody_grows hr (resultBody_grows (fun s rows x k h => addRows_grows _ rows [] s.table x k h))) files _

/-- numbers of subfields by code -/
def CellsLe (row row' : List (Byte × Nat)) : Prop := ∀ code k, (code, k) ∈ row → ∃ k', (code, k') ∈ row' ∧ k ≤ k'

/-- the table of `describe` -/
def FieldsLe (s t : DescribeState) : Prop :=
  ∀ tag row, (tag, row) ∈ s.fields → ∃ row', (tag, row') ∈ t.fields ∧ CellsLe row row'

theorem cellsLe_refl (row : List (Byte × Nat)) : CellsLe row row := fun _ k h => ⟨k, h, Nat.le_refl _⟩

theorem cellsLe_trans {a b c : List (Byte × Nat)} (h1 : CellsLe a b) (h2 : CellsLe b c) : CellsLe a c := by
  intro x k h
  obtain ⟨k', h', hk⟩ := h1 x k h
  obtain ⟨k'', h'', hk'⟩ := h2 x k' h'
  exact ⟨k'', h'', Nat.le_trans hk hk'⟩

theorem codeAdd_grows (t : List (Byte × Nat)) (c : Byte) : CellsLe t (codeAdd t c) := by
  intro x k h
  unfold codeAdd
  split
  · by_cases he : (x == c) = true
    · exact ⟨k + 1, List.mem_map.2 ⟨(x, k), h, by simp only [he, if_true]⟩, Nat.le_succ _⟩
    · refine ⟨k, List.mem_map.2 ⟨(x, k), h, ?_⟩, Nat.le_refl _⟩
      simp only [he]
      rfl
  · exact ⟨k, List.mem_append_left _ h, Nat.le_refl _⟩

theorem codes_grow (codes : List Byte) (t : List (Byte × Nat)) : CellsLe t (codes.foldl codeAdd t) := by
  induction codes generalizing t with
  | nil => exact cellsLe_refl t
  | cons c codes ih => exact cellsLe_trans (codeAdd_grows t c) (ih _)

theorem fields_grow (fs : List Field) (t : TagTable) (tag : Bytes) (row : List (Byte × Nat)) (h : (tag, row) ∈ t) :
    ∃ row', (tag, row') ∈ fs.foldl fieldAdd t ∧ CellsLe row row' := by
  induction fs generalizing t row with
  | nil => exact ⟨row, h, cellsLe_refl row⟩
  | cons f fs ih =>
    have h1 : ∃ row', (tag, row') ∈ fieldAdd t f ∧ CellsLe row row' := by
      unfold fieldAdd
      dsimp only
      split
      · by_cases he : (tag == f.tag) = true
        · exact ⟨_, List.mem_map.2 ⟨(tag, row), h, by simp only [he, if_true]⟩,
            codes_grow (f.subfields.map (fun x => x.code)) row⟩
        · refine ⟨row, List.mem_map.2 ⟨(tag, row), h, ?_⟩, cellsLe_refl row⟩
          simp only [he]
          rfl
      · exact ⟨row, List.mem_append_left _ h, cellsLe_refl row⟩
    obtain ⟨row', h1, h2⟩ := h1
    obtain ⟨row'', h3, h4⟩ := ih _ row' h1
    exact ⟨row'', h3, cellsLe_trans h2 h4⟩

/-- **C98** `describe`: no number in the table is larger with a smaller limit. -/
theorem C98_describe (c : DescribeCmd) (m n : Nat) (h : LimitLe m n) (files : List (String × Bytes)) :
    Shorter FieldsLe (({ c with limit := m } : DescribeCmd).loop files) (({ c with limit := n } : DescribeCmd).loop files) := by
  unfold DescribeCmd.loop
  have hr : ∀ s, FieldsLe s s := fun s tag row h => ⟨row, h, cellsLe_refl row⟩
  refine filesLoop_sooner hr (fun a b d h1 h2 tag row h => ?_) hr
    (selBody_sooner (fun s r => limitStep_sooner hr h _ _)) (selBody_grows hr (fun s r t ht => ?_)) files _
  · obtain ⟨row', h', hk⟩ := h1 tag row h
    obtain ⟨row'', h'', hk'⟩ := h2 tag row' h'
    exact ⟨row'', h'', cellsLe_trans hk hk'⟩
  · rw [limitStep_state ht]
    exact fun tag row h => fields_grow _ s.fields tag row h

/-- the chunks of `split` -/
def ChunksLe (s t : SplitState) : Prop := ∀ f d, (f, d) ∈ s.store → ∃ d', (f, d') ∈ t.store ∧ d <+: d'

theorem chunksLe_refl (s : SplitState) : ChunksLe s s := fun _ d h => ⟨d, h, List.prefix_refl _⟩

theorem chunksLe_trans (a b c : SplitState) (h1 : ChunksLe a b) (h2 : ChunksLe b c) : ChunksLe a c := by
  intro v d h
  obtain ⟨d', h', hp⟩ := h1 v d h
  obtain ⟨d'', h'', hp'⟩ := h2 v d' h'
  exact ⟨d'', h'', hp.trans hp'⟩

/-- no chunk after the current one has been written -/
def Numbered (c : SplitCmd) (s : SplitState) : Prop :=
  s.count < 2 ^ 32 → s.chunks ≤ s.count ∧ ∀ f ∈ s.store, ∃ i ≤ s.chunks, f.1 = c.name i

theorem append_names {s : Store} {n data : Bytes} {f : Bytes × Bytes} (h : f ∈ s.append n data) : ∃ g ∈ s, g.1 = f.1 := by
  obtain ⟨g, hg, rfl⟩ := List.mem_map.1 h
  exact ⟨g, hg, by split <;> rfl⟩

theorem append_prefix {s : Store} (n data : Bytes) {f d : Bytes} (h : (f, d) ∈ s) : ∃ d', (f, d') ∈ s.append n data ∧ d <+: d' := by
  by_cases he : (f == n) = true
  · exact ⟨d ++ data, List.mem_map.2 ⟨(f, d), h, by simp only [he, if_true]⟩, List.prefix_append _ _⟩
  · refine ⟨d, List.mem_map.2 ⟨(f, d), h, ?_⟩, List.prefix_refl _⟩
    simp only [he]
    rfl

theorem step_count (c : SplitCmd) (s : SplitState) (r : ByteRecord) : (c.step s r).count = s.count + 1 := by
  unfold SplitCmd.step
  dsimp only
  split <;> rfl

theorem step_numbered (c : SplitCmd) (s : SplitState) (r : ByteRecord) (h : Numbered c s) : Numbered c (c.step s r) := by
  intro hc
  rw [step_count] at hc
  obtain ⟨h1, h2⟩ := h (by omega)
  unfold SplitCmd.step
  dsimp only
  split
  · dsimp only
    rw [Nat.mod_eq_of_lt (by omega)]
    refine ⟨by omega, fun f hf => ?_⟩
    obtain ⟨g, hg, he⟩ := append_names hf
    rw [← he]
    rcases List.mem_append.1 hg with hg | hg
    · obtain ⟨i, hi, e⟩ := h2 g (List.mem_filter.1 hg).1
      exact ⟨i, by omega, e⟩
    · exact ⟨s.chunks + 1, Nat.le_refl _, by simp at hg; rw [hg]⟩
  · refine ⟨Nat.le_succ_of_le h1, fun f hf => ?_⟩
    obtain ⟨g, hg, he⟩ := append_names hf
    rw [← he]
    exact h2 g hg

theorem step_chunks {c : SplitCmd} (hb : HasBraces c.template) (s : SplitState) (r : ByteRecord) (h : Numbered c s)
    (hc : (c.step s r).count < 2 ^ 32) : ChunksLe s (c.step s r) := by
  rw [step_count] at hc
  obtain ⟨h1, h2⟩ := h (by omega)
  unfold SplitCmd.step
  dsimp only
  split
  · dsimp only
    rw [Nat.mod_eq_of_lt (by omega)]
    intro f d hf
    refine append_prefix _ _ (List.mem_append_left _ (List.mem_filter.2 ⟨hf, ?_⟩))
    obtain ⟨i, hi, e⟩ := h2 _ hf
    have : f ≠ c.name (s.chunks + 1) := by
      dsimp only at e
      rw [e]
      exact name_ne hb (by omega)
    simpa using this
  · intro f d hf
    exact append_prefix _ _ hf

/-- **C98** `split`, if the template has braces and fewer than 2^32 records are written: every
chunk has the beginning of its content. -/
theorem C98_split_partial (c : SplitCmd) (hb : HasBraces c.template) (m n : Nat) (h : LimitLe m n)
    (files : List (String × Bytes)) :
    Shorter (fun s t => t.count < 2 ^ 32 → ChunksLe s t)
      (({ c with limit := m } : SplitCmd).run files) (({ c with limit := n } : SplitCmd).run files) := by
  have key : Shorter (fun s t : SplitState => s.count ≤ t.count ∧ (Numbered c s → Numbered c t) ∧
      (Numbered c s → t.count < 2 ^ 32 → ChunksLe s t))
      (({ c with limit := m } : SplitCmd).run files) (({ c with limit := n } : SplitCmd).run files) := by
    unfold SplitCmd.run
    have hr : ∀ s : SplitState, s.count ≤ s.count ∧ (Numbered c s → Numbered c s) ∧
      (Numbered c s → s.count < 2 ^ 32 → ChunksLe s s) := fun s => ⟨Nat.le_refl _, id, fun _ _ => chunksLe_refl s⟩
    refine filesLoop_sooner (R := fun s t : SplitState => s.count ≤ t.count ∧ (Numbered c s → Numbered c t) ∧
      (Numbered c s → t.count < 2 ^ 32 → ChunksLe s t)) hr (fun a b d h1 h2 => ?_) hr
      (selBody_sooner (fun s r => limitStep_sooner hr h _ _)) (selBody_grows hr (fun s r t ht => ?_)) files _
    · exact ⟨Nat.le_trans h1.1 h2.1, fun h => h2.2.1 (h1.2.1 h), fun h hc =>
        chunksLe_trans a b d (h1.2.2 h (Nat.lt_of_le_of_lt h2.1 hc)) (h2.2.2 (h1.2.1 h) hc)⟩
    · rw [limitStep_state ht]
      have e : (({ c with limit := m } : SplitCmd).step s r) = c.step s r := rfl
      rw [e]
      exact ⟨by rw [step_count]; omega, step_numbered c s r, fun h hc => step_chunks hb s r h hc⟩
  rcases key with e | ⟨t, ht, e⟩
  · exact .inl e
  · refine .inr ⟨t, ht, e.imp id (fun ⟨t', hR, h'⟩ => ⟨t', hR.2.2 ?_, h'⟩)⟩
    unfold SplitCmd.run at ht
    refine filesLoop_ends (P := Numbered c) (Q := Numbered c) (fun _ h => h) (fun _ h => h)
      (selBody_goes (fun s r t hs ht => ?_)) (selBody_stop (fun s r t hs ht => ?_)) files _ ?_ t (.inl ht)
    · rw [limitStep_state (.inl ht)]; exact step_numbered c s r hs
    · rw [limitStep_state (.inr ht)]; exact step_numbered c s r hs
    · exact fun _ => ⟨Nat.le_refl _, fun f hf => ⟨0, Nat.le_refl _, by simp [Store.create] at hf; rw [hf]; rfl⟩⟩

/-- **C98, negative part** without braces in the template all chunks are written to one file, and with
a limit another one remains. -/
theorem C98_split_false : ∃ (c : SplitCmd) (files : List (String × Bytes)) (s t : SplitState),
    ({ c with limit := 1 } : SplitCmd).run files = .ok s ∧ ({ c with limit := 0 } : SplitCmd).run files = .ok t ∧
    ¬ ChunksLe s t := by
  refine ⟨{ splitSample "x" with chunkSize := 1 }, [("a", recLine "1" ++ recLine "2")], ⟨[(bs "x", recLine "1")], 0, 1⟩,
    ⟨[(bs "x", recLine "2")], 1, 2⟩, by decide +kernel, by decide +kernel, fun h => ?_⟩
  obtain ⟨d, hd, hp⟩ := h (bs "x") (recLine "1") (by simp)
  have e : d = recLine "2" := by simpa using hd
  rw [e] at hp
  have : (recLine "1").isPrefixOf (recLine "2") = false := by decide +kernel
  rw [List.isPrefixOf_iff_prefix.2 hp] at this
  simp at this

/-! ## what comes after the limit -/

theorem each_goes (c : ExplodeCmd) (hl : 0 < c.limit) (xs : List Record) (s t : Bytes × Nat) (hs : s.2 < c.limit)
    (h : c.each xs s = .next t) : t.2 < c.limit := by
  induction xs generalizing s with
  | nil => simp [ExplodeCmd.each] at h; exact h ▸ hs
  | cons x xs ih =>
    rw [ExplodeCmd.each] at h
    cases hx : ByteRecord.fromBytes (x.flatMap Field.write ++ [LF]) with
    | none => rw [hx] at h; simp at h
    | some r =>
      rw [hx] at h
      dsimp only at h
      cases hb : selBody c.sel.test (fun s r => limitStep c.limit (s.2 + 1) (s.1 ++ (c.reduce r).write, s.2 + 1)) s r with
      | next u =>
        rw [hb] at h
        refine ih u ?_ h
        refine selBody_goes (P := fun s : Bytes × Nat => s.2 < c.limit) (fun s r t _ ht => ?_) s r u hs hb
        obtain ⟨rfl, h2⟩ := limitStep_goes hl ht
        exact h2
      | stop u => rw [hb] at h; simp at h
      | panic => rw [hb] at h; simp at h

theorem puts_goes (c : PartitionCmd) (hl : 0 < c.limit) (r : ByteRecord) (vs : List Bytes) (s t : PartitionState)
    (hs : s.count < c.limit) (h : c.puts r vs s = .next t) : t.count < c.limit := by
  induction vs generalizing s with
  | nil => simp [PartitionCmd.puts] at h; exact h ▸ hs
  | cons v vs ih =>
    rw [PartitionCmd.puts] at h
    split at h
    · simp at h
    · rename_i hc
      refine ih _ ?_ h
      simp only [Bool.and_eq_true, decide_eq_true_eq, not_and, ge_iff_le, Nat.not_le] at hc
      exact hc hl

/-- a loop whose body is `resultBody` -/
theorem resultBody_goes {S X : Type} {n : Nat} (hn : 0 < n) {cnt : S → Nat} {f : ByteRecord → Option X} {g : S → X → S}
    (s : S) (r : ByteRecord) (t : S) (h : resultBody n cnt f g s r = .next t) : cnt t < n := by
  unfold resultBody at h
  split at h
  · simp at h
  · obtain ⟨h1, h2⟩ := limitStep_goes hn h
    rw [h1]; exact h2

/-- **C98** when the limit is reached, the rest of the input is not looked at: further lines, valid or not,
and further files change nothing. -/
theorem C98_rest {files files' : List (String × Bytes)} (hm : MoreInput files files') :
    (∀ (c : FilterCmd) (s), c.run files = .ok s → 0 < c.limit → c.limit ≤ s.2 → c.run files' = .ok s) ∧
    (∀ (c : SelectCmd) (s), c.run files = .ok s → 0 < c.limit → c.limit ≤ s.count → c.run files' = .ok s) ∧
    (∀ (c : PrintCmd) (s), c.run files = .ok s → 0 < c.limit → c.limit ≤ s.count → c.run files' = .ok s) ∧
    (∀ (c : HashCmd) (s), c.run files = .ok s → 0 < c.limit → c.limit ≤ s.count → c.run files' = .ok s) ∧
    (∀ (c : ExplodeCmd) (s), c.run files = .ok s → 0 < c.limit → c.limit ≤ s.2 → c.run files' = .ok s) ∧
    (∀ (c : SliceCmd) (s), c.run files = .ok s → 0 < c.limit → c.limit ≤ s.count → c.run files' = .ok s) ∧
    (∀ (c : SplitCmd) (s), c.run files = .ok s → 0 < c.limit → c.limit ≤ s.count → c.run files' = .ok s) ∧
    (∀ (c : PartitionCmd) (s), c.run files = .ok s → 0 < c.limit → c.limit ≤ s.count → c.run files' = .ok s) := by
  refine ⟨fun c s h hl hc => ?_, fun c s h hl hc => ?_, fun c s h hl hc => ?_, fun c s h hl hc => ?_,
    fun c s h hl hc => ?_, fun c s h hl hc => ?_, fun c s h hl hc => ?_, fun c s h hl hc => ?_⟩
  · refine filesLoop_more (P := fun s : FilterOut × Nat => s.2 < c.limit) (fun s h => h)
      (selBody_goes (fun s r t _ ht => ?_)) hm _ hl s h (by omega)
    obtain ⟨rfl, h2⟩ := limitStep_goes hl ht
    exact h2
  · exact filesLoop_more (P := fun s : SelectState => s.count < c.limit) (fun s h => h)
      (selBody_goes (fun s r t _ ht => resultBody_goes hl s r t ht)) hm _ hl s h (by omega)
  · exact filesLoop_more (P := fun s : PrintState => s.count < c.limit) (fun s h => h)
      (selBody_goes (fun s r t _ ht => resultBody_goes hl s r t ht)) hm _ hl s h (by omega)
  · exact filesLoop_more (P := fun s : HashState => s.count < c.limit) (fun s h => h)
      (selBody_goes (fun s r t _ ht => resultBody_goes hl s r t ht)) hm _ hl s h (by omega)
  · refine filesLoop_more (P := fun s : Bytes × Nat => s.2 < c.limit) (fun s h => h)
      (fun s r t hs ht => ?_) hm _ hl s h (by omega)
    unfold ExplodeCmd.body at ht
    cases hx : explodeRecord c.level r.record with
    | none => rw [hx] at ht; simp at ht
    | some xs => rw [hx] at ht; exact each_goes c hl xs s t hs ht
  · refine filesLoop_more (P := fun s : SliceState => s.count < c.limit) (fun s h => ?_)
      (selBody_goes (fun s r t hs ht => ?_)) hm _ hl s h (by omega)
    · unfold SliceCmd.onSkip
      split <;> exact h
    · unfold SliceCmd.act at ht
      dsimp only at ht
      split at ht
      · split at ht
        · simp at ht
        · rename_i hx
          simp at ht
          rw [← ht]
          simp only [Bool.and_eq_true, decide_eq_true_eq, not_and, ge_iff_le, Nat.not_le] at hx
          exact hx hl
      · split at ht <;> simp at ht
        rw [← ht]
        exact hs
  · refine filesLoop_more (P := fun s : SplitState => s.count < c.limit) (fun s h => h)
      (selBody_goes (fun s r t _ ht => ?_)) hm _ hl s h (by omega)
    obtain ⟨rfl, h2⟩ := limitStep_goes hl ht
    exact h2
  · refine filesLoop_more (P := fun s : PartitionState => s.count < c.limit) (fun s h => h)
      (selBody_goes (fun s r t hs ht => ?_)) hm _ hl s h (by omega)
    unfold PartitionCmd.body at ht
    cases hx : c.path.values c.sel.E c.sel.o r.record with
    | none => rw [hx] at ht; simp at ht
    | some vs => rw [hx] at ht; exact puts_goes c hl r _ s t hs ht

/-- **C98** and the same for the commands that count or choose: `frequency`, `describe`, `sample` and `check` -/
theorem C98_rest_tables {files files' : List (String × Bytes)} (hm : MoreInput files files') :
    (∀ (c : FreqCmd) (s), c.loop files = .ok s → 0 < c.limit → c.limit ≤ s.count → c.run files' = c.run files) ∧
    (∀ (c : DescribeCmd) (s), c.loop files = .ok s → 0 < c.limit → c.limit ≤ s.count → c.run files' = c.run files) ∧
    (∀ (c : SampleCmd) (s), c.loop files = .ok s → 0 < c.limit → c.limit ≤ s.count → c.run files' = c.run files) ∧
    (∀ (c : CheckCmd) (s), filesLoop c.skip id (selBody c.sel.test c.body) files ⟨c.prepared, [], 0⟩ = .ok s →
      0 < c.limit → c.limit ≤ s.count → c.run files' = c.run files) := by
  refine ⟨fun c s h hl hc => ?_, fun c s h hl hc => ?_, fun c s h hl hc => ?_, fun c s h hl hc => ?_⟩
  · have h' : c.loop files' = .ok s :=
      filesLoop_more (P := fun s : FreqState => s.count < c.limit) (fun s h => h)
        (selBody_goes (fun s r t _ ht => resultBody_goes hl s r t ht)) hm _ hl s h (by omega)
    unfold FreqCmd.run
    rw [h, h']
  · have h' : c.loop files' = .ok s := by
      refine filesLoop_more (P := fun s : DescribeState => s.count < c.limit) (fun s h => h)
        (selBody_goes (fun s r t _ ht => ?_)) hm _ hl s h (by omega)
      obtain ⟨rfl, h2⟩ := limitStep_goes hl ht
      exact h2
    unfold DescribeCmd.run
    rw [h, h']
  · have h' : c.loop files' = .ok s := by
      refine filesLoop_more (P := fun s : SampleState => s.count < c.limit) (fun s h => h)
        (selBody_goes (fun s r t _ ht => ?_)) hm _ hl s h (by omega)
      obtain ⟨rfl, h2⟩ := limitStep_goes hl ht
      exact h2
    unfold SampleCmd.run
    rw [h, h']
  · have h' : filesLoop c.skip id (selBody c.sel.test c.body) files' ⟨c.prepared, [], 0⟩ = .ok s := by
      refine filesLoop_more (P := fun s : CheckState => s.count < c.limit) (fun s h => h)
        (selBody_goes (fun s r t _ ht => ?_)) hm _ hl s h (by omega)
      unfold CheckCmd.body at ht
      split at ht
      · simp at ht
      · obtain ⟨rfl, h2⟩ := limitStep_goes hl ht
        exact h2
    unfold CheckCmd.run
    rw [h, h']

/-- **C98** with a limit there are at most so many results, also if the run fails later. -/
theorem C98_at_most (files : List (String × Bytes)) :
    (∀ (c : FilterCmd) (s), c.run files = .ok s ∨ (∃ e, c.run files = .err e s) → 0 < c.limit → s.2 ≤ c.limit) ∧
    (∀ (c : SelectCmd) (s), c.run files = .ok s ∨ (∃ e, c.run files = .err e s) → 0 < c.limit → s.count ≤ c.limit) ∧
    (∀ (c : PrintCmd) (s), c.run files = .ok s ∨ (∃ e, c.run files = .err e s) → 0 < c.limit → s.count ≤ c.limit) ∧
    (∀ (c : HashCmd) (s), c.run files = .ok s ∨ (∃ e, c.run files = .err e s) → 0 < c.limit → s.out.length ≤ c.limit) ∧
    (∀ (c : SliceCmd) (s), c.run files = .ok s ∨ (∃ e, c.run files = .err e s) → 0 < c.limit → s.count ≤ c.limit) := by
  refine ⟨fun c s h hl => ?_, fun c s h hl => ?_, fun c s h hl => ?_, fun c s h hl => ?_, fun c s h hl => ?_⟩
  · refine filesLoop_ends (P := fun s : FilterOut × Nat => s.2 < c.limit) (Q := fun s => s.2 ≤ c.limit) (fun s h => Nat.le_of_lt h)
      (fun s h => h) (selBody_goes (fun s r t _ ht => ?_)) (selBody_stop (fun s r t hs ht => ?_)) files _ hl s h
    · obtain ⟨rfl, h2⟩ := limitStep_goes hl ht; exact h2
    · obtain rfl := limitStep_ends ht; exact hs
  · refine filesLoop_ends (P := fun s : SelectState => s.count < c.limit) (Q := fun s => s.count ≤ c.limit)
      (fun s h => Nat.le_of_lt h) (fun s h => h)
      (selBody_goes (fun s r t _ ht => resultBody_goes hl s r t ht)) (selBody_stop (fun s r t hs ht => ?_)) files _ hl s h
    unfold resultBody at ht
    split at ht
    · simp at ht
    · rename_i rows _
      obtain rfl := limitStep_ends ht
      have : ∀ (rows : List (List Bytes)) (s : SelectState), (rows.foldl c.row s).count = s.count := by
        intro rows
        induction rows with
        | nil => intro s; rfl
        | cons row rows ih =>
          intro s
          rw [List.foldl_cons, ih]
          unfold SelectCmd.row
          split
          · rfl
          · split
            · rfl
            · cases c.unique <;> dsimp only <;> split <;> rfl
      have h1 : (c.step s rows).count = s.count + 1 := by
        unfold SelectCmd.step
        dsimp only
        rw [this]
      rw [h1]; exact hs
  · refine filesLoop_ends (P := fun s : PrintState => s.count < c.limit) (Q := fun s => s.count ≤ c.limit)
      (fun s h => Nat.le_of_lt h) (fun s h => h)
      (selBody_goes (fun s r t _ ht => resultBody_goes hl s r t ht)) (selBody_stop (fun s r t hs ht => ?_)) files _ hl s h
    unfold resultBody at ht
    split at ht
    · simp at ht
    · obtain rfl := limitStep_ends ht; exact hs
  · have h1 : s.out.length = s.count ∧ s.count ≤ c.limit := by
      refine filesLoop_ends (P := fun s : HashState => s.out.length = s.count ∧ s.count < c.limit)
        (Q := fun s => s.out.length = s.count ∧ s.count ≤ c.limit) (fun s h => ⟨h.1, Nat.le_of_lt h.2⟩) (fun s h => h)
        (selBody_goes (fun s r t hs ht => ⟨?_, resultBody_goes hl s r t ht⟩)) (selBody_stop (fun s r t hs ht => ?_)) files _
        ⟨rfl, hl⟩ s h
      · unfold resultBody at ht
        split at ht
        · simp at ht
        · obtain ⟨rfl, _⟩ := limitStep_goes hl ht
          simp [hs.1]
      · unfold resultBody at ht
        split at ht
        · simp at ht
        · obtain rfl := limitStep_ends ht
          exact ⟨by simp [hs.1], hs.2⟩
    rw [h1.1]; exact h1.2
  · refine filesLoop_ends (P := fun s : SliceState => s.count < c.limit) (Q := fun s => s.count ≤ c.limit)
      (fun s h => Nat.le_of_lt h) (fun s h => ?_) (selBody_goes (fun s r t hs ht => ?_))
      (selBody_stop (fun s r t hs ht => ?_)) files _ hl s h
    · unfold SliceCmd.onSkip
      split <;> exact h
    · unfold SliceCmd.act at ht
      dsimp only at ht
      split at ht
      · split at ht
        · simp at ht
        · rename_i hx
          simp at ht
          rw [← ht]
          simp only [Bool.and_eq_true, decide_eq_true_eq, not_and, ge_iff_le, Nat.not_le] at hx
          exact hx hl
      · split at ht <;> simp at ht
        rw [← ht]
        exact hs
    · unfold SliceCmd.act at ht
      dsimp only at ht
      split at ht
      · split at ht <;> simp at ht
        rw [← ht]
        exact hs
      · split at ht <;> simp at ht
        rw [← ht]
        exact Nat.le_of_lt hs

/-- the data have at most `n` lines -/
def AtMost (n : Nat) (d : Bytes) : Prop := d.count LF ≤ n

/-- a record whose encoding is one line, or empty, and whose fields have no newline -/
def Plain (r : ByteRecord) : Prop := r.write.count LF ≤ 1 ∧ ∀ f ∈ r.record, LF ∉ f.write

theorem plain_fields {l : List Field} (h : ∀ f ∈ l, LF ∉ f.write) : (Record.write l).count LF ≤ 1 := by
  have h0 : (l.flatMap Field.write).count LF = 0 := by
    rw [List.count_eq_zero]
    intro hm
    obtain ⟨f, hf, hm⟩ := List.mem_flatMap.1 hm
    exact h f hf hm
  unfold Record.write
  split
  · simp
  · rw [List.count_append, h0]; decide

theorem onePlain_line {r : ByteRecord} (h : LineRecord r) : Plain r := by
  obtain ⟨t, ht, hb, hw⟩ := h
  obtain ⟨h1, h2⟩ := ByteRecord.fromBytes_eq_some.1 hb
  obtain ⟨-, -, h3⟩ := Record.fromBytes_eq_some.1 h1
  refine ⟨?_, fun f hf hm => ht ?_⟩
  · rw [hw, List.count_append, List.count_eq_zero.2 ht]; decide
  · rw [List.append_cancel_right h3]
    exact List.mem_flatMap.2 ⟨f, hf, hm⟩

theorem plain_retain {r : ByteRecord} (h : Plain r) (p : Field → Bool) : Plain (r.retain p) := by
  have : ∀ f ∈ r.record.filter p, LF ∉ f.write := fun f hf => h.2 f (List.mem_filter.1 hf).1
  exact ⟨plain_fields this, this⟩

theorem plain_part {r : ByteRecord} {x : Record} {y : ByteRecord} (h : Plain r) (hx : ∀ f ∈ x, f ∈ r.record)
    (hy : ByteRecord.fromBytes (x.flatMap Field.write ++ [LF]) = some y) : Plain y := by
  refine onePlain_line (lineRecord_of_line hy ?_ (by simp))
  rw [List.dropLast_concat]
  intro hm
  obtain ⟨f, hf, hm⟩ := List.mem_flatMap.1 hm
  exact h.2 f (hx f hf) hm

theorem filter_plain (c : FilterCmd) {r : ByteRecord} (h : Plain r) : Plain (c.reduce r) := by
  unfold FilterCmd.reduce ByteRecord.keep ByteRecord.discard
  split <;> split <;> first | exact h | exact plain_retain h _ | exact plain_retain (plain_retain h _) _

theorem explode_plain (c : ExplodeCmd) {r : ByteRecord} (h : Plain r) : Plain (c.reduce r) := by
  unfold ExplodeCmd.reduce
  dsimp only
  split <;> split <;> first | exact h | exact plain_retain h _ | exact plain_retain (plain_retain h _) _

theorem atMost_add {n : Nat} {d : Bytes} (h : AtMost n d) {r : ByteRecord} (hr : Plain r) : AtMost (n + 1) (d ++ r.write) := by
  unfold AtMost at *
  rw [List.count_append]
  exact Nat.add_le_add h hr.1

theorem atMost_le {m n : Nat} {d : Bytes} (h : AtMost m d) (hn : m ≤ n) : AtMost n d := Nat.le_trans h hn

theorem atMost_nil (n : Nat) : AtMost n [] := Nat.zero_le _

theorem readAll_line {content : Bytes} {src : Option String} {r : ByteRecord} (h : .ok r ∈ readAll content src) :
    LineRecord r := by
  obtain ⟨ls, hl⟩ := lines_exists content
  have h1 : r ∈ okItems (readAll content src) := by
    generalize readAll content src = is at h
    exact List.mem_filterMap.2 ⟨_, h, rfl⟩
  rw [okItems_readAll hl] at h1
  obtain ⟨l, hm, hb⟩ := List.mem_filterMap.1 h1
  obtain ⟨h2, h3⟩ := lines_mem hl l hm
  exact lineRecord_of_line hb h2 h3

/-- as `filesLoop_ends`, for records that come from lines -/
theorem filesLoop_ends_line {S : Type} {skip : Bool} {onSkip : S → S} {P Q : S → Prop} {body : S → ByteRecord → Step S}
    (hPQ : ∀ s, P s → Q s) (ho : ∀ s, P s → P (onSkip s))
    (hn : ∀ s r t, Plain r → LineRecord r → P s → body s r = .next t → P t)
    (hst : ∀ s r t, Plain r → LineRecord r → P s → body s r = .stop t → Q t)
    (files : List (String × Bytes)) (s₀ : S) (h0 : P s₀) (s : S)
    (h : filesLoop skip onSkip body files s₀ = .ok s ∨ ∃ e, filesLoop skip onSkip body files s₀ = .err e s) : Q s := by
  induction files generalizing s₀ with
  | nil => simp [filesLoop] at h; exact hPQ s (h ▸ h0)
  | cons f files ih =>
    obtain ⟨name, content⟩ := f
    rw [filesLoop] at h
    have hr : ∀ r, .ok r ∈ readAll content (some name) → LineRecord r := fun r hr => readAll_line hr
    generalize readAll content (some name) = is at h hr
    induction is generalizing s₀ with
    | nil => exact ih s₀ h0 h
    | cons i is ihi =>
      have hr' := fun r hm => hr r (List.mem_cons_of_mem _ hm)
      cases i with
      | error e =>
        rw [fileLoop] at h
        split at h
        · rename_i heq; split at heq
          · rename_i hk
            refine ihi (onSkip s₀) (ho _ h0) ?_ hr'
            rw [heq]; exact h
          · simp at heq
        · rename_i x heq
          split at heq
          · rename_i hk
            refine ihi (onSkip s₀) (ho _ h0) ?_ hr'
            rw [heq]; exact h
          · simp at heq
            rw [← heq] at h
            simp at h
            exact hPQ s (h ▸ h0)
      | ok r =>
        have hl := hr r (by simp)
        rw [fileLoop] at h
        cases hb : body s₀ r with
        | next u => rw [hb] at h; exact ihi u (hn _ _ _ (onePlain_line hl) hl h0 hb) h hr'
        | stop u => rw [hb] at h; simp at h; exact h ▸ hst _ _ _ (onePlain_line hl) hl h0 hb
        | panic => rw [hb] at h; simp at h

theorem selBody_goes_line {S : Type} {P : S → Prop} {test : ByteRecord → Option Bool} {act : S → ByteRecord → Step S}
    (h : ∀ s r t, Plain r → P s → act s r = .next t → P t) (s : S) (r : ByteRecord) (t : S) (hp : Plain r) (_ : LineRecord r)
    (hs : P s) (hb : selBody test act s r = .next t) : P t := by
  unfold selBody at hb
  split at hb
  · simp at hb
  · simp at hb; exact hb ▸ hs
  · exact h s r t hp hs hb

theorem selBody_stop_line {S : Type} {P Q : S → Prop} {test : ByteRecord → Option Bool} {act : S → ByteRecord → Step S}
    (h : ∀ s r t, Plain r → P s → act s r = .stop t → Q t) (s : S) (r : ByteRecord) (t : S) (hp : Plain r) (_ : LineRecord r)
    (hs : P s) (hb : selBody test act s r = .stop t) : Q t := by
  unfold selBody at hb
  split at hb
  · simp at hb
  · simp at hb
  · exact h s r t hp hs hb

theorem each_atMost {c : ExplodeCmd} (hl : 0 < c.limit) (r₀ : ByteRecord) (h0 : Plain r₀) (xs : List Record)
    (hx : ∀ x ∈ xs, ∀ f ∈ x, f ∈ r₀.record) (s : Bytes × Nat) (hs : AtMost s.2 s.1 ∧ s.2 < c.limit) :
    (∀ t, c.each xs s = .next t → AtMost t.2 t.1 ∧ t.2 < c.limit) ∧
    ∀ t, c.each xs s = .stop t → AtMost t.2 t.1 ∧ t.2 ≤ c.limit := by
  induction xs generalizing s with
  | nil =>
    refine ⟨fun t h => ?_, fun t h => ?_⟩ <;> simp [ExplodeCmd.each] at h
    exact h ▸ hs
  | cons x xs ih =>
    rw [ExplodeCmd.each]
    split
    · simp
    · rename_i r hr
      have hp : Plain r := plain_part h0 (hx x (by simp)) hr
      have hl' : LineRecord r := by
        refine lineRecord_of_line hr ?_ (by simp)
        rw [List.dropLast_concat]
        intro hm
        obtain ⟨f, hf, hm⟩ := List.mem_flatMap.1 hm
        exact h0.2 f (hx x (by simp) f hf) hm
      split
      · rename_i s' h
        refine ih (fun y hy => hx y (by simp [hy])) s' (selBody_goes_line (P := fun s : Bytes × Nat => AtMost s.2 s.1 ∧ s.2 < c.limit)
          (fun s r t hp hs ht => ?_) s r s' hp hl' hs h)
        obtain ⟨rfl, h2⟩ := limitStep_goes hl ht
        exact ⟨atMost_add hs.1 (explode_plain c hp), h2⟩
      · rename_i s' h
        refine ⟨by simp, fun t ht => ?_⟩
        simp only [Step.stop.injEq] at ht
        subst ht
        refine selBody_stop_line (P := fun s : Bytes × Nat => AtMost s.2 s.1 ∧ s.2 < c.limit)
          (Q := fun s : Bytes × Nat => AtMost s.2 s.1 ∧ s.2 ≤ c.limit) (fun s r t hp hs ht => ?_) s r s' hp hl' hs h
        obtain rfl := limitStep_ends ht
        exact ⟨atMost_add hs.1 (explode_plain c hp), hs.2⟩
      · simp

/-- one more record for a writer of `partition` -/
theorem put_atMost {s : PartitionState} (v : Bytes) {r : ByteRecord} (hr : Plain r)
    (h : s.writers.length ≤ s.count ∧ ∀ w ∈ s.writers, AtMost s.count w.2) :
    (PartitionCmd.put s v r.write).count = s.count + 1 ∧
    (PartitionCmd.put s v r.write).writers.length ≤ s.count + 1 ∧
    ∀ w ∈ (PartitionCmd.put s v r.write).writers, AtMost (s.count + 1) w.2 := by
  unfold PartitionCmd.put
  split
  · refine ⟨rfl, by simpa using Nat.le_succ_of_le h.1, fun w hw => ?_⟩
    obtain ⟨u, hu, rfl⟩ := List.mem_map.1 hw
    split
    · exact atMost_add (h.2 u hu) hr
    · exact atMost_le (h.2 u hu) (Nat.le_succ _)
  · refine ⟨rfl, by simpa using h.1, fun w hw => ?_⟩
    rcases List.mem_append.1 hw with hw | hw
    · exact atMost_le (h.2 w hw) (Nat.le_succ _)
    · simp only [List.mem_singleton] at hw
      subst hw
      have := atMost_add (atMost_nil s.count) hr
      simpa using this

theorem puts_atMost {c : PartitionCmd} (hl : 0 < c.limit) {r : ByteRecord} (hr : Plain r) (vs : List Bytes) (s : PartitionState)
    (hs : (s.writers.length ≤ s.count ∧ ∀ w ∈ s.writers, AtMost s.count w.2) ∧ s.count < c.limit) :
    (∀ t, c.puts r vs s = .next t → (t.writers.length ≤ t.count ∧ ∀ w ∈ t.writers, AtMost t.count w.2) ∧ t.count < c.limit) ∧
    ∀ t, c.puts r vs s = .stop t → (t.writers.length ≤ t.count ∧ ∀ w ∈ t.writers, AtMost t.count w.2) ∧ t.count ≤ c.limit := by
  induction vs generalizing s with
  | nil =>
    refine ⟨fun t h => ?_, fun t h => ?_⟩ <;> simp [PartitionCmd.puts] at h
    exact h ▸ hs
  | cons v vs ih =>
    obtain ⟨h1, h2, h3⟩ := put_atMost v hr hs.1
    rw [PartitionCmd.puts]
    split
    · refine ⟨by simp, fun t ht => ?_⟩
      simp only [Step.stop.injEq] at ht
      subst ht
      rw [h1]
      exact ⟨⟨h2, h3⟩, hs.2⟩
    · rename_i hc
      refine ih _ ?_
      simp only [Bool.and_eq_true, decide_eq_true_eq, not_and, ge_iff_le, Nat.not_le] at hc
      refine ⟨?_, hc hl⟩
      rw [h1]
      exact ⟨h2, h3⟩

/-- **C98** with a limit at most so many lines are written, also if the run fails later: by `filter`, `slice` and
`explode`, to every chunk of `split` and to every file of `partition`, of which there are not more. -/
theorem C98_results (files : List (String × Bytes)) :
    (∀ (c : FilterCmd) (s), c.run files = .ok s ∨ (∃ e, c.run files = .err e s) → 0 < c.limit → AtMost c.limit s.1.out) ∧
    (∀ (c : SliceCmd) (s), c.run files = .ok s ∨ (∃ e, c.run files = .err e s) → 0 < c.limit → AtMost c.limit s.out) ∧
    (∀ (c : ExplodeCmd) (s), c.run files = .ok s ∨ (∃ e, c.run files = .err e s) → 0 < c.limit → AtMost c.limit s.1) ∧
    (∀ (c : SplitCmd) (s), c.run files = .ok s ∨ (∃ e, c.run files = .err e s) → 0 < c.limit →
      ∀ f ∈ s.store, AtMost c.limit f.2) ∧
    (∀ (c : PartitionCmd) (s), c.run files = .ok s ∨ (∃ e, c.run files = .err e s) → 0 < c.limit →
      s.writers.length ≤ c.limit ∧ ∀ w ∈ s.writers, AtMost c.limit w.2) := by
  refine ⟨fun c s h hl => ?_, fun c s h hl => ?_, fun c s h hl => ?_, fun c s h hl => ?_, fun c s h hl => ?_⟩
  · have h1 : AtMost s.2 s.1.out ∧ s.2 ≤ c.limit := by
      refine filesLoop_ends_line (P := fun s : FilterOut × Nat => AtMost s.2 s.1.out ∧ s.2 < c.limit)
        (Q := fun s => AtMost s.2 s.1.out ∧ s.2 ≤ c.limit) (fun s h => ⟨h.1, Nat.le_of_lt h.2⟩)
        (fun s h => h) (selBody_goes_line (fun s r t hp hs ht => ?_)) (selBody_stop_line (fun s r t hp hs ht => ?_)) files _ ⟨atMost_nil _, hl⟩ s h
      · obtain ⟨rfl, h2⟩ := limitStep_goes hl ht; exact ⟨atMost_add hs.1 (filter_plain c hp), h2⟩
      · obtain rfl := limitStep_ends ht; exact ⟨atMost_add hs.1 (filter_plain c hp), hs.2⟩
    exact atMost_le h1.1 h1.2
  · have h1 : AtMost s.count s.out ∧ s.count ≤ c.limit := by
      refine filesLoop_ends_line (P := fun s : SliceState => AtMost s.count s.out ∧ s.count < c.limit)
        (Q := fun s => AtMost s.count s.out ∧ s.count ≤ c.limit) (fun s h => ⟨h.1, Nat.le_of_lt h.2⟩)
        (fun s h => ?_) (selBody_goes_line (fun s r t hp hs ht => ?_)) (selBody_stop_line (fun s r t hp hs ht => ?_)) files _ ⟨atMost_nil _, hl⟩ s h
      · unfold SliceCmd.onSkip
        split <;> exact h
      · unfold SliceCmd.act at ht
        dsimp only at ht
        split at ht
        · split at ht
          · simp at ht
          · rename_i hc
            simp only [Step.next.injEq] at ht
            subst ht
            simp only [Bool.and_eq_true, decide_eq_true_eq, not_and, ge_iff_le, Nat.not_le] at hc
            exact ⟨atMost_add hs.1 hp, hc hl⟩
        · split at ht
          · simp only [Step.next.injEq] at ht
            subst ht
            exact hs
          · simp at ht
      · unfold SliceCmd.act at ht
        dsimp only at ht
        split at ht
        · split at ht
          · simp only [Step.stop.injEq] at ht
            subst ht
            exact ⟨atMost_add hs.1 hp, hs.2⟩
          · simp at ht
        · split at ht
          · simp at ht
          · simp only [Step.stop.injEq] at ht
            subst ht
            exact ⟨hs.1, Nat.le_of_lt hs.2⟩
    exact atMost_le h1.1 h1.2
  · have parts : ∀ {r : ByteRecord} {xs : List Record}, LineRecord r → explodeRecord c.level r.record = some xs →
        ∀ x ∈ xs, ∀ f ∈ x, f ∈ r.record := by
      intro r xs hl' he
      obtain ⟨t, ht, hb, hw⟩ := hl'
      obtain ⟨ys, h1, h2⟩ := mem_explode_main (ByteRecord.fromBytes_eq_some.1 hb).1 c.level
      rw [he, Option.some.injEq] at h1
      subst h1
      exact fun x hx => (h2 x hx).2
    have h1 : AtMost s.2 s.1 ∧ s.2 ≤ c.limit := by
      refine filesLoop_ends_line (P := fun s : Bytes × Nat => AtMost s.2 s.1 ∧ s.2 < c.limit)
        (Q := fun s => AtMost s.2 s.1 ∧ s.2 ≤ c.limit) (fun s h => ⟨h.1, Nat.le_of_lt h.2⟩)
        (fun s h => h) (fun s r t hp hl' hs ht => ?_) (fun s r t hp hl' hs ht => ?_) files _ ⟨atMost_nil _, hl⟩ s h <;>
      unfold ExplodeCmd.body at ht <;> split at ht
      · simp at ht
      · rename_i xs he
        exact (each_atMost hl r hp _ (parts hl' he) s hs).1 t ht
      · simp at ht
      · rename_i xs he
        exact (each_atMost hl r hp _ (parts hl' he) s hs).2 t ht
    exact atMost_le h1.1 h1.2
  · have hstep : ∀ (s : SplitState) (r : ByteRecord), Plain r → (∀ f ∈ s.store, AtMost s.count f.2) →
        ∀ f ∈ (c.step s r).store, AtMost (s.count + 1) f.2 := by
      intro s r hp hs f hf
      have app : ∀ (st : Store) (n : Bytes), (∀ f ∈ st, AtMost s.count f.2) → ∀ f ∈ st.append n r.write, AtMost (s.count + 1) f.2 := by
        intro st n hst f hf
        obtain ⟨g, hg, rfl⟩ := List.mem_map.1 hf
        split
        · exact atMost_add (hst g hg) hp
        · exact atMost_le (hst g hg) (Nat.le_succ _)
      unfold SplitCmd.step at hf
      dsimp only at hf
      split at hf
      · refine app _ _ (fun g hg => ?_) f hf
        rcases List.mem_append.1 hg with hg | hg
        · exact hs g (List.mem_filter.1 hg).1
        · simp only [List.mem_singleton] at hg
          subst hg
          exact atMost_nil _
      · exact app _ _ hs f hf
    have h1 : (∀ f ∈ s.store, AtMost s.count f.2) ∧ s.count ≤ c.limit := by
      refine filesLoop_ends_line (P := fun s : SplitState => (∀ f ∈ s.store, AtMost s.count f.2) ∧ s.count < c.limit)
        (Q := fun s => (∀ f ∈ s.store, AtMost s.count f.2) ∧ s.count ≤ c.limit) (fun s h => ⟨h.1, Nat.le_of_lt h.2⟩)
        (fun s h => h) (selBody_goes_line (fun s r t hp hs ht => ?_)) (selBody_stop_line (fun s r t hp hs ht => ?_)) files _ ⟨fun f hf => ?_, hl⟩ s h
      · obtain ⟨rfl, h2⟩ := limitStep_goes hl ht
        exact ⟨by rw [step_count]; exact hstep s r hp hs.1, h2⟩
      · obtain rfl := limitStep_ends ht
        rw [step_count]
        exact ⟨hstep s r hp hs.1, hs.2⟩
      · simp [Store.create] at hf
        subst hf
        exact atMost_nil _
    exact fun f hf => atMost_le (h1.1 f hf) h1.2
  · have h1 : (s.writers.length ≤ s.count ∧ ∀ w ∈ s.writers, AtMost s.count w.2) ∧ s.count ≤ c.limit := by
      refine filesLoop_ends_line
        (P := fun s : PartitionState => (s.writers.length ≤ s.count ∧ ∀ w ∈ s.writers, AtMost s.count w.2) ∧ s.count < c.limit)
        (Q := fun s => (s.writers.length ≤ s.count ∧ ∀ w ∈ s.writers, AtMost s.count w.2) ∧ s.count ≤ c.limit)
        (fun s h => ⟨h.1, Nat.le_of_lt h.2⟩)
        (fun s h => h) (selBody_goes_line (fun s r t hp hs ht => ?_)) (selBody_stop_line (fun s r t hp hs ht => ?_)) files _ ⟨by simp, hl⟩ s h <;>
      unfold PartitionCmd.body at ht <;> split at ht
      · simp at ht
      · exact (puts_atMost hl hp _ s hs).1 t ht
      · simp at ht
      · exact (puts_atMost hl hp _ s hs).2 t ht
    exact ⟨Nat.le_trans h1.1.1 h1.2, fun w hw => atMost_le (h1.1.2 w hw) h1.2⟩

/-- **C98** fails for `check` with a link rule: with a limit more is reported, because the record that is
linked is not read. -/
theorem C98_check_false :
    ({ linkCmd with limit := 1 } : CheckCmd).run [("a", linkLine "1" "2" ++ linkLine "2" "1")] =
      .ok [⟨some (bs "1"), bs "L", .error, some (bs "2")⟩] ∧
    linkCmd.run [("a", linkLine "1" "2" ++ linkLine "2" "1")] = .ok [] := by decide +kernel

/-- a sample of one record that is replaced by the next one -/
def sampleOne (limit : Nat) : SampleCmd := ⟨false, 1, limit, fun _ => 0, noSelection⟩

/-- **C98** fails for `sample`: the record drawn with a limit need not be in the sample without. -/
theorem C98_sample_false :
    (sampleOne 1).run [("a", recLine "1" ++ recLine "2")] = .ok (recLine "1") ∧
    (sampleOne 0).run [("a", recLine "1" ++ recLine "2")] = .ok (recLine "2") := by decide +kernel

/-! ## examples -/

example : LimitLe 1 0 ∧ LimitLe 1 2 ∧ ¬ LimitLe 0 2 := by simp [LimitLe]

/-- the limit is reached, and neither the invalid line nor the other file matters -/
example : ((appendFilter 1 true).run [("a", recLine "1" ++ bs "x\n"), ("b", bs "y")]) =
    .ok (⟨recLine "1", some (recLine "1")⟩, 1) := by
  have h1 : (appendFilter 1 true).run ([] ++ [("a", recLine "1")]) = .ok (⟨recLine "1", some (recLine "1")⟩, 1) := by
    decide +kernel
  have e1 : (recLine "1").dropLast ++ [0x0A] = recLine "1" := by decide +kernel
  have e2 : bs "x" ++ [0x0A] = bs "x\n" := by decide +kernel
  have hl := Lines.line ((recLine "1").dropLast) [] [] (by decide +kernel) .eof
  have hx := Lines.line (bs "x") [] [] (by decide +kernel) .eof
  rw [e1] at hl
  rw [e2] at hx
  have hb := Lines.line ((recLine "1").dropLast) (bs "x\n") [bs "x\n"] (by decide +kernel) hx
  rw [e1, List.append_cons, e1] at hb
  have hm : MoreInput ([] ++ [("a", recLine "1")]) ([] ++ ("a", recLine "1" ++ bs "x\n") :: [("b", bs "y")]) :=
    .lines [] "a" _ _ [recLine "1"] [bs "x\n"] _ hl hb
  exact (C98_rest hm).1 _ _ h1 (by decide +kernel) (by decide +kernel)

/-- the outputs differ: the second alternative of `Shorter` is met -/
example : (appendFilter 1 false).run [("a", recLine "1" ++ recLine "2")] = .ok (⟨recLine "1", none⟩, 1) ∧
    (appendFilter 0 false).run [("a", recLine "1" ++ recLine "2")] = .ok (⟨recLine "1" ++ recLine "2", none⟩, 2) := by
  decide +kernel

/-- the second record counts only without the limit -/
example : FieldsLe ⟨[(bs "003@", [(0x30, 1)])], 1⟩ ⟨[(bs "003@", [(0x30, 2)])], 2⟩ ∧
    ¬ FieldsLe ⟨[(bs "003@", [(0x30, 2)])], 2⟩ ⟨[(bs "003@", [(0x30, 1)])], 1⟩ := by
  constructor
  · intro tag row h
    obtain ⟨rfl, rfl⟩ : tag = bs "003@" ∧ row = [(0x30, 1)] := by simpa using h
    exact ⟨[(0x30, 2)], by simp, fun code k h => ⟨2, by simp_all, by simp_all⟩⟩
  · intro h
    obtain ⟨row', h1, h2⟩ := h (bs "003@") [(0x30, 2)] (by simp)
    have e : row' = [(0x30, 1)] := by simpa using h1
    subst e
    obtain ⟨k', h3, h4⟩ := h2 0x30 2 (by simp)
    have e : k' = 1 := by simpa using h3
    omega

/-- the first chunk is not full with the limit -/
example : HasBraces (splitSample "x{}").template ∧
    ({ splitSample "x{}" with limit := 1 } : SplitCmd).run [("a", recLine "1" ++ recLine "2" ++ recLine "3")] =
      .ok ⟨[(bs "x0", recLine "1")], 0, 1⟩ ∧
    (splitSample "x{}").run [("a", recLine "1" ++ recLine "2" ++ recLine "3")] =
      .ok ⟨[(bs "x0", recLine "1" ++ recLine "2"), (bs "x1", recLine "3")], 1, 3⟩ :=
  ⟨⟨bs "x", [], by decide +kernel⟩, by decide +kernel, by decide +kernel⟩

example : AtMost 1 (recLine "1") ∧ ¬ AtMost 1 (recLine "1" ++ recLine "2") := by unfold AtMost; decide +kernel

example : AtMost 1 (recLine "1") :=
  (C98_results [("a", recLine "1" ++ bs "x\n")]).1 (appendFilter 1 true) (⟨recLine "1", some (recLine "1")⟩, 1)
    (.inl (by decide +kernel)) (by decide)

end Pica.Props
