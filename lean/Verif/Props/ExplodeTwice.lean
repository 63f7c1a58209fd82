import Verif.Props.Explode
import Verif.Props.Pipeline

/-!
# C65: exploding what has been exploded
-/

namespace Pica.Props
open Pica Pica.Spec

/-- no field of the main level comes after a field below it -/
def MainFirst (r : List Field) : Prop :=
  r.Pairwise (fun a b => b.level = some .main → a.level = some .main)

theorem MainFirst.split : ∀ {l : List Field}, MainFirst l → l = ofLevel .main l ++ belowMain l := by
  intro l
  induction l with
  | nil => intro _; rfl
  | cons f l ih =>
    intro h
    obtain ⟨h1, h2⟩ := List.pairwise_cons.1 h
    by_cases hf : f.level = some .main
    · have e := ih h2
      simp only [ofLevel, belowMain, List.filter_cons, hf, decide_true, if_true, ne_eq, not_true_eq_false,
        decide_false, Bool.false_eq_true, if_false, List.cons_append] at e ⊢
      rw [← e]
    · have hn : ofLevel .main l = [] := by
        simp only [ofLevel, List.filter_eq_nil_iff, decide_eq_true_eq]
        exact fun a ha hm => hf (h1 a ha hm)
      have e := ih h2
      rw [hn, List.nil_append] at e
      simp only [ofLevel, belowMain, List.filter_cons, hf, decide_false, Bool.false_eq_true, if_false, ne_eq,
        not_false_eq_true, decide_true, if_true] at hn e ⊢
      rw [hn, List.nil_append, ← e]

theorem noCut_of_pairwise {l : List Field} (h : l.Pairwise (fun a b => ¬ NewLocal a b)) : NoCut l := by
  intro u a b v e
  rw [e] at h
  have := (List.pairwise_append.1 h).2.1
  exact (List.pairwise_cons.1 this).1 b (by simp)

theorem noCut_main_append {m s : List Field} (hm : ∀ f ∈ m, f.level = some .main) (hs : NoCut s) :
    NoCut (m ++ s) := by
  induction m with
  | nil => exact hs
  | cons f m ih =>
    have ih := ih (fun g hg => hm g (by simp [hg]))
    intro u a b v e
    cases u with
    | nil =>
      simp only [List.cons_append, List.nil_append, List.cons.injEq] at e
      intro hn
      have := hm f (by simp)
      rw [e.1, hn.1] at this
      cases this
    | cons x u =>
      simp only [List.cons_append, List.cons.injEq] at e
      exact ih u a b v e.2

theorem mem_ofLevel {k : Level} {l : List Field} {f : Field} : f ∈ ofLevel k l ↔ f ∈ l ∧ f.level = some k := by
  simp [ofLevel]

theorem levels_noCut {x : List Field} (h : x = ofLevel .main x ++ ofLevel .local x ++ ofLevel .copy x) : NoCut x := by
  apply noCut_of_pairwise
  have key : ∀ (m l c : List Field), (∀ f ∈ m, f.level = some .main) → (∀ f ∈ l, f.level = some .local) →
      (∀ f ∈ c, f.level = some .copy) → (m ++ l ++ c).Pairwise (fun a b => ¬ NewLocal a b) := by
    intro m l c hm hl hc
    have self : ∀ (k : Level) (y : List Field), (∀ f ∈ y, f.level = some k) →
        y.Pairwise (fun a b => ¬ NewLocal a b) := by
      intro k y hy
      apply List.pairwise_of_forall_mem_list
      rintro a ha b hb ⟨h1, h2⟩
      rw [hy a ha] at h1; rw [hy b hb, h1] at h2; cases h2
    rw [List.pairwise_append, List.pairwise_append]
    refine ⟨⟨self _ m hm, self _ l hl, ?_⟩, self _ c hc, ?_⟩
    · rintro a ha b _ ⟨h1, _⟩; rw [hm a ha] at h1; cases h1
    · rintro a _ b hb ⟨_, h2⟩; rw [hc b hb] at h2; cases h2
  rw [h]
  exact key _ _ _ (fun f hf => (mem_ofLevel.1 hf).2) (fun f hf => (mem_ofLevel.1 hf).2)
    (fun f hf => (mem_ofLevel.1 hf).2)

/-- **C65** a record that explode copy has produced is not divided any further. -/
theorem C65_copy (b : Bytes) (r : Record) (h : Record.fromBytes b = some r) :
    ∃ xs, explodeRecord .copy r = some xs ∧ ∀ x ∈ xs, explodeRecord .copy x = some [x] := by
  obtain ⟨xs, h1, _, h3⟩ := C30_copy_blocks b r h
  refine ⟨xs, h1, fun x hx => ?_⟩
  obtain ⟨a1, a2, a3, _⟩ := h3 x hx
  have hl : Leveled x := by
    obtain ⟨ys, e, hy⟩ := mem_explode_main h .copy
    rw [h1] at e; cases e
    exact fun f hf => leveled h f ((hy x hx).2 f hf)
  have hp : Pieces x [x] := ⟨by simp, by simpa using a2, by
    intro u p q v e
    have := congrArg List.length e
    simp only [List.length_cons, List.length_append, List.length_nil] at this
    omega⟩
  have := copyLoop_last [x] x [] [] none [] hp hl (levels_noCut a3)
  simp only [explodeRecord, processCopy, this, pieceRecords, a1, if_false, List.nil_append, List.append_nil]
  rw [← a3]

theorem all_main_ofLevel (l : List Field) : ∀ f ∈ ofLevel .main l, f.level = some .main :=
  fun _ hf => (mem_ofLevel.1 hf).2

theorem ofLevel_all_main {m : List Field} (hm : ∀ f ∈ m, f.level = some .main) : ofLevel .main m = m := by
  rw [ofLevel, List.filter_eq_self]; intro f hf; simp [hm f hf]

theorem belowMain_all_main {m : List Field} (hm : ∀ f ∈ m, f.level = some .main) : belowMain m = [] := by
  rw [belowMain, List.filter_eq_nil_iff]; intro f hf; simp [hm f hf]

/-- the record of a segment whose main fields come first -/
theorem seg_record {main s : List Field} (hs : MainFirst s) :
    main ++ ofLevel .main s ++ belowMain s = main ++ s := by
  rw [List.append_assoc, ← hs.split]

theorem local_once {m s : List Field} (hm : ∀ f ∈ m, f.level = some .main) (hs : MainFirst s) (hl : Leveled s)
    (hn : NoCut s) (hb : belowMain s ≠ []) : explodeRecord .local (m ++ s) = some [m ++ s] := by
  have hne : s ≠ [] := by rintro rfl; exact hb rfl
  have hc : CutAt NewLocal (m ++ s) [m ++ s] := ⟨by simp, by simp [hne], by
      intro t ht; rw [List.mem_singleton.1 ht]; exact noCut_main_append hm hn, by
      intro u p q v e
      have := congrArg List.length e
      simp only [List.length_cons, List.length_append, List.length_nil] at this
      omega⟩
  have hl' : Leveled (m ++ s) := by
    intro f hf
    rcases List.mem_append.1 hf with hf | hf
    · exact ⟨_, hm f hf⟩
    · exact hl f hf
  have := localLoop_segs [m ++ s] (m ++ s) [] [] hc hl'
  have hb' : belowMain (m ++ s) = belowMain s := by rw [belowMain_append, belowMain_all_main hm]; rfl
  simp only [explodeRecord, processLocal, this, localRecords, hb', hb, if_false, List.nil_append, List.append_nil]
  rw [ofLevel_append, ofLevel_all_main hm, seg_record hs]

theorem mem_localRecords : ∀ {segs : List (List Field)} {main : List Field} {x : Record},
    (∀ f ∈ main, f.level = some .main) → x ∈ localRecords main segs →
    ∃ m s, (∀ f ∈ m, f.level = some .main) ∧ s ∈ segs ∧ belowMain s ≠ [] ∧
      x = m ++ ofLevel .main s ++ belowMain s := by
  intro segs
  induction segs with
  | nil => intro main x _ h; simp [localRecords] at h
  | cons s ss ih =>
    intro main x hm h
    rw [localRecords] at h
    rcases List.mem_append.1 h with h | h
    · by_cases he : belowMain s = []
      · simp [he] at h
      · rw [if_neg he, List.mem_singleton] at h
        exact ⟨main, s, hm, by simp, he, h⟩
    · obtain ⟨m, t, h1, h2, h3⟩ := ih (main := main ++ ofLevel .main s) (by
        intro f hf
        rcases List.mem_append.1 hf with hf | hf
        · exact hm f hf
        · exact all_main_ofLevel s f hf) h
      exact ⟨m, t, h1, by simp [h2], h3⟩

theorem MainFirst.seg {r : List Field} {segs : List (List Field)} (h : MainFirst r) (hs : segs.flatten = r)
    {s : List Field} (hm : s ∈ segs) : MainFirst s := by
  subst hs
  exact h.sublist (List.sublist_flatten_of_mem hm)

/-- The claim "a record that explode local has produced is not divided any
further" is false, see `C65_local_false`. **C65** It holds if no field of the main
level comes after a field below it, as it is in every record of the catalogue. -/
theorem C65_local_partial (b : Bytes) (r : Record) (h : Record.fromBytes b = some r) (hm : MainFirst r) :
    ∃ xs, explodeRecord .local r = some xs ∧ ∀ x ∈ xs, explodeRecord .local x = some [x] := by
  obtain ⟨⟨segs, hs⟩, h2⟩ := C30_local b r h
  refine ⟨_, h2 segs hs, fun x hx => ?_⟩
  obtain ⟨m, s, a1, a2, a3, rfl⟩ := mem_localRecords (main := []) (by simp) hx
  have hsm := hm.seg hs.whole a2
  rw [seg_record hsm]
  refine local_once a1 hsm (fun f hf => leveled h f ?_) (hs.inside s a2) a3
  rw [← hs.whole]; exact List.mem_flatten.2 ⟨s, a2, hf⟩

/-- a main field between a copy field and a local field -/
def mainBetween : Record :=
  [⟨bs "003@", none, [⟨0x30, bs "1"⟩]⟩, ⟨bs "101@", none, [⟨0x61, bs "1"⟩]⟩,
   ⟨bs "203@", some (bs "01"), [⟨0x30, bs "2"⟩]⟩, ⟨bs "010@", none, [⟨0x61, bs "x"⟩]⟩,
   ⟨bs "101@", none, [⟨0x61, bs "2"⟩]⟩]

/-- **C65** a record of explode local may be divided further: a main field between
a copy field and a local field hides the cut the first time and is moved away. -/
theorem C65_local_false : ¬ ∀ (b : Bytes) (r : Record), Record.fromBytes b = some r →
    ∃ xs, explodeRecord .local r = some xs ∧ ∀ x ∈ xs, explodeRecord .local x = some [x] := by
  intro h
  obtain ⟨xs, h1, h2⟩ := h mainBetween.write mainBetween (by decide +kernel)
  have e : (explodeRecord .local mainBetween).map (·.map (explodeRecord .local ·)) =
      some (xs.map (fun x => some [x])) := by
    rw [h1]
    simp only [Option.map_some, Option.some.injEq]
    exact List.map_congr_left h2
  have e' := congrArg (fun o => o.map (fun l => l.map (fun y => y.map List.length))) e
  simp only [Option.map_some, List.map_map] at e'
  have : ((explodeRecord .local mainBetween).map (·.map (explodeRecord .local ·))).map
      (fun l => l.map (fun y => y.map List.length)) = some [some 2] := by decide +kernel
  rw [this] at e'
  have hl := Option.some.inj e'
  cases xs with
  | nil => simp at hl
  | cons x xs => simp at hl

theorem all2_append' {α β : Type} {R : α → β → Prop} {a c : List α} {b d : List β} (h : All2 R a b)
    (h' : All2 R c d) : All2 R (a ++ c) (b ++ d) := by
  induction h with
  | nil => exact h'
  | cons x _ ih => exact .cons x ih

theorem pieceRecords_nil : ∀ (ps : List (List Field)) (main loc : List Field), ofLevel .copy ps.flatten = [] →
    pieceRecords main loc ps = [] := by
  intro ps
  induction ps with
  | nil => intros; rfl
  | cons p ps ih =>
    intro main loc h
    rw [List.flatten_cons, ofLevel_append] at h
    obtain ⟨h1, h2⟩ := List.append_eq_nil_iff.1 h
    rw [pieceRecords, if_pos h1, ih _ _ h2]; rfl

theorem refine_loop : ∀ (segs : List (List (List Field))) (main : List Field),
    (∀ f ∈ main, f.level = some .main) → (∀ s ∈ segs, Pieces s.flatten s) →
    (∀ s ∈ segs, MainFirst s.flatten ∧ Leveled s.flatten ∧ NoCut s.flatten) →
    ∃ ys, All2 (fun x y => explodeRecord .copy x = some y) (localRecords main (segs.map List.flatten)) ys ∧
      ys.flatten = copyRecords main segs := by
  intro segs
  induction segs with
  | nil => intro main _ _ _; exact ⟨[], .nil, rfl⟩
  | cons s ss ih =>
    intro main hm hp hs
    obtain ⟨ys, h1, h2⟩ := ih (main ++ ofLevel .main s.flatten) (by
        intro f hf
        rcases List.mem_append.1 hf with hf | hf
        · exact hm f hf
        · exact all_main_ofLevel _ f hf) (fun t ht => hp t (by simp [ht])) (fun t ht => hs t (by simp [ht]))
    obtain ⟨s1, s2, s3⟩ := hs s (by simp)
    rw [List.map_cons, localRecords, copyRecords]
    by_cases he : belowMain s.flatten = []
    · rw [if_pos he, List.nil_append]
      refine ⟨ys, h1, ?_⟩
      rw [pieceRecords_nil s main [], h2]; rfl
      rw [ofLevel, List.filter_eq_nil_iff]
      rw [belowMain, List.filter_eq_nil_iff] at he
      intro f hf
      have := he f hf
      simp only [ne_eq, decide_not, Bool.not_eq_true', decide_eq_false_iff_not, Classical.not_not] at this
      simp [this]
    · rw [if_neg he, seg_record s1]
      refine ⟨pieceRecords main [] s :: ys, .cons ?_ h1, by rw [List.flatten_cons, h2]⟩
      have hc : ofLevel .copy main = [] := by
        rw [ofLevel, List.filter_eq_nil_iff]; intro f hf; simp [hm f hf]
      have hlo : ofLevel .local main = [] := by
        rw [ofLevel, List.filter_eq_nil_iff]; intro f hf; simp [hm f hf]
      have e := copyLoop_run main s.flatten [] [] [] none [] (by
          intro f hf
          rcases List.mem_append.1 hf with hf | hf
          · exact ⟨_, hm f hf⟩
          · exact s2 f hf)
        (noCut_main_append hm (by
          intro u a b v e
          have := congrArg List.length e
          simp only [List.length_take, List.length_append, List.length_cons] at this
          omega))
        (by rw [hc]; simp) (.inl rfl)
      rw [hc, hlo, ofLevel_all_main hm] at e
      simp only [List.nil_append, List.append_nil] at e
      rw [explodeRecord.eq_def]
      simp only [processCopy]
      rw [e, copyLoop_last s s.flatten main [] _ [] (hp s (by simp)) s2 s3]
      rfl

/-- **C65** explode copy refines explode local, if no field of the main level comes
after a field below it: exploding every record of explode local by copy gives the
records of explode copy. -/
theorem C65_refine (b : Bytes) (r : Record) (h : Record.fromBytes b = some r) (hm : MainFirst r) :
    ∃ xs ys, explodeRecord .local r = some xs ∧ All2 (fun x y => explodeRecord .copy x = some y) xs ys ∧
      explodeRecord .copy r = some ys.flatten := by
  obtain ⟨⟨segs, hs, hp⟩, h2⟩ := C30_copy b r h
  have hin : ∀ s ∈ segs, ∀ f ∈ s.flatten, f ∈ r := by
    intro s hse f hf
    rw [← hs.whole]
    exact List.mem_flatten.2 ⟨_, List.mem_map.2 ⟨s, hse, rfl⟩, hf⟩
  obtain ⟨ys, h3, h4⟩ := refine_loop segs [] (by simp) hp (fun s hse =>
    ⟨hm.seg hs.whole (List.mem_map.2 ⟨s, hse, rfl⟩), fun f hf => leveled h f (hin s hse f hf),
      hs.inside _ (List.mem_map.2 ⟨s, hse, rfl⟩)⟩)
  exact ⟨_, ys, (C30_local b r h).2 _ hs, h3, by rw [h2 segs hs hp, h4]⟩

example : MainFirst explodeSample := by
  simp only [MainFirst]; decide +kernel
example : (explodeRecord .local explodeSample).map (·.map (explodeRecord .local)) =
    (explodeRecord .local explodeSample).map (·.map (fun x => some [x])) := by decide +kernel
example : (explodeRecord .local explodeSample).map List.length = some 2 ∧
    (explodeRecord .copy explodeSample).map List.length = some 3 := by decide +kernel
example : ¬ MainFirst mainBetween := by
  simp only [MainFirst]; decide +kernel

/-! ### The command -/

theorem exploded_of {l : Level} {r : ByteRecord} {xs : List Record} (h : explodeRecord l r.record = some xs) :
    exploded l r = xs.map (fun x => ⟨some (x.flatMap Field.write ++ [LF]), x⟩) := by
  rw [exploded, h, Option.getD_some]

theorem exploded_record (l : Level) {r r' : ByteRecord} (h : r.record = r'.record) : exploded l r = exploded l r' := by
  rw [exploded, exploded, h]

theorem exploded_line {b x : ByteRecord} (hb : LineRecord b) {l : Level} (hx : x ∈ exploded l b) :
    x.record ≠ [] ∧ LineRecord (asRead x.record) ∧ x = asRead x.record := by
  obtain ⟨t, _, h1, _⟩ := id hb
  obtain ⟨h3, _⟩ := ByteRecord.fromBytes_eq_some.1 h1
  obtain ⟨xs, e, h⟩ := mem_explode_main h3 l
  rw [exploded_of e] at hx
  obtain ⟨y, hy, rfl⟩ := List.mem_map.1 hx
  obtain ⟨hne, hsub⟩ := h y hy
  refine ⟨hne, asRead_line hb hsub hne, ?_⟩
  simp only [asRead, Record.write_of_ne hne]

/-- the output of a plain explode, as the next command reads it -/
theorem explode_feed (c : ExplodeCmd) (hl : c.limit = 0) (hk : c.keep = []) (hd : c.discard = [])
    (hs : ∀ r, Picked c.sel r) (files : List (String × Bytes)) (rs : List ByteRecord) (hi : Input files rs)
    (name : String) (out : Bytes) (n : Nat) (h : c.run files = .ok (out, n)) :
    Input [(name, out)] (rs.flatMap (exploded c.level)) ∧ AllValid [(name, out)] := by
  classical
  have h1 := (C30_output c files rs hi out n h).1
  have e : picked c.sel (rs.flatMap (exploded c.level)) = rs.flatMap (exploded c.level) := by
    rw [picked, List.filter_eq_self]; intro x _; simpa using hs x.record
  have hx : ∀ x ∈ rs.flatMap (exploded c.level),
      x.record ≠ [] ∧ LineRecord (asRead x.record) ∧ x = asRead x.record := by
    intro x hx
    obtain ⟨r, hr, hxr⟩ := List.mem_flatMap.1 hx
    exact exploded_line (input_lineRecord hi r hr) hxr
  simp only [e, hl, hk, hd, limited, if_true] at h1
  have h2 : out = ((rs.flatMap (exploded c.level)).map (·.record)).flatMap Record.write := by
    rw [h1, List.flatMap_map]
    exact flatMap_congr_mem fun x _ => by rw [reduced_nil]
  have h3 := written_input name ((rs.flatMap (exploded c.level)).map (·.record)) (by
    intro r hr _
    obtain ⟨x, hxm, rfl⟩ := List.mem_map.1 hr
    exact (hx x hxm).2.1)
  rw [← h2] at h3
  have e2 : (((rs.flatMap (exploded c.level)).map (·.record)).filter (fun r => !r.isEmpty)).map asRead =
      rs.flatMap (exploded c.level) := by
    rw [List.filter_eq_self.2, List.map_map]
    · conv => rhs; rw [← List.map_id (rs.flatMap (exploded c.level))]
      exact List.map_congr_left fun x hxm => ((hx x hxm).2.2).symm
    · intro r hr
      obtain ⟨x, hxm, rfl⟩ := List.mem_map.1 hr
      simpa using (hx x hxm).1
  rwa [e2] at h3

theorem explode_twice (c d : ExplodeCmd) (hl : c.limit = 0) (hk : c.keep = []) (hd : c.discard = [])
    (hs : ∀ r, Picked c.sel r) (files : List (String × Bytes)) (rs : List ByteRecord) (hi : Input files rs)
    (name : String) (out : Bytes) (n : Nat) (h : c.run files = .ok (out, n))
    (law : ∀ r ∈ rs, (exploded c.level r).flatMap (exploded d.level) = exploded d.level r)
    (out₂ : Bytes) (n₂ : Nat) (h₂ : d.run [(name, out)] = .ok (out₂, n₂)) (out₁ : Bytes) (n₁ : Nat)
    (h₁ : d.run files = .ok (out₁, n₁)) : out₂ = out₁ ∧ n₂ = n₁ := by
  have hf := (explode_feed c hl hk hd hs files rs hi name out n h).1
  have a := C30_output d _ _ hf out₂ n₂ h₂
  have b := C30_output d _ _ hi out₁ n₁ h₁
  have e : (rs.flatMap (exploded c.level)).flatMap (exploded d.level) = rs.flatMap (exploded d.level) := by
    rw [List.flatMap_assoc]; exact flatMap_congr_mem law
  simp only [e] at a
  exact ⟨a.1.trans b.1.symm, a.2.trans b.2.symm⟩

theorem flatMap_singletons {l : Level} {xs : List Record} (h : ∀ x ∈ xs, explodeRecord l x = some [x]) :
    (xs.map (fun x => (⟨some (x.flatMap Field.write ++ [LF]), x⟩ : ByteRecord))).flatMap (exploded l) =
      xs.map (fun x => ⟨some (x.flatMap Field.write ++ [LF]), x⟩) := by
  induction xs with
  | nil => rfl
  | cons x xs ih =>
    have h1 : exploded l ⟨some (x.flatMap Field.write ++ [LF]), x⟩ =
        [⟨some (x.flatMap Field.write ++ [LF]), x⟩] := exploded_of (r := ⟨_, x⟩) (h x (by simp))
    rw [List.map_cons, List.flatMap_cons, h1, ih (fun y hy => h y (by simp [hy]))]; rfl

theorem flatMap_refined {l : Level} {xs : List Record} {ys : List (List Record)}
    (h : All2 (fun x y => explodeRecord l x = some y) xs ys) :
    (xs.map (fun x => (⟨some (x.flatMap Field.write ++ [LF]), x⟩ : ByteRecord))).flatMap (exploded l) =
      ys.flatten.map (fun x => ⟨some (x.flatMap Field.write ++ [LF]), x⟩) := by
  induction h with
  | nil => rfl
  | @cons x y xs ys h1 _ ih =>
    have h2 : exploded l ⟨some (x.flatMap Field.write ++ [LF]), x⟩ =
        y.map (fun x => ⟨some (x.flatMap Field.write ++ [LF]), x⟩) := exploded_of (r := ⟨_, x⟩) h1
    rw [List.map_cons, List.flatMap_cons, h2, ih, List.flatten_cons, List.map_append]

/-- **C65** `explode K | explode L` writes what `explode L` writes, where the first
command only explodes and the second one may have any options: for `K = main`, for
`K = L = copy`, and, if the main fields of all records come first, for `K = local`. -/
theorem C65_pipeline (c d : ExplodeCmd) (hl : c.limit = 0) (hk : c.keep = []) (hd : c.discard = [])
    (hs : ∀ r, Picked c.sel r) (files : List (String × Bytes)) (rs : List ByteRecord) (hi : Input files rs)
    (levels : c.level = .main ∨ (c.level = .copy ∧ d.level = .copy) ∨
      (c.level = .local ∧ d.level ≠ .main ∧ ∀ r ∈ rs, MainFirst r.record))
    (name : String) (out : Bytes) (n : Nat) (h : c.run files = .ok (out, n))
    (out₂ : Bytes) (n₂ : Nat) (h₂ : d.run [(name, out)] = .ok (out₂, n₂)) (out₁ : Bytes) (n₁ : Nat)
    (h₁ : d.run files = .ok (out₁, n₁)) : out₂ = out₁ ∧ n₂ = n₁ := by
  refine explode_twice c d hl hk hd hs files rs hi name out n h (fun r hr => ?_) out₂ n₂ h₂ out₁ n₁ h₁
  obtain ⟨b, hb⟩ := input_fromBytes hi r hr
  obtain ⟨hb, _⟩ := ByteRecord.fromBytes_eq_some.1 hb
  rcases levels with e | ⟨e, e'⟩ | ⟨e, e', hm⟩
  · rw [e, exploded_of (C30_main r.record)]
    simp only [List.map_cons, List.map_nil, List.flatMap_cons, List.flatMap_nil, List.append_nil]
    exact exploded_record _ rfl
  · obtain ⟨xs, h3, h4⟩ := C65_copy b r.record hb
    rw [e, e', exploded_of h3, flatMap_singletons h4]
  · cases hdl : d.level with
    | main => exact absurd hdl e'
    | «local» =>
      obtain ⟨xs, h3, h4⟩ := C65_local_partial b r.record hb (hm r hr)
      rw [e, exploded_of h3, flatMap_singletons h4]
    | copy =>
      obtain ⟨xs, ys, h3, h4, h5⟩ := C65_refine b r.record hb (hm r hr)
      rw [e, exploded_of h3, exploded_of h5, flatMap_refined h4]

/-- **C65** and the second command of such a pipeline finishes whenever its
predicates do not panic on the pieces. -/
theorem C65_pipeline_finishes (c d : ExplodeCmd) (hl : c.limit = 0) (hk : c.keep = []) (hd : c.discard = [])
    (hs : ∀ r, Picked c.sel r) (files : List (String × Bytes)) (rs : List ByteRecord) (hi : Input files rs)
    (name : String) (out : Bytes) (n : Nat) (h : c.run files = .ok (out, n))
    (hp : ∀ r, NoPanic d.sel r) : ∃ out₂ n₂, d.run [(name, out)] = .ok (out₂, n₂) := by
  obtain ⟨h1, h2⟩ := explode_feed c hl hk hd hs files rs hi name out n h
  exact C30_finishes d _ _ h1 (.inr h2) (fun _ _ x _ => hp x.record)

/-- explode a record and explode the output -/
def twice (k l : Level) (r : Record) : Option Bytes :=
  match (⟨false, k, 0, noSelection, [], []⟩ : ExplodeCmd).run [("", r.write)] with
  | .ok (o, _) =>
    match (⟨false, l, 0, noSelection, [], []⟩ : ExplodeCmd).run [("", o)] with
    | .ok (o', _) => some o'
    | _ => none
  | _ => none

example : twice .local .copy explodeSample = twice .main .copy explodeSample ∧
    twice .copy .copy explodeSample = twice .main .copy explodeSample ∧
    (twice .main .copy explodeSample).map List.length = some 105 := by decide +kernel
example : twice .local .local mainBetween ≠ twice .main .local mainBetween := by decide +kernel

end Pica.Props
