import Verif.Lemmas.Explode
import Verif.Props.Filter

/-! # C30: explode -/

namespace Pica.Props
open Pica Spec

theorem leveled {b : Bytes} {r : Record} (h : Record.fromBytes b = some r) : Leveled r := by
  intro f hf
  obtain ⟨l, hl, _⟩ := C09_level_of_decoded b r h f hf
  exact ⟨l, hl⟩

/-- **C30** explode main leaves a record as it is. -/
theorem C30_main (r : Record) : explodeRecord .main r = some [r] := rfl

/-- **C30** explode local: the record is cut exactly between a copy-level field
and a directly following local-level field; each part gives a record of the main
fields read so far and the other fields of the part. -/
theorem C30_local (b : Bytes) (r : Record) (h : Record.fromBytes b = some r) :
    (∃ segs, CutAt NewLocal r segs) ∧
    ∀ segs, CutAt NewLocal r segs → explodeRecord .local r = some (localRecords [] segs) := by
  refine ⟨cut_exists _ _, fun segs hs => ?_⟩
  have := localLoop_segs segs r [] [] hs (leveled h)
  simpa [explodeRecord, processLocal] using this

theorem belowMain_ofLevel (l : List Field) : belowMain (ofLevel .main l) = [] := by
  simp [belowMain, ofLevel, List.filter_filter]

theorem belowMain_idem (l : List Field) : belowMain (belowMain l) = belowMain l := by
  simp [belowMain, List.filter_filter]

theorem ofLevel_belowMain (l : List Field) : ofLevel .main (belowMain l) = [] := by
  simp only [belowMain, ofLevel, List.filter_filter, List.filter_eq_nil_iff]
  intro a _; simp

theorem ofLevel_idem (k : Level) (l : List Field) : ofLevel k (ofLevel k l) = ofLevel k l := by
  simp [ofLevel, List.filter_filter]

theorem ofLevel_ne {k k' : Level} (h : k ≠ k') (l : List Field) : ofLevel k (ofLevel k' l) = [] := by
  simp only [ofLevel, List.filter_filter, List.filter_eq_nil_iff]
  intro a _; simp only [Bool.and_eq_true, decide_eq_true_eq, not_and]
  intro h1 h2; rw [h1] at h2; exact h (Option.some.inj h2)

theorem localRecords_spec : ∀ (segs : List (List Field)) (main : List Field), belowMain main = [] →
    ((localRecords main segs).map belowMain).flatten = belowMain segs.flatten ∧
    ∀ x ∈ localRecords main segs, belowMain x ≠ [] ∧
      x = ofLevel .main x ++ belowMain x ∧ ofLevel .main x <+: ofLevel .main (main ++ segs.flatten) := by
  intro segs
  induction segs with
  | nil => intro main _; simp [localRecords, belowMain]
  | cons s ss ih =>
    intro main hm
    have hm' : belowMain (main ++ ofLevel .main s) = [] := by
      rw [belowMain_append, hm, belowMain_ofLevel]; rfl
    obtain ⟨h1, h2⟩ := ih _ hm'
    have hb : belowMain (main ++ ofLevel .main s ++ belowMain s) = belowMain s := by
      rw [belowMain_append, hm', belowMain_idem]; rfl
    have hmain : ofLevel .main main = main := by
      rw [ofLevel, List.filter_eq_self]
      intro a ha
      rw [belowMain, List.filter_eq_nil_iff] at hm
      have := hm a ha
      simpa using this
    have ho : ofLevel .main (main ++ ofLevel .main s ++ belowMain s) = main ++ ofLevel .main s := by
      rw [ofLevel_append, ofLevel_append, ofLevel_idem, ofLevel_belowMain, hmain]; simp
    constructor
    · rw [localRecords, List.flatten_cons, belowMain_append, ← h1]
      by_cases he : belowMain s = []
      · simp [he]
      · rw [if_neg he]; simp only [List.map_append, List.map_cons, List.map_nil, hb]; simp
    · intro x hx
      rw [localRecords] at hx
      rcases List.mem_append.1 hx with hx | hx
      · by_cases he : belowMain s = []
        · simp [he] at hx
        · rw [if_neg he, List.mem_singleton] at hx
          subst hx
          rw [hb, ho]
          refine ⟨he, rfl, ⟨ofLevel .main ss.flatten, ?_⟩⟩
          rw [List.flatten_cons, ofLevel_append, ofLevel_append, hmain]; simp
      · obtain ⟨h3, h4, h5⟩ := h2 x hx
        refine ⟨h3, h4, ?_⟩
        have e : ofLevel .main (main ++ (s :: ss).flatten) = ofLevel .main (main ++ ofLevel .main s ++ ss.flatten) := by
          rw [List.flatten_cons, ofLevel_append, ofLevel_append, ofLevel_append, ofLevel_append, ofLevel_idem]
          simp
        rw [e]; exact h5

/-- **C30** explode local neither loses nor repeats a field below the main level:
the blocks of the records are non-empty and, put together, are the fields below
the main level in their order; the rest of each record is a prefix of the main
fields. -/
theorem C30_local_blocks (b : Bytes) (r : Record) (h : Record.fromBytes b = some r) :
    ∃ xs, explodeRecord .local r = some xs ∧
      (xs.map belowMain).flatten = belowMain r ∧
      ∀ x ∈ xs, belowMain x ≠ [] ∧ x = ofLevel .main x ++ belowMain x ∧
        ofLevel .main x <+: ofLevel .main r := by
  obtain ⟨⟨segs, hs⟩, h2⟩ := C30_local b r h
  refine ⟨_, h2 segs hs, ?_⟩
  have := localRecords_spec segs [] rfl
  rw [hs.whole] at this
  simpa using this

/-- **C30** explode copy: the parts between the cuts are divided into pieces,
each with copy fields of one occurrence; each piece with a copy field gives a
record of the main fields read so far, the local fields of the part read so far,
and the copy fields of the piece. -/
theorem C30_copy (b : Bytes) (r : Record) (h : Record.fromBytes b = some r) :
    (∃ segs : List (List (List Field)), CutAt NewLocal r (segs.map List.flatten) ∧
      ∀ s ∈ segs, Pieces s.flatten s) ∧
    ∀ segs : List (List (List Field)), CutAt NewLocal r (segs.map List.flatten) →
      (∀ s ∈ segs, Pieces s.flatten s) →
      explodeRecord .copy r = some (copyRecords [] segs) := by
  refine ⟨?_, fun segs hs hp => ?_⟩
  · obtain ⟨ss, hss⟩ := cut_exists NewLocal r
    have key : ∀ ss : List (List Field), ∃ segs : List (List (List Field)),
        segs.map List.flatten = ss ∧ ∀ s ∈ segs, Pieces s.flatten s := by
      intro ss
      induction ss with
      | nil => exact ⟨[], rfl, by simp⟩
      | cons s ss ih =>
        obtain ⟨segs, h1, h2⟩ := ih
        obtain ⟨ps, hps⟩ := pieces_exists s
        refine ⟨ps :: segs, by rw [List.map_cons, h1, hps.whole], ?_⟩
        intro x hx
        rcases List.mem_cons.1 hx with rfl | hx
        · rw [hps.whole]; exact hps
        · exact h2 x hx
    obtain ⟨segs, h1, h2⟩ := key ss
    exact ⟨segs, by rw [h1]; exact hss, h2⟩
  · have := copyLoop_segs segs r [] [] hs hp (leveled h)
    simpa [explodeRecord, processCopy] using this

theorem pieceRecords_spec (s : List Field) : ∀ (ps : List (List Field)) (main loc : List Field),
    ofLevel .main main = main → ofLevel .local loc = loc → (∀ f ∈ loc, f ∈ s) →
    (∀ p ∈ ps, ∀ f ∈ p, f ∈ s) →
    (∀ p ∈ ps, ∀ f ∈ ofLevel .copy p, ∀ g ∈ ofLevel .copy p, f.occ = g.occ) →
    ((pieceRecords main loc ps).map (ofLevel .copy)).flatten = ofLevel .copy ps.flatten ∧
    ∀ x ∈ pieceRecords main loc ps, ofLevel .copy x ≠ [] ∧
      (∀ f ∈ ofLevel .copy x, ∀ g ∈ ofLevel .copy x, f.occ = g.occ) ∧
      x = ofLevel .main x ++ ofLevel .local x ++ ofLevel .copy x ∧
      ofLevel .main x <+: main ++ ofLevel .main ps.flatten ∧ (∀ f ∈ ofLevel .local x, f ∈ s) := by
  intro ps
  induction ps with
  | nil => intro main loc _ _ _ _ _; simp [pieceRecords, ofLevel]
  | cons p ps ih =>
    intro main loc hm hl hls hps hsame
    obtain ⟨h1, h2⟩ := ih (main ++ ofLevel .main p) (loc ++ ofLevel .local p)
      (by rw [ofLevel_append, hm, ofLevel_idem]) (by rw [ofLevel_append, hl, ofLevel_idem])
      (by
        intro f hf
        rcases List.mem_append.1 hf with hf | hf
        · exact hls f hf
        · exact hps p (by simp) f (List.mem_filter.1 hf).1)
      (fun q hq => hps q (by simp [hq])) (fun q hq => hsame q (by simp [hq]))
    have zero : ∀ (k k' : Level) (l : List Field), k ≠ k' → ofLevel k' l = l → ofLevel k l = [] := by
      intro k k' l hk he; rw [← he]; exact ofLevel_ne hk l
    have hx : ∀ k, ofLevel k ((main ++ ofLevel .main p) ++ (loc ++ ofLevel .local p) ++ ofLevel .copy p) =
        (match k with
        | .main => main ++ ofLevel .main p
        | .local => loc ++ ofLevel .local p
        | .copy => ofLevel .copy p) := by
      intro k
      cases k <;> simp only [ofLevel_append, ofLevel_idem, hm, hl, ofLevel_ne (k := .main) (k' := .local) (by simp),
        ofLevel_ne (k := .main) (k' := .copy) (by simp), ofLevel_ne (k := .local) (k' := .main) (by simp),
        ofLevel_ne (k := .local) (k' := .copy) (by simp), ofLevel_ne (k := .copy) (k' := .main) (by simp),
        ofLevel_ne (k := .copy) (k' := .local) (by simp), zero _ _ _ (by simp : Level.main ≠ .local) hl,
        zero _ _ _ (by simp : Level.local ≠ .main) hm, zero _ _ _ (by simp : Level.copy ≠ .main) hm,
        zero _ _ _ (by simp : Level.copy ≠ .local) hl, List.append_nil, List.nil_append]
    constructor
    · rw [pieceRecords, List.flatten_cons, ofLevel_append, ← h1]
      by_cases he : ofLevel .copy p = []
      · simp [he]
      · rw [if_neg he]; simp only [List.map_append, List.map_cons, List.map_nil, hx]; simp
    · intro x hxm
      rw [pieceRecords] at hxm
      rcases List.mem_append.1 hxm with hxm | hxm
      · by_cases he : ofLevel .copy p = []
        · simp [he] at hxm
        · rw [if_neg he, List.mem_singleton] at hxm
          rw [hxm, hx, hx, hx]
          refine ⟨he, hsame p (by simp), rfl, ⟨ofLevel .main ps.flatten, ?_⟩, ?_⟩
          · rw [List.flatten_cons, ofLevel_append]; simp
          · intro f hf
            rcases List.mem_append.1 hf with hf | hf
            · exact hls f hf
            · exact hps p (by simp) f (List.mem_filter.1 hf).1
      · obtain ⟨h3, h4, h5, h6, h7⟩ := h2 x hxm
        refine ⟨h3, h4, h5, ?_, h7⟩
        rw [List.flatten_cons, ofLevel_append, ← List.append_assoc]; exact h6

theorem copyRecords_spec : ∀ (segs : List (List (List Field))) (main : List Field),
    ofLevel .main main = main → (∀ s ∈ segs, Pieces s.flatten s) →
    ((copyRecords main segs).map (ofLevel .copy)).flatten = ofLevel .copy (segs.map List.flatten).flatten ∧
    ∀ x ∈ copyRecords main segs, ofLevel .copy x ≠ [] ∧
      (∀ f ∈ ofLevel .copy x, ∀ g ∈ ofLevel .copy x, f.occ = g.occ) ∧
      x = ofLevel .main x ++ ofLevel .local x ++ ofLevel .copy x ∧
      ofLevel .main x <+: main ++ ofLevel .main (segs.map List.flatten).flatten ∧
      ∃ s ∈ segs, ∀ f ∈ ofLevel .local x ++ ofLevel .copy x, f ∈ s.flatten := by
  intro segs
  induction segs with
  | nil => intro main _ _; simp [copyRecords, ofLevel]
  | cons s ss ih =>
    intro main hm hp
    obtain ⟨h1, h2⟩ := ih (main ++ ofLevel .main s.flatten) (by rw [ofLevel_append, hm, ofLevel_idem])
      (fun x hx => hp x (by simp [hx]))
    have hp0 := hp s (by simp)
    obtain ⟨h3, h4⟩ := pieceRecords_spec s.flatten s main [] hm rfl (by simp)
      (fun p hp f hf => List.mem_flatten.2 ⟨p, hp, hf⟩) hp0.same
    constructor
    · rw [copyRecords, List.map_append, List.flatten_append, h3, h1]
      simp [ofLevel_append]
    · intro x hx
      rw [copyRecords] at hx
      rcases List.mem_append.1 hx with hx | hx
      · obtain ⟨a1, a2, a3, a4, a5⟩ := h4 x hx
        refine ⟨a1, a2, a3, ?_, s, by simp, ?_⟩
        · rw [List.map_cons, List.flatten_cons, ofLevel_append, ← List.append_assoc]
          exact a4.trans (List.prefix_append _ _)
        · intro f hf
          rcases List.mem_append.1 hf with hf | hf
          · exact a5 f hf
          · have : f ∈ ((pieceRecords main [] s).map (ofLevel .copy)).flatten :=
              List.mem_flatten.2 ⟨_, List.mem_map.2 ⟨x, hx, rfl⟩, hf⟩
            rw [h3] at this
            exact (List.mem_filter.1 this).1
      · obtain ⟨a1, a2, a3, a4, t, ht, a5⟩ := h2 x hx
        refine ⟨a1, a2, a3, ?_, t, by simp [ht], a5⟩
        rw [List.map_cons, List.flatten_cons, ofLevel_append, ← List.append_assoc]
        exact a4

/-- **C30** explode copy neither loses nor repeats a copy-level field: each record
has copy-level fields of one occurrence, and put together these are the copy-level
fields in their order; the main fields of a record are a prefix of the main
fields. -/
theorem C30_copy_blocks (b : Bytes) (r : Record) (h : Record.fromBytes b = some r) :
    ∃ xs, explodeRecord .copy r = some xs ∧
      (xs.map (ofLevel .copy)).flatten = ofLevel .copy r ∧
      ∀ x ∈ xs, ofLevel .copy x ≠ [] ∧
        (∀ f ∈ ofLevel .copy x, ∀ g ∈ ofLevel .copy x, f.occ = g.occ) ∧
        x = ofLevel .main x ++ ofLevel .local x ++ ofLevel .copy x ∧
        ofLevel .main x <+: ofLevel .main r := by
  obtain ⟨⟨segs, hs, hp⟩, h2⟩ := C30_copy b r h
  refine ⟨_, h2 segs hs hp, ?_⟩
  have := copyRecords_spec segs [] rfl hp
  rw [hs.whole] at this
  refine ⟨this.1, fun x hx => ?_⟩
  obtain ⟨a1, a2, a3, a4, _⟩ := this.2 x hx
  exact ⟨a1, a2, a3, by simpa using a4⟩

theorem mem_explode_main {b : Bytes} {r : Record} (h : Record.fromBytes b = some r) (l : Level) :
    ∃ xs, explodeRecord l r = some xs ∧ ∀ x ∈ xs, x ≠ [] ∧ ∀ f ∈ x, f ∈ r := by
  obtain ⟨hne, _, _⟩ := Record.fromBytes_eq_some.1 h
  have hsub : ∀ {k : Level} {x : Record}, ofLevel .main x <+: ofLevel .main r → ∀ f ∈ ofLevel .main x, f ∈ r :=
    fun hp f hf => (List.mem_filter.1 (hp.subset hf)).1
  cases l with
  | main => exact ⟨[r], rfl, by simpa using hne⟩
  | «local» =>
    obtain ⟨xs, h1, h2, h3⟩ := C30_local_blocks b r h
    refine ⟨xs, h1, fun x hx => ?_⟩
    obtain ⟨a1, a2, a3⟩ := h3 x hx
    refine ⟨fun he => a1 (by simp [he, belowMain]), fun f hf => ?_⟩
    rw [a2] at hf
    rcases List.mem_append.1 hf with hf | hf
    · exact hsub (k := .main) a3 f hf
    · have : f ∈ (xs.map belowMain).flatten := List.mem_flatten.2 ⟨_, List.mem_map.2 ⟨x, hx, rfl⟩, hf⟩
      rw [h2] at this
      exact (List.mem_filter.1 this).1
  | copy =>
    obtain ⟨⟨segs, hs, hp⟩, h2⟩ := C30_copy b r h
    refine ⟨_, h2 segs hs hp, fun x hx => ?_⟩
    have := copyRecords_spec segs [] rfl hp
    obtain ⟨a1, a2, a3, a4, s, hsm, a5⟩ := this.2 x hx
    refine ⟨fun he => a1 (by simp [he, ofLevel]), fun f hf => ?_⟩
    rw [a3, List.append_assoc] at hf
    rcases List.mem_append.1 hf with hf | hf
    · rw [hs.whole] at a4
      exact hsub (k := .main) (by simpa using a4) f hf
    · have := a5 f hf
      rw [← hs.whole]
      exact List.mem_flatten.2 ⟨_, List.mem_map.2 ⟨s, hsm, rfl⟩, this⟩

/-- **C30** exploding never panics, and decoding an exploded record again always
succeeds and gives its fields. -/
theorem C30_redecode (b : Bytes) (r : Record) (h : Record.fromBytes b = some r) (l : Level) :
    ∃ xs, explodeRecord l r = some xs ∧
      ∀ x ∈ xs, Record.fromBytes (x.flatMap Field.write ++ [LF]) = some x := by
  obtain ⟨xs, h1, h2⟩ := mem_explode_main h l
  obtain ⟨_, hR, _⟩ := Record.fromBytes_eq_some.1 h
  exact ⟨xs, h1, fun x hx => Record.fromBytes_eq_some.2
    ⟨(h2 x hx).1, fun f hf => hR f ((h2 x hx).2 f hf), rfl⟩⟩

/-! ### The command -/

/-- the exploded records of a record, as the command decodes them again -/
def exploded (l : Level) (r : ByteRecord) : List ByteRecord :=
  ((explodeRecord l r.record).getD []).map (fun x => ⟨some (x.flatMap Field.write ++ [LF]), x⟩)

theorem each_run (c : ExplodeCmd) : ∀ (xs : List Record) (s : Bytes × Nat) (tail : List ByteRecord),
    (∀ x ∈ xs, Record.fromBytes (x.flatMap Field.write ++ [LF]) = some x) →
    runSteps (selBody c.sel.test
        (fun s r => limitStep c.limit (s.2 + 1) (s.1 ++ (c.reduce r).write, s.2 + 1)))
      (xs.map (fun x => ⟨some (x.flatMap Field.write ++ [LF]), x⟩) ++ tail) s =
    match c.each xs s with
    | .next s' => runSteps (selBody c.sel.test
        (fun s r => limitStep c.limit (s.2 + 1) (s.1 ++ (c.reduce r).write, s.2 + 1))) tail s'
    | .stop s' => some s'
    | .panic => none := by
  intro xs
  induction xs with
  | nil => intro s tail _; rfl
  | cons x xs ih =>
    intro s tail h
    have hx : ByteRecord.fromBytes (x.flatMap Field.write ++ [LF]) =
        some ⟨some (x.flatMap Field.write ++ [LF]), x⟩ := by
      rw [ByteRecord.fromBytes, h x (by simp)]
    rw [List.map_cons, List.cons_append, runSteps, ExplodeCmd.each, hx]
    dsimp only
    cases selBody c.sel.test
        (fun s r => limitStep c.limit (s.2 + 1) (s.1 ++ (c.reduce r).write, s.2 + 1)) s
        ⟨some (x.flatMap Field.write ++ [LF]), x⟩ with
    | next s' => exact ih s' tail (fun y hy => h y (by simp [hy]))
    | stop s' => rfl
    | panic => rfl

theorem body_run (c : ExplodeCmd) : ∀ (rs : List ByteRecord) (s : Bytes × Nat),
    (∀ r ∈ rs, ∃ l, ByteRecord.fromBytes l = some r) →
    runSteps c.body rs s = runSteps (selBody c.sel.test
        (fun s r => limitStep c.limit (s.2 + 1) (s.1 ++ (c.reduce r).write, s.2 + 1)))
      (rs.flatMap (exploded c.level)) s := by
  intro rs
  induction rs with
  | nil => intro s _; rfl
  | cons r rs ih =>
    intro s h
    obtain ⟨b, hb⟩ := h r (by simp)
    obtain ⟨h1, _⟩ := ByteRecord.fromBytes_eq_some.1 hb
    obtain ⟨xs, hx, hdec⟩ := C30_redecode b r.record h1 c.level
    rw [List.flatMap_cons, exploded, hx, Option.getD_some, each_run c xs s _ hdec, runSteps,
      ExplodeCmd.body, hx]
    dsimp only
    cases c.each xs s with
    | next s' => exact ih s' (fun y hy => h y (by simp [hy]))
    | stop s' => rfl
    | panic => rfl

theorem explode_reduce_write (c : ExplodeCmd) {l : Bytes} {r : ByteRecord}
    (h : ByteRecord.fromBytes l = some r) :
    (c.reduce r).write = (reduced c.discard c.keep r.record).write := by
  have e : c.reduce r = (r.keep c.keep).discard c.discard := rfl
  rw [e, (C10_commute c.keep c.discard r).1]
  have hr : Reach ((r.discard c.discard).keep c.keep) := .keep _ (.discard _ (.fromBytes h))
  rw [C10_written_bytes _ hr]
  classical
  unfold reduced
  by_cases hk : c.keep = []
  · rw [hk, (C10_empty_preds _).1, C10_discard]
    congr 1
    exact List.filter_congr (fun f _ => by simp)
  · rw [C10_keep _ hk, C10_discard, List.filter_filter]
    congr 1
    exact List.filter_congr (fun f _ => by simp [hk, Bool.and_comm])

theorem exploded_fromBytes {l : Level} {r x : ByteRecord} {b : Bytes} (hr : ByteRecord.fromBytes b = some r)
    (hx : x ∈ exploded l r) : ∃ b', ByteRecord.fromBytes b' = some x := by
  obtain ⟨h1, _⟩ := ByteRecord.fromBytes_eq_some.1 hr
  obtain ⟨xs, he, hdec⟩ := C30_redecode b r.record h1 l
  rw [exploded, he, Option.getD_some, List.mem_map] at hx
  obtain ⟨y, hy, rfl⟩ := hx
  exact ⟨_, by rw [ByteRecord.fromBytes, hdec y hy]⟩

/-- **C30** the command writes, in order, the reduced encodings of the first
`limit` exploded records that are selected. -/
theorem C30_output (c : ExplodeCmd) (files : List (String × Bytes)) (rs : List ByteRecord)
    (hi : Input files rs) (out : Bytes) (n : Nat) (h : c.run files = .ok (out, n)) :
    let sel := limited c.limit (picked c.sel (rs.flatMap (exploded c.level)))
    out = sel.flatMap (fun r => (reduced c.discard c.keep r.record).write) ∧ n = sel.length := by
  have h1 := filesLoop_ok hi h
  rw [body_run c rs _ (input_fromBytes hi)] at h1
  have h2 := runSteps_sel h1
  rw [chosen_eq_picked] at h2
  have h3 := runSteps_limit c.limit (fun s r => s ++ (c.reduce r).write)
    (picked c.sel (rs.flatMap (exploded c.level))) [] 0 (by omega)
  rw [h3] at h2
  simp only [Option.some.injEq, Prod.mk.injEq] at h2
  have hd : ∀ x ∈ limited c.limit (picked c.sel (rs.flatMap (exploded c.level))),
      ∃ b, ByteRecord.fromBytes b = some x := by
    intro x hx
    have := (List.mem_filter.1 (mem_limited hx)).1
    obtain ⟨r, hr, hxr⟩ := List.mem_flatMap.1 this
    obtain ⟨b, hb⟩ := input_fromBytes hi r hr
    exact exploded_fromBytes hb hxr
  dsimp only
  constructor
  · rw [← h2.1, foldl_append_flatMap, List.nil_append]
    simp only [Nat.sub_zero]
    change List.flatMap _ (limited _ _) = _
    refine flatMap_congr_mem fun x hx => ?_
    obtain ⟨b, hb⟩ := hd x hx
    exact explode_reduce_write c hb
  · rw [← h2.2]; simp [limited]

/-- **C30** the command finishes, without panic, when the invalid lines are
skipped or absent and neither lists nor matcher panic. -/
theorem C30_finishes (c : ExplodeCmd) (files : List (String × Bytes)) (rs : List ByteRecord)
    (hi : Input files rs) (hc : c.skip = true ∨ AllValid files)
    (hp : ∀ r ∈ rs, ∀ x ∈ exploded c.level r, NoPanic c.sel x.record) :
    ∃ out n, c.run files = .ok (out, n) := by
  unfold ExplodeCmd.run
  rw [filesLoop_clean hi hc, body_run c rs _ (input_fromBytes hi), runSteps_sel_total,
    runSteps_limit c.limit (fun s r => s ++ (c.reduce r).write) _ [] 0 (by omega)]
  · exact ⟨_, _, rfl⟩
  · intro x hx
    obtain ⟨r, hr, hxr⟩ := List.mem_flatMap.1 hx
    exact test_total (hp r hr x hxr)

/-- two libraries; the first with two copies -/
def explodeSample : Record :=
  [⟨bs "003@", none, [⟨0x30, bs "1"⟩]⟩, ⟨bs "101@", none, [⟨0x61, bs "1"⟩]⟩,
   ⟨bs "203@", some (bs "01"), [⟨0x30, bs "2"⟩]⟩, ⟨bs "209A", some (bs "01"), [⟨0x61, bs "x"⟩]⟩,
   ⟨bs "203@", some (bs "02"), [⟨0x30, bs "3"⟩]⟩, ⟨bs "101@", none, [⟨0x61, bs "2"⟩]⟩,
   ⟨bs "203@", some (bs "01"), [⟨0x30, bs "4"⟩]⟩]

example : Record.fromBytes explodeSample.write = some explodeSample := by decide +kernel
example : (explodeRecord .local explodeSample).map (·.map (·.map Field.tag)) =
    some [[bs "003@", bs "101@", bs "203@", bs "209A", bs "203@"], [bs "003@", bs "101@", bs "203@"]] := by
  decide +kernel
example : (explodeRecord .copy explodeSample).map (·.map (·.map Field.tag)) =
    some [[bs "003@", bs "101@", bs "203@", bs "209A"], [bs "003@", bs "101@", bs "203@"],
      [bs "003@", bs "101@", bs "203@"]] := by
  decide +kernel
/-- a record without fields below the main level disappears -/
example : explodeRecord .local (explodeSample.take 1) = some [] := by decide +kernel

/-! ## the theorems on concrete records and files -/

example := C30_local explodeSample.write explodeSample (by decide +kernel)
example := C30_local_blocks explodeSample.write explodeSample (by decide +kernel)
example := C30_copy explodeSample.write explodeSample (by decide +kernel)
example := C30_copy_blocks explodeSample.write explodeSample (by decide +kernel)
example := C30_redecode explodeSample.write explodeSample (by decide +kernel) .copy

/-- `explode local` for the records with a field 209A -/
def explodeCmd : Option ExplodeCmd :=
  (setSample none (some [bs "9"])).bind (fun set => (fldM "209A/*?").map (fun m =>
    ⟨true, .local, 0, ⟨toyEnv, toyEnv, ⟨false⟩, set, some m⟩, [(.tag (bs "209A"), .any)], []⟩))

/-- a valid and an invalid line -/
def explodeFiles : List (String × Bytes) := [("a", explodeSample.write ++ bs "x\n")]

example := C30_output (explodeCmd.get (by decide +kernel)) explodeFiles _ (input_of _)
  (bs "209A/01 " ++ [0x1F] ++ bs "ax" ++ [0x1E, 0x0A]) 1 (by decide +kernel)
example := C30_finishes (explodeCmd.get (by decide +kernel)) explodeFiles _ (input_of _) (.inl (by decide +kernel))
  (fun r hr x hx => noPanic_of (rs := (inputOf explodeFiles).flatMap (exploded (explodeCmd.get (by decide +kernel)).level)) (by decide +kernel) x
    (List.mem_flatMap.2 ⟨r, hr, hx⟩))

end Pica.Props
