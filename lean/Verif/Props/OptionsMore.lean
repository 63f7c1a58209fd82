import Verif.Props.Options
import Verif.Props.SliceExact

/-! C81: `slice --length` and `partition --limit` from the command line. -/

namespace Pica.Props
open Pica Pica.Spec

open Classical in
/-- the records of the lines with a property, each with the number of invalid lines before it; `e`
invalid lines come before the first line -/
noncomputable def numberedBy (P : Record → Prop) : Nat → List Bytes → List (ByteRecord × Nat)
  | _, [] => []
  | e, l :: ls =>
    match ByteRecord.fromBytes l with
    | none => numberedBy P (e + 1) ls
    | some r => if P r.record then (r, e) :: numberedBy P e ls else numberedBy P e ls

theorem numberedBy_eq {sel : Selection} {P : Record → Prop} (h : ∀ r, Picked sel r ↔ P r) :
    ∀ (ls : List Bytes) (e : Nat), numbered sel e ls = numberedBy P e ls := by
  classical
  intro ls
  induction ls with
  | nil => intro e; rfl
  | cons l ls ih =>
    intro e
    rw [numbered, numberedBy]
    cases ByteRecord.fromBytes l with
    | none => exact ih _
    | some r =>
      dsimp only
      by_cases hp : Picked sel r.record
      · rw [if_pos hp, if_pos ((h _).1 hp), ih]
      · rw [if_neg hp, if_neg (mt (h _).2 hp), ih]

/-- **C81** (`slice`) with `--length`: if no invalid line is skipped, the requested records from
`--start` on, as many as `--length` says; else each invalid line before a requested record moves the
end of the range by one. -/
theorem C81_slice_length (W : World) (cfg : Config) (s : Levels) (a : SliceArgs) (ha : a.opts.Accepted)
    (hc : Compiles W a.opts) (c : SliceCmd) (h : a.prepare W cfg s = some c) (he : a.end = 0) (hl : 0 < a.length)
    (hw : a.start + a.length < 2 ^ 64) :
    (c.skip = true ↔ a.opts.skipInvalid = true ∨ cfg.skipInvalid = true) ∧
    (∀ files rs st, Input files rs → c.run files = .ok st → c.skip = false ∨ AllValid files →
      st.out = (limited a.opts.limit
        (((requested W cfg a.opts rs).drop a.start).take a.length)).flatMap ByteRecord.write) ∧
    (∀ files lines st, AllLines files lines → c.run files = .ok st → c.skip = true →
      st.out = (limited a.opts.limit ((((numberedBy (Requested W cfg a.opts) 0 lines).zipIdx.drop a.start).takeWhile
        (fun x => decide (x.2 < min (a.start + a.length + x.1.2) (2 ^ 64 - 1)))).map (fun x => x.1.1))).flatMap
          ByteRecord.write) := by
  obtain ⟨sel, s', h1, rfl⟩ := select_of_map h
  refine ⟨skip_iff _ _, fun files rs st hi hrun hv => ?_, fun files lines st hls hrun hk => ?_⟩
  · rw [← picked_requested ha hc h1]
    have := (C34_length_partial _ he hl hw files hv rs hi st hrun).1
    rw [this, sliced, range_from]
    dsimp only
    rw [Nat.sub_zero, Nat.sub_zero, List.take_drop, Nat.add_comm]
  · have := C34_length_exact _ hk he hl hw files lines hls st hrun
    dsimp only at this
    rw [this, numberedBy_eq (C81_selection W cfg s s' a.opts ha hc sel h1)]

/-- `PathWrites W t ci path rs ps`: `ps` are all pairs of a record and one of its values at the path, in
the order of the records and, for one record, of the values as byte strings, each pair once -/
inductive PathWrites (W : World) (t : W.Num) (ci : Bool) (path : Bytes) :
    List ByteRecord → List (ByteRecord × Bytes) → Prop
  | nil : PathWrites W t ci path [] []
  | cons {r : ByteRecord} {rs : List ByteRecord} {all vs : List Bytes} {ps : List (ByteRecord × Bytes)} :
      PathValues W t ci path r.record all → vs.Nodup → (∀ v, v ∈ vs ↔ v ∈ all) →
      vs.Pairwise (fun a b => bleq a b = true) → PathWrites W t ci path rs ps →
      PathWrites W t ci path (r :: rs) (vs.map (fun v => (r, v)) ++ ps)

/-- **C81** (`partition`) with a limit: it bounds the writes, in the order of the requested records
and of their values. -/
theorem C81_partition_limit (W : World) (cfg : Config) (s : Levels) (a : PartitionArgs) (ha : a.opts.Accepted)
    (hc : Compiles W a.opts) (c : PartitionCmd) (h : a.prepare W cfg s = some c) (hlim : a.opts.limit ≠ 0)
    (files : List (String × Bytes)) (rs : List ByteRecord) (st : PartitionState) (hi : Input files rs)
    (hrun : c.run files = .ok st) :
    ∃ rs' ps, rs' <+: requested W cfg a.opts rs ∧
      PathWrites W (W.percent a.opts.strsimThreshold) a.opts.ignoreCase a.path rs' ps ∧
      (rs' = requested W cfg a.opts rs ∨ a.opts.limit ≤ ps.length) ∧
      (st.writers.map Prod.fst).Nodup ∧
      ∀ v b, (v, b) ∈ st.writers ↔ v ∈ (ps.take a.opts.limit).map Prod.snd ∧
        b = ((ps.take a.opts.limit).filter (fun p => p.2 == v)).flatMap (fun p => p.1.write) := by
  unfold PartitionArgs.prepare at h
  split at h
  · simp at h
  · rename_i path s1 hp
    obtain ⟨sel, s', h1, rfl⟩ := select_of_map h
    have hEo : sel.E = scored W (W.percent a.opts.strsimThreshold) ∧ sel.o = ⟨a.opts.ignoreCase⟩ := by
      unfold FilterOpts.select FilterOpts.selection at h1
      split at h1
      · simp at h1
      · split at h1
        · simp at h1
        · split at h1
          · simp at h1
          · simp only [Prod.mk.injEq, Option.some.injEq] at h1
            rw [← h1.1]
            exact ⟨rfl, rfl⟩
    obtain ⟨hE, ho⟩ := hEo
    obtain ⟨rs', ps, h2, h3, h4, h5, h6⟩ := C33_limit _ hlim files rs hi st hrun
    dsimp only at h2 h4 h6
    rw [picked_requested ha hc h1] at h2 h4
    refine ⟨rs', ps, h2, ?_, h4, h5, h6⟩
    clear h2 h4 h5 h6
    induction h3 with
    | nil => exact .nil
    | cons hd _ ih =>
      obtain ⟨all, e, e1, e2, e3⟩ := hd
      simp only [hE, ho, path_values hp hc.2] at e
      exact .cons e e1 e2 e3 ih

/-! ## cases -/

/-- `slice --start 1 --length 1` with a filter: without an invalid line, and with one -/
example : (toyOpts 70 false none (some "003@.0 =* 'abcd'")).Accepted ∧
  (SliceArgs.prepare toyWorld ⟨true, none⟩ Levels.zero ⟨1, 0, 1, toyOpts 70 false none (some "003@.0 =* 'abcd'")⟩).map
    (fun c => (c.run [("a", recLine "abcd" ++ recLine "x" ++ recLine "abce" ++ recLine "abcf")],
      c.run [("a", recLine "abcd" ++ bs "x\n" ++ recLine "abce" ++ recLine "abcf")])) =
  some (.ok ⟨2, 2, 1, recLine "abce"⟩, .ok ⟨3, 3, 2, recLine "abce" ++ recLine "abcf"⟩) :=
  ⟨⟨by decide, by decide, by decide⟩, by decide +kernel⟩
/-- `partition --limit 2` with a filter -/
example : (PartitionArgs.prepare toyWorld ⟨false, none⟩ Levels.zero
    ⟨false, none, bs "003@.0", { toyOpts 70 false none (some "003@.0 =* 'abcd'") with limit := 2 }⟩).map
    (fun c => c.run [("a", recLine "abcd" ++ recLine "x" ++ recLine "abce" ++ recLine "abcf")]) =
  some (.ok ⟨[(bs "abcd", recLine "abcd"), (bs "abce", recLine "abce")], 2⟩) := by decide +kernel

end Pica.Props
