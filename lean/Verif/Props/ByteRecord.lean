import Verif.Lemmas.Reader
import Verif.Props.Codec

/-! C10, C11: byte records with their cached bytes. -/

namespace Pica.Props
open Pica Pica.Spec

/-- A field is selected by a predicate list: one of the predicates matches both
its tag and its occurrence. -/
def Selected (ps : List FieldPred) (f : Field) : Prop :=
  ∃ p ∈ ps, p.1.isMatch f.tag = true ∧ p.2.isMatch f.occ = true

theorem keepPred_iff (ps f) : ByteRecord.keepPred ps f = true ↔ Selected ps f := by
  unfold Selected
  induction ps with
  | nil => simp [ByteRecord.keepPred]
  | cons p ps ih =>
    obtain ⟨t, o⟩ := p
    simp only [ByteRecord.keepPred]
    split
    · rename_i h; simp at h; simp [h]
    · rename_i h
      rw [ih]
      simp at h
      simp only [List.mem_cons, exists_eq_or_imp]
      constructor
      · exact fun h => .inr h
      · rintro (⟨h1, h2⟩ | h)
        · exact absurd h2 (by simp [h h1])
        · exact h

theorem discardPred_iff (ps f) : ByteRecord.discardPred ps f = true ↔ ¬ Selected ps f := by
  rw [← keepPred_iff]
  induction ps with
  | nil => simp [ByteRecord.discardPred, ByteRecord.keepPred]
  | cons p ps ih =>
    obtain ⟨t, o⟩ := p
    simp only [ByteRecord.keepPred, ByteRecord.discardPred]
    split <;> simp_all

open Classical in
/-- **C10** `keep` leaves exactly the selected fields, in order. -/
theorem C10_keep (ps : List FieldPred) (h : ps ≠ []) (b : ByteRecord) :
    (b.keep ps).record = b.record.filter (fun f => decide (Selected ps f)) := by
  have : ps.isEmpty = false := by cases ps <;> simp_all
  simp only [ByteRecord.keep, this, ByteRecord.retain, Bool.false_eq_true, if_false]
  exact List.filter_congr (fun f _ => by
    rw [Bool.eq_iff_iff, keepPred_iff]; simp)

open Classical in
/-- **C10** `discard` leaves exactly the other fields, in order. -/
theorem C10_discard (ps : List FieldPred) (b : ByteRecord) :
    (b.discard ps).record = b.record.filter (fun f => decide (¬ Selected ps f)) := by
  cases ps with
  | nil =>
    simp only [ByteRecord.discard, Selected, List.isEmpty_nil, if_true]
    exact (List.filter_eq_self.2 (by simp)).symm
  | cons p ps =>
    simp only [ByteRecord.discard, List.isEmpty_cons, ByteRecord.retain, Bool.false_eq_true, if_false]
    exact List.filter_congr (fun f _ => by
      rw [Bool.eq_iff_iff, discardPred_iff]; simp)

/-- **C10** an empty list of predicates changes nothing. -/
theorem C10_empty_preds (b : ByteRecord) : b.keep [] = b ∧ b.discard [] = b := ⟨rfl, rfl⟩

/-- **C10** the two results are a partition of the fields: every field, with its
multiplicity, is in exactly one of them. -/
theorem C10_partition (ps : List FieldPred) (h : ps ≠ []) (b : ByteRecord) :
    ((b.keep ps).record ++ (b.discard ps).record).Perm b.record ∧
    (∀ f ∈ (b.keep ps).record, f ∉ (b.discard ps).record) ∧
    (b.keep ps).record.Sublist b.record ∧ (b.discard ps).record.Sublist b.record := by
  classical
  rw [C10_keep ps h, C10_discard]
  refine ⟨?_, ?_, List.filter_sublist, List.filter_sublist⟩
  · have := List.filter_append_perm (fun f => decide (Selected ps f)) b.record
    simpa using this
  · intro f hf hf'
    simp at hf hf'
    exact hf'.2 hf.2

/-- **C10** both are idempotent. -/
theorem C10_idempotent (ps : List FieldPred) (b : ByteRecord) :
    (b.keep ps).keep ps = b.keep ps ∧ (b.discard ps).discard ps = b.discard ps := by
  constructor
  · unfold ByteRecord.keep; split <;> simp [ByteRecord.retain]
  · unfold ByteRecord.discard; split <;> simp [ByteRecord.retain]

/-- **C10** they commute. -/
theorem C10_commute (ps qs : List FieldPred) (b : ByteRecord) :
    (b.keep ps).discard qs = (b.discard qs).keep ps ∧
    (b.keep ps).keep qs = (b.keep qs).keep ps ∧
    (b.discard ps).discard qs = (b.discard qs).discard ps := by
  unfold ByteRecord.keep ByteRecord.discard
  refine ⟨?_, ?_, ?_⟩ <;>
  · split <;> split <;> simp [ByteRecord.retain, List.filter_filter, Bool.and_comm]

/-- The byte records obtainable through the public interface, except by mutation
through `DerefMut`. -/
inductive Reach : ByteRecord → Prop
  | fromBytes {b x} : ByteRecord.fromBytes b = some x → Reach x
  | ofRecord {r} : IsRecord r → Reach (.ofRecord r)
  | retain {x} (p) : Reach x → Reach (x.retain p)
  | keep {x} (ps) : Reach x → Reach (x.keep ps)
  | discard {x} (ps) : Reach x → Reach (x.discard ps)

theorem isRecord_filter {r : Record} (h : IsRecord r) (p) : IsRecord (r.filter p) :=
  fun f hf => h f (List.mem_filter.1 hf).1

theorem reach_inv {x : ByteRecord} (h : Reach x) :
    IsRecord x.record ∧ ∀ b, x.raw = some b → b = x.record.write ∧ x.record ≠ [] := by
  have hret : ∀ {x : ByteRecord} p, IsRecord x.record →
      IsRecord (x.retain p).record ∧ ∀ b, (x.retain p).raw = some b →
        b = (x.retain p).record.write ∧ (x.retain p).record ≠ [] :=
    fun p h => ⟨isRecord_filter h p, by simp [ByteRecord.retain]⟩
  induction h with
  | @fromBytes b x hx =>
    obtain ⟨h1, h2⟩ := ByteRecord.fromBytes_eq_some.1 hx
    obtain ⟨hne, hR, he⟩ := Record.fromBytes_eq_some.1 h1
    refine ⟨hR, fun b' hb' => ⟨?_, hne⟩⟩
    rw [h2] at hb'
    simp at hb'
    rw [← hb', Record.write_of_ne hne, he]
  | ofRecord h => exact ⟨h, by simp [ByteRecord.ofRecord]⟩
  | retain p _ ih => exact hret p ih.1
  | keep ps _ ih =>
    unfold ByteRecord.keep; split
    · exact ih
    · exact hret _ ih.1
  | discard ps _ ih =>
    unfold ByteRecord.discard; split
    · exact ih
    · exact hret _ ih.1

/-- **C10** after any history the written bytes are the encoding of the fields. -/
theorem C10_written_bytes (x : ByteRecord) (h : Reach x) : x.write = x.record.write := by
  unfold ByteRecord.write
  split
  · rename_i d hd
    exact ((reach_inv h).2 d hd).1
  · rfl

/-- **C10** and a non-empty remainder decodes to exactly the remaining fields. -/
theorem C10_written_decodes (x : ByteRecord) (h : Reach x) (hne : x.record ≠ []) :
    Record.fromBytes x.write = some x.record := by
  rw [C10_written_bytes x h]
  exact Record.fromBytes_write (reach_inv h).1 hne

/-- a predicate list selecting the fields with tag `003@` -/
def pred003 : List FieldPred := [(.tag (bs "003@"), .none)]

example : ∃ x, ByteRecord.fromBytes sampleBytes = some x ∧ Reach (x.keep pred003) ∧
    (x.keep pred003).record.length = 1 ∧ (x.discard pred003).record.length = 1 ∧
    (x.keep pred003).write ≠ sampleBytes ∧ (x.keep pred003).write ≠ [] :=
  ⟨⟨some sampleBytes, sample⟩, by decide +kernel, .keep _ (.fromBytes (b := sampleBytes) (by decide +kernel)),
    by decide +kernel⟩

/-- **C11** two reachable byte records compare equal iff their fields are equal. -/
theorem C11_eq_iff (x y : ByteRecord) (hx : Reach x) (hy : Reach y) :
    ByteRecord.eq x y = true ↔ x.record = y.record := by
  unfold ByteRecord.eq
  split
  · rename_i a b ha hb
    obtain ⟨ha, hne⟩ := (reach_inv hx).2 a ha
    obtain ⟨hb, hne'⟩ := (reach_inv hy).2 b hb
    rw [beq_iff_eq, ha, hb]
    constructor
    · intro h
      have h1 := Record.fromBytes_write (reach_inv hx).1 hne
      have h2 := Record.fromBytes_write (reach_inv hy).1 hne'
      rw [h, h2] at h1
      simpa using h1.symm
    · intro h; rw [h]
  · rw [beq_iff_eq]

/-- **C11** equal records feed the same bytes to the hasher and to SHA-256. -/
theorem C11_hash_sha (x y : ByteRecord) (hx : Reach x) (hy : Reach y)
    (h : ByteRecord.eq x y = true) :
    x.hashInput = y.hashInput ∧ x.shaInput = y.shaInput := by
  have e := (C11_eq_iff x y hx hy).1 h
  have w : x.write = y.write := by rw [C10_written_bytes x hx, C10_written_bytes y hy, e]
  have hh : ∀ z : ByteRecord, z.hashInput = z.write := by
    intro z; unfold ByteRecord.hashInput ByteRecord.write; split <;> simp_all
  exact ⟨by rw [hh, hh, w], w⟩

/-- **C11** converse for non-empty records: the bytes determine the record, so
checksums can only collide when SHA-256 does. -/
theorem C11_sha_injective (x y : ByteRecord) (hx : Reach x) (hy : Reach y)
    (h : x.shaInput = y.shaInput) : ByteRecord.eq x y = true := by
  rw [C11_eq_iff x y hx hy]
  have w : x.record.write = y.record.write := by
    rw [← C10_written_bytes x hx, ← C10_written_bytes y hy]; exact h
  by_cases h1 : x.record = []
  · by_cases h2 : y.record = []
    · rw [h1, h2]
    · rw [h1, Record.write_of_ne h2] at w
      simp [Record.write] at w
  · by_cases h2 : y.record = []
    · rw [h2, Record.write_of_ne h1] at w
      simp [Record.write] at w
    · have a := Record.fromBytes_write (reach_inv hx).1 h1
      rw [w, Record.fromBytes_write (reach_inv hy).1 h2] at a
      simpa using a.symm

/-- **C11** the comparison is an equivalence relation on reachable records. -/
theorem C11_equivalence (x y z : ByteRecord) (hx : Reach x) (hy : Reach y) (hz : Reach z) :
    ByteRecord.eq x x = true ∧
    (ByteRecord.eq x y = true → ByteRecord.eq y x = true) ∧
    (ByteRecord.eq x y = true → ByteRecord.eq y z = true → ByteRecord.eq x z = true) := by
  refine ⟨?_, ?_, ?_⟩
  · rw [C11_eq_iff x x hx hx]
  · rw [C11_eq_iff x y hx hy, C11_eq_iff y x hy hx]; exact Eq.symm
  · rw [C11_eq_iff x y hx hy, C11_eq_iff y z hy hz, C11_eq_iff x z hx hz]; exact Eq.trans

/-- **C11** outside of the stated histories: mutation through `DerefMut` leaves
the cached bytes, so that the comparison is not transitive and the written bytes
are not those of the fields. -/
theorem C11_deref_mut_false : ∃ x y z : ByteRecord, Reach x ∧ Reach z ∧
    y = x.derefMut (fun r => r.take 1) ∧ z = .ofRecord (x.record.take 1) ∧
    ByteRecord.eq x y = true ∧ ByteRecord.eq y z = true ∧ ByteRecord.eq x z = false ∧
    y.write ≠ y.record.write := by
  refine ⟨⟨some sampleBytes, sample⟩, _, _, .fromBytes (b := sampleBytes) (by decide +kernel),
    .ofRecord ?_, rfl, rfl, by decide +kernel⟩
  have h : Record.fromBytes sampleBytes = some sample := by decide +kernel
  exact fun f hf => (Record.fromBytes_eq_some.1 h).2.1 f (List.mem_of_mem_take hf)

example : ∃ x y : ByteRecord, Reach x ∧ Reach y ∧ x.raw ≠ y.raw ∧ ByteRecord.eq x y = true :=
  ⟨⟨some sampleBytes, sample⟩, (ByteRecord.retain (fun _ => true) ⟨some sampleBytes, sample⟩),
    .fromBytes (b := sampleBytes) (by decide +kernel),
    .retain _ (.fromBytes (b := sampleBytes) (by decide +kernel)), by decide +kernel⟩

end Pica.Props
