import Verif.Model.Parts
import Verif.Props.Predicates
import Verif.Props.Codec
import Verif.Lemmas.TParser
import Verif.Lemmas.SubText

/-! # C85: printed parts -/

namespace Pica.Props
open Pica Spec

/-- a text of ASCII characters is printed as it is -/
def PrintsAscii (lossy : Bytes → Bytes) : Prop := ∀ b : Bytes, (∀ x ∈ b, x < 0x80) → lossy b = b

theorem isTag_ascii {t : Bytes} (h : IsTag t) : ∀ x ∈ t, x < 0x80 := by
  obtain ⟨a, b, c, d, rfl, ha, hb, hc, hd⟩ := h
  intro x hx
  simp only [List.mem_cons, List.not_mem_nil, or_false] at hx
  rcases hx with rfl | rfl | rfl | rfl
  · rcases ha with rfl | rfl | rfl <;> decide
  · exact UInt8.lt_of_le_of_lt hb.2 (by decide)
  · exact UInt8.lt_of_le_of_lt hc.2 (by decide)
  · rcases hd with hd | rfl
    · exact UInt8.lt_of_le_of_lt hd.2 (by decide)
    · decide

theorem isOcc_ascii {o : Bytes} (h : IsOcc o) : ∀ x ∈ o, x < 0x80 :=
  fun x hx => UInt8.lt_of_le_of_lt (h.2 x hx).2 (by decide)

theorem bs_slash_eq : bs "/" = [0x2F] := by decide +kernel

/-- **C85** a printed tag is read back as itself, and it is the only text that compares equal. -/
theorem C85_tag (lossy : Bytes → Bytes) (hl : PrintsAscii lossy) (t : Bytes) (h : IsTag t) :
    Tag.fromBytes (Tag.display lossy t) = some t ∧
      ∀ s, Tag.eqStr t s = true ↔ s = Tag.display lossy t := by
  unfold Tag.display Tag.eqStr
  rw [hl t (isTag_ascii h)]
  exact ⟨Tag.fromBytes_eq_some.2 ⟨h, rfl⟩, fun s => by rw [beq_iff_eq]; exact eq_comm⟩

/-- **C85** a printed owned occurrence is read back as itself. -/
theorem C85_occurrence_partial (lossy : Bytes → Bytes) (hl : PrintsAscii lossy) (o : OOcc)
    (h : IsOcc o.bytes) :
    OOcc.new (o.display lossy) = some o ∧
      ∀ s, Occurrence.eqBytes o.bytes s = true ↔ s = o.display lossy := by
  unfold OOcc.display OOcc.new Occurrence.eqBytes
  rw [hl _ (isOcc_ascii h), Occurrence.fromBytes_eq_some.2 ⟨h, rfl⟩]
  exact ⟨rfl, fun s => by rw [beq_iff_eq]; exact eq_comm⟩

/-- **C85** what does not hold: a printed borrowed occurrence has a slash, so that it is read by
neither constructor and does not compare equal to the occurrence; printing the same occurrence
before and after `From` gives two texts. -/
theorem C85_occurrence_false (lossy : Bytes → Bytes) (hl : PrintsAscii lossy) (o : Bytes) (h : IsOcc o) :
    Occurrence.fromBytes (Occurrence.display lossy o) = none ∧
      OOcc.new (Occurrence.display lossy o) = none ∧
      Occurrence.eqBytes o (Occurrence.display lossy o) = false ∧
      (OOcc.from o).display lossy ≠ Occurrence.display lossy o := by
  have hd : Occurrence.display lossy o = 0x2F :: o := by
    unfold Occurrence.display; rw [hl o (isOcc_ascii h), bs_slash_eq]; rfl
  have h1 : Occurrence.fromBytes (0x2F :: o) = none := by
    cases hb : Occurrence.fromBytes (0x2F :: o) with
    | none => rfl
    | some x =>
      obtain ⟨hx, hx'⟩ := Occurrence.fromBytes_eq_some.1 hb
      have := hx.2 0x2F (by rw [← hx']; simp)
      exact absurd this.1 (by decide)
  have h3 : o ≠ 0x2F :: o := fun he => by
    have := congrArg List.length he
    simp at this
  rw [hd]
  refine ⟨h1, ?_, ?_, ?_⟩
  · unfold OOcc.new; rw [h1]; rfl
  · unfold Occurrence.eqBytes; rw [beq_eq_false_iff_ne]; exact h3
  · unfold OOcc.display OOcc.from
    rw [hl o (isOcc_ascii h)]; exact h3

example : IsOcc (bs "01") ∧ IsTag (bs "012A") ∧ PrintsAscii id :=
  ⟨⟨.inl (by decide +kernel), by decide +kernel⟩,
    (Tag.fromBytes_eq_some (b := bs "012A") (t := bs "012A")).1 (by decide +kernel) |>.1, fun _ _ => rfl⟩

/-- **C85** the printed tag of a field followed by its printed occurrence, as in the lines of `print`,
is a field predicate; it addresses exactly the fields with this tag and this occurrence, where the
occurrence `00` is not told apart from none. -/
theorem C85_predicate (lossy trim : Bytes → Bytes) (hl : PrintsAscii lossy) (f : Field) (hf : IsField f)
    (ht : trim (f.tag ++ (match f.occ with | some o => Occurrence.display lossy o | none => [])) =
      f.tag ++ (match f.occ with | some o => Occurrence.display lossy o | none => [])) :
    ∃ p, parsePredicates trim
        (Tag.display lossy f.tag ++ (match f.occ with | some o => Occurrence.display lossy o | none => [])) =
          some [p] ∧
      ∀ g, IsField g → (ByteRecord.keepPred [p] g = true ↔
        g.tag = f.tag ∧ (g.occ = f.occ ∨
          ((f.occ = none ∨ f.occ = some (bs "00")) ∧ (g.occ = none ∨ g.occ = some (bs "00"))))) := by
  obtain ⟨htag, hocc, -⟩ := hf
  obtain ⟨m, hm, hm'⟩ := C12_literal f.tag htag
  have h00 : bs "00" = [0x30, 0x30] := by decide +kernel
  have hd : Tag.display lossy f.tag = f.tag := hl _ (isTag_ascii htag)
  rw [hd, h00]
  generalize htx : f.tag ++ (match f.occ with | some o => Occurrence.display lossy o | none => []) = text
    at ht ⊢
  obtain ⟨w, hw, hw'⟩ : ∃ w, OccMatcher.new
      (match f.occ with | some o => Occurrence.display lossy o | none => []) = some w ∧
      ∀ x, w.isMatch x = true ↔ (x = f.occ ∨
        ((f.occ = none ∨ f.occ = some [0x30, 0x30]) ∧ (x = none ∨ x = some [0x30, 0x30]))) := by
    cases ho : f.occ with
    | none =>
      refine ⟨.none, by dsimp only; decide, fun x => ?_⟩
      cases x <;> simp [OccMatcher.isMatch]
    | some o =>
      have hio := hocc o ho
      have hdo : Occurrence.display lossy o = 0x2F :: o := by
        unfold Occurrence.display; rw [hl o (isOcc_ascii hio), bs_slash_eq]; rfl
      obtain ⟨w, hw, -⟩ := C13_exact o (isOcc_iff.1 hio) none
      refine ⟨w, by dsimp only; rw [hdo]; exact hw, fun x => ?_⟩
      obtain ⟨w', hw1, hw2⟩ := C13_exact o (isOcc_iff.1 hio) x
      rw [hw] at hw1
      rw [Option.some.inj hw1, hw2]
      by_cases ho0 : o = [0x30, 0x30]
      · subst ho0; cases x <;> simp
      · simp [ho0]
  have hpt : PredText text (m, w) := ⟨f.tag, _, htx.symm, hm, hw⟩
  have hne : text ≠ [] := by
    obtain ⟨a, b, c, d, hh, -⟩ := htag
    rw [← htx, hh]; simp
  have hcomma : (0x2C : Byte) ∉ text := by
    rw [← htx]
    intro hc
    rcases List.mem_append.1 hc with hc | hc
    · obtain ⟨a, b, c, d, hh, ha, hb, hc', hd'⟩ := htag
      rw [hh] at hc
      simp only [List.mem_cons, List.not_mem_nil, or_false] at hc
      rcases hc with rfl | rfl | rfl | rfl
      · revert ha; decide
      · revert hb; decide
      · revert hc'; decide
      · revert hd'; decide
    · cases ho : f.occ with
      | none => rw [ho] at hc; simp at hc
      | some o =>
        rw [ho] at hc
        have hio := hocc o ho
        have hdo : Occurrence.display lossy o = 0x2F :: o := by
          unfold Occurrence.display; rw [hl o (isOcc_ascii hio), bs_slash_eq]; rfl
        dsimp only at hc
        rw [hdo] at hc
        rcases List.mem_cons.1 hc with hc | hc
        · revert hc; decide
        · have := (hio.2 _ hc).1
          revert this; decide
  refine ⟨(m, w), ?_, fun g hg => ?_⟩
  · rw [C53_accepts trim text [text] ⟨by simp, by rw [joinText_single], by simpa using hcomma⟩]
    simp only [List.map_cons, List.map_nil, ht]
    have : ([text] : List Bytes).filter (fun s => !s.isEmpty) = [text] := by
      simp [hne]
    rw [this]
    exact .cons hpt .nil
  · have hk : ByteRecord.keepPred [(m, w)] g = (m.isMatch g.tag && w.isMatch g.occ) := by
      simp [ByteRecord.keepPred]
    rw [hk, Bool.and_eq_true, hm' g.tag hg.1, hw' g.occ]

/-- the text of the hypotheses: nothing to trim -/
example : trimAscii (bs "012A" ++ Occurrence.display id (bs "01")) =
      bs "012A" ++ Occurrence.display id (bs "01") ∧
    IsField ⟨bs "012A", some (bs "01"), []⟩ := by
  refine ⟨by decide +kernel, (Tag.fromBytes_eq_some (b := bs "012A")).1 (by decide +kernel) |>.1, ?_, by simp⟩
  rintro o ⟨⟩
  exact ⟨.inl (by decide +kernel), by decide +kernel⟩

/-- **C85** exactly the printed texts of the operators are read as operators, each as itself. -/
theorem C85_relation (text : Bytes) (op : RelOp) :
    Parser.parseAll pRelOp text = some op ↔ text = op.display := by
  constructor
  · intro h
    obtain ⟨t, he, ht⟩ := pRelOp_reads _ _ _ (Parser.parseAll_eq_some.1 h)
    rw [he, List.append_nil, ht]
    cases op <;> rfl
  · rintro rfl
    cases op <;> decide +kernel

/-- **C85** exactly the printed texts of the quantifiers are read as quantifiers, each as itself. -/
theorem C85_quantifier (text : Bytes) (q : Quantifier) :
    Parser.parseAll pQuantifier text = some q ↔ text = q.display := by
  constructor
  · intro h
    have h := Parser.parseAll_eq_some.1 h
    unfold pQuantifier at h
    rcases Parser.alt_eq_some.1 h with h | ⟨-, h⟩
    · obtain ⟨rfl, u, h1⟩ := Parser.value_eq_some.1 h
      rw [Parser.lit_eq_some.1 h1, List.append_nil]; rfl
    · obtain ⟨rfl, u, h1⟩ := Parser.value_eq_some.1 h
      rw [Parser.lit_eq_some.1 h1, List.append_nil]; rfl
  · rintro rfl
    cases q <;> decide +kernel

end Pica.Props
