import Verif.Props.Print
import Verif.Props.Convert

/-! C51: what the text of `print` tells about the records -/

namespace Pica.Props
open Pica Spec

/-- nothing in the value, followed by a space, looks like the beginning of a printed subfield -/
def ClearValue (v : Bytes) : Prop := ¬ ∃ y c z, IsCode c ∧ v ++ [0x20] = y ++ [0x20, 0x24, c, 0x20] ++ z

/-- all values are clear -/
def ClearRecord (r : Record) : Prop := ∀ f ∈ r, ∀ s ∈ f.subfields, ClearValue s.value

/-- what follows a value: the end of the line or a subfield -/
def ShownFollow (r : Bytes) : Prop :=
  (∃ t, r = LF :: t) ∨ ∃ c t, IsCode c ∧ r = [0x20, 0x24, c, 0x20] ++ t

theorem code_ne {c : Byte} (h : IsCode c) : c ≠ 0x20 ∧ c ≠ LF ∧ c ≠ 0x24 := by
  unfold IsCode at h
  refine ⟨?_, ?_, ?_⟩ <;> rintro rfl <;> revert h <;> decide

theorem shown_value {v a r : Bytes} (hv : ClearValue (v ++ a)) (hl : LF ∉ v ++ a) (hr : ShownFollow r)
    (hr' : ShownFollow (a ++ r)) : a = [] := by
  rcases hr' with ⟨t, h⟩ | ⟨c, t, hc, h⟩
  · cases a with
    | nil => rfl
    | cons b a =>
      simp only [List.cons_append, List.cons.injEq] at h
      rw [h.1] at hl
      simp at hl
  · have hc' := code_ne hc
    have hf : ∀ b t', r = b :: t' → b = LF ∨ b = 0x20 := by
      intro b t' hb
      rcases hr with ⟨t, h⟩ | ⟨c, t, _, h⟩
      · rw [hb] at h; simp only [List.cons.injEq] at h; exact .inl h.1
      · rw [hb] at h; simp only [List.cons_append, List.cons.injEq] at h; exact .inr h.1
    rcases a with _ | ⟨a1, _ | ⟨a2, _ | ⟨a3, _ | ⟨a4, a⟩⟩⟩⟩
    · rfl
    · simp only [List.cons_append, List.nil_append, List.cons.injEq] at h
      rcases hf _ _ h.2 with h1 | h1
      · exact absurd h1 (by decide)
      · exact absurd h1 (by decide)
    · simp only [List.cons_append, List.nil_append, List.cons.injEq] at h
      rcases hf _ _ h.2.2 with h1 | h1
      · exact absurd h1 hc'.2.1
      · exact absurd h1 hc'.1
    · simp only [List.cons_append, List.nil_append, List.cons.injEq] at h
      exfalso
      refine hv ⟨v, c, [], hc, ?_⟩
      rw [h.1, h.2.1, h.2.2.1]
      simp
    · simp only [List.cons_append, List.nil_append, List.cons.injEq] at h
      exfalso
      refine hv ⟨v, c, a ++ [0x20], hc, ?_⟩
      rw [h.1, h.2.1, h.2.2.1, h.2.2.2.1]
      simp

theorem shownSub_selfDelim :
    SelfDelim (fun s : Subfield => IsSubfield s ∧ LF ∉ s.value ∧ ClearValue s.value) ShownFollow
      (fun s => [0x20, 0x24, s.code, 0x20] ++ s.value) := by
  rintro ⟨c, v⟩ ⟨c', v'⟩ r r' ⟨_, h1, h2⟩ ⟨_, h1', h2'⟩ hr hr' h
  simp only [List.cons_append, List.nil_append, List.cons.injEq, true_and] at h
  obtain ⟨rfl, h⟩ := h
  have : v = v' := by
    rcases List.append_eq_append_iff.1 h with ⟨a, rfl, rfl⟩ | ⟨a, rfl, rfl⟩
    · rw [shown_value h2' h1' hr' hr, List.append_nil]
    · rw [shown_value h2 h1 hr hr', List.append_nil]
  subst this
  exact ⟨rfl, List.append_cancel_left h⟩

theorem fieldLine_eq (f : Field) : fieldLine id f = f.tag ++ writeOcc f.occ ++
    f.subfields.flatMap (fun s => [0x20, 0x24, s.code, 0x20] ++ s.value) ++ [0x0A] := by
  obtain ⟨t, o, ss⟩ := f
  cases o <;> rfl

theorem shownField_selfDelim :
    SelfDelim (fun f : Field => IsField f ∧ (∀ s ∈ f.subfields, LF ∉ s.value) ∧ ∀ s ∈ f.subfields, ClearValue s.value)
      (fun _ => True) (fieldLine id) := by
  rintro ⟨t, o, ss⟩ ⟨t', o', ss'⟩ r r' ⟨⟨ht, ho, hs⟩, h1, h2⟩ ⟨⟨ht', ho', hs'⟩, h1', h2'⟩ _ _ h
  rw [fieldLine_eq, fieldLine_eq] at h
  dsimp only at h ht ho hs h1 h2 ht' ho' hs' h1' h2'
  simp only [List.append_assoc] at h
  have hlen : t.length = t'.length := by
    obtain ⟨_, _, _, _, e, _⟩ := ht
    obtain ⟨_, _, _, _, e', _⟩ := ht'
    rw [e, e']; rfl
  obtain ⟨ht3, h5⟩ := List.append_inj h hlen
  clear h
  subst ht3
  -- the occurrence ends at a space or at the end of the line
  have key : ∀ (o : Option Bytes) (x : Byte), (∀ y, o = some y → IsOcc y) → x ∈ writeOcc o → x ≠ 0x20 ∧ x ≠ LF := by
    intro o x ho hx
    cases o with
    | none => simp [writeOcc] at hx
    | some y =>
      rcases List.mem_cons.1 hx with rfl | hx
      · decide
      · have := (ho y rfl).2 x hx
        constructor <;> rintro rfl <;> revert this <;> decide
  have hstart : ∀ (ss : List Subfield) (r : Bytes), ∃ b u, (b = 0x20 ∨ b = LF) ∧
      ss.flatMap (fun s => [0x20, 0x24, s.code, 0x20] ++ s.value) ++ ([0x0A] ++ r) = b :: u := by
    intro ss r
    cases ss with
    | nil => exact ⟨_, _, .inr rfl, rfl⟩
    | cons s ss => exact ⟨_, _, .inl rfl, rfl⟩
  obtain ⟨b, u, hb, e⟩ := hstart ss r
  obtain ⟨b', u', hb', e'⟩ := hstart ss' r'
  have hoo : writeOcc o = writeOcc o' := by
    rw [e, e'] at h5
    rcases List.append_eq_append_iff.1 h5 with ⟨a, h3, h4⟩ | ⟨a, h3, h4⟩
    · cases a with
      | nil => rw [h3, List.append_nil]
      | cons x a =>
        simp only [List.cons_append, List.cons.injEq] at h4
        have := key o' x ho' (by rw [h3]; simp)
        rw [← h4.1] at this
        rcases hb with rfl | rfl
        · exact absurd rfl this.1
        · exact absurd rfl this.2
    · cases a with
      | nil => rw [h3, List.append_nil]
      | cons x a =>
        simp only [List.cons_append, List.cons.injEq] at h4
        have := key o x ho (by rw [h3]; simp)
        rw [← h4.1] at this
        rcases hb' with rfl | rfl
        · exact absurd rfl this.1
        · exact absurd rfl this.2
  rw [hoo] at h5
  have h := List.append_cancel_left h5
  have ho2 : o = o' := by
    cases o <;> cases o' <;> simp [writeOcc] at hoo <;> simp [hoo]
  subst ho2
  have hcode : ∀ s ∈ ss, IsSubfield s := hs
  obtain ⟨rfl, h⟩ := flatMap_selfDelim (S := fun b => b = 0x20) shownSub_selfDelim
    (fun s _ => ⟨_, _, rfl, rfl⟩) (fun s r hs => .inr ⟨s.code, s.value ++ r, hs.1.1, by simp⟩) ss ss'
    ([0x0A] ++ r) ([0x0A] ++ r')
    (fun s hm => ⟨hs s hm, h1 s hm, h2 s hm⟩) (fun s hm => ⟨hs' s hm, h1' s hm, h2' s hm⟩)
    ⟨.inl ⟨r, rfl⟩, by rintro b t h rfl; simp only [List.cons_append, List.cons.injEq] at h; exact absurd h.1 (by decide)⟩
    ⟨.inl ⟨r', rfl⟩, by rintro b t h rfl; simp only [List.cons_append, List.cons.injEq] at h; exact absurd h.1 (by decide)⟩ h
  exact ⟨rfl, by simpa using h⟩

theorem shownRecord_selfDelim :
    SelfDelim (fun r : Record => IsRecord r ∧ NoNewline r ∧ ClearRecord r) (fun _ => True) (recordBlock id) := by
  intro a a' r r' ha ha' _ _ h
  unfold recordBlock at h
  simp only [List.append_assoc] at h
  obtain ⟨rfl, h⟩ := flatMap_selfDelim (S := fun b => b ≠ LF) shownField_selfDelim
    (fun f hf => by
      obtain ⟨⟨⟨a, b, c, d, e, h1, _⟩, _⟩, _⟩ := hf
      refine ⟨a, _, by unfold fieldLine; rw [e]; rfl, ?_⟩
      rintro rfl
      revert h1
      decide)
    (fun _ _ _ => trivial) a a' ([0x0A] ++ r) ([0x0A] ++ r')
    (fun f hf => ⟨ha.1 f hf, ha.2.1 f hf, ha.2.2 f hf⟩) (fun f hf => ⟨ha'.1 f hf, ha'.2.1 f hf, ha'.2.2 f hf⟩)
    ⟨trivial, by rintro b t h hb; simp only [List.cons_append, List.cons.injEq] at h; exact hb h.1.symm⟩
    ⟨trivial, by rintro b t h hb; simp only [List.cons_append, List.cons.injEq] at h; exact hb h.1.symm⟩ h
  exact ⟨rfl, by simpa using h⟩

/-- **C51** without transliteration, the text determines the printed records, if no value followed by a
space contains something that looks like the beginning of a subfield.  Missing: other values, see
below. -/
theorem C51_determines_partial (c c' : PrintCmd) (ht : c.translit = id) (ht' : c'.translit = id)
    (files files' : List (String × Bytes)) (rs rs' : List ByteRecord) (hi : Input files rs) (hi' : Input files' rs')
    (st st' : PrintState) (h : c.run files = .ok st) (h' : c'.run files' = .ok st')
    (hc : ∀ r ∈ limited c.limit (picked c.sel rs), ClearRecord r.record)
    (hc' : ∀ r ∈ limited c'.limit (picked c'.sel rs'), ClearRecord r.record) (ho : st.out = st'.out) :
    (limited c.limit (picked c.sel rs)).map (·.record) = (limited c'.limit (picked c'.sel rs')).map (·.record) := by
  rw [(C51_output c files rs hi st h).1, (C51_output c' files' rs' hi' st' h').1, ht, ht'] at ho
  have sub : ∀ {n : Nat} {s : Selection} {l : List ByteRecord} {r : ByteRecord}, r ∈ limited n (picked s l) → r ∈ l := by
    intro n s l r hr
    exact (List.mem_filter.1 (mem_limited hr)).1
  refine (flatMap_selfDelim (S := fun _ => True) shownRecord_selfDelim ?_ (fun _ _ _ => trivial) _ _ [] []
    ?_ ?_ ⟨trivial, by simp⟩ ⟨trivial, by simp⟩ (by simpa [List.flatMap_map] using ho)).1
  · intro a _
    cases hb : recordBlock id a with
    | nil => simp [recordBlock] at hb
    | cons b t => exact ⟨b, t, rfl, trivial⟩
  · intro r hr
    obtain ⟨x, hx, rfl⟩ := List.mem_map.1 hr
    have := (input_record hi x.record (List.mem_map.2 ⟨x, sub hx, rfl⟩)).2
    exact ⟨this.1, this.2, hc x hx⟩
  · intro r hr
    obtain ⟨x, hx, rfl⟩ := List.mem_map.1 hr
    have := (input_record hi' x.record (List.mem_map.2 ⟨x, sub hx, rfl⟩)).2
    exact ⟨this.1, this.2, hc' x hx⟩

/-- **C51 is false** for every record that has a field with two subfields: printing them as one subfield
gives the same text. -/
theorem C51_merged_false (r₁ r₂ : Record) (t : Bytes) (o : Option Bytes) (ss₁ ss₂ : List Subfield) (a b : Subfield) :
    recordBlock id (r₁ ++ ⟨t, o, ss₁ ++ a :: b :: ss₂⟩ :: r₂) =
      recordBlock id (r₁ ++ ⟨t, o, ss₁ ++ ⟨a.code, a.value ++ [0x20, 0x24, b.code, 0x20] ++ b.value⟩ :: ss₂⟩ :: r₂) := by
  simp [recordBlock, fieldLine, List.flatMap_append, List.flatMap_cons]

/-- a value that is clear, and one that is not -/
theorem clear_of {v : Bytes} (h : 0x24 ∉ v) : ClearValue v := by
  rintro ⟨y, c, z, _, e⟩
  have : (0x24 : Byte) ∈ v ++ [0x20] := by rw [e]; simp
  rcases List.mem_append.1 this with h' | h'
  · exact h h'
  · revert h'; decide

example : ¬ ClearValue (bs "x $b y") :=
  fun h => h ⟨bs "x", 0x62, bs "y ", by unfold IsCode; decide, by decide +kernel⟩

/-- whatever files give this text, the records are these -/
example (files : List (String × Bytes)) (rs : List ByteRecord) (hi : Input files rs) (st : PrintState)
    (h : printSample.run files = .ok st) (hc : ∀ r ∈ limited printSample.limit (picked printSample.sel rs),
      ClearRecord r.record) (hout : st.out = bs "003@ $0 1" ++ [LF, LF]) :
    (limited printSample.limit (picked printSample.sel rs)).map (·.record) = [(recOf "1").record] := by
  have hp : limited printSample.limit (picked printSample.sel [recOf "1"]) = [recOf "1"] := by
    have := picked_of (sel := printSample.sel) (rs := [recOf "1"]) (by decide +kernel)
    have h1 : picked printSample.sel [recOf "1"] = [recOf "1"] := by
      classical
      unfold picked
      exact List.filter_eq_self.2 (fun r hr => decide_eq_true (this r hr))
    rw [h1]
    rfl
  rw [C51_determines_partial printSample printSample rfl rfl files [("a", recLine "1")] rs [recOf "1"] hi
    (input_is (by decide +kernel)) st ⟨bs "003@ $0 1" ++ [LF, LF], 1⟩ h (by decide +kernel) hc
    (by rw [hp]; intro r hr f hf s hs
        simp only [recOf, List.mem_singleton] at hr
        subst hr
        simp only [List.mem_singleton] at hf
        subst hf
        simp only [List.mem_singleton] at hs
        subst hs
        exact clear_of (by decide +kernel)) hout, hp]
  rfl

example := C51_merged_false [] [] (bs "012A") none [] [] ⟨0x61, bs "x"⟩ ⟨0x62, bs "y"⟩

end Pica.Props
