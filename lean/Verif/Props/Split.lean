import Verif.Model.Split
import Verif.Lemmas.Files
import Verif.Props.Filter

/-! # C31: split -/

namespace Pica.Props
open Pica Spec

/-- the files holding the given chunks of records: chunk `i` is in the file with
the number `i` -/
def chunkFiles (c : SplitCmd) (chunks : List (List ByteRecord)) : Store :=
  chunks.zipIdx.map (fun x => (c.name x.2, x.1.flatMap ByteRecord.write))

/-- the chunks of a list: all but the last have the size `n`, the last is not
larger, and only a single chunk may be empty -/
structure Chunks (n : Nat) (l : List ByteRecord) (chunks : List (List ByteRecord)) : Prop where
  whole : chunks.flatten = l
  some : chunks ≠ []
  full : ∀ c ∈ chunks.dropLast, c.length = n
  last : ∀ c ∈ chunks.getLast?, c.length ≤ n
  empty : ∀ c ∈ chunks.getLast?, c = [] → chunks = [[]]

theorem chunkFiles_concat (c : SplitCmd) (done : List (List ByteRecord)) (last : List ByteRecord) :
    chunkFiles c (done ++ [last]) =
      chunkFiles c done ++ [(c.name done.length, last.flatMap ByteRecord.write)] := by
  simp [chunkFiles, List.zipIdx_append]

theorem name_ne {c : SplitCmd} (ht : HasBraces c.template) {i j : Nat} (h : i ≠ j) :
    c.name i ≠ c.name j :=
  fun he => h (decimal_injective (replaceBraces_injective ht he))

theorem chunkFiles_names {c : SplitCmd} (ht : HasBraces c.template) {done : List (List ByteRecord)} {n : Nat}
    (hn : done.length ≤ n) : ∀ f ∈ chunkFiles c done, f.1 ≠ c.name n := by
  intro f hf
  obtain ⟨⟨x, i⟩, hm, rfl⟩ := List.mem_map.1 hf
  have := (List.mem_zipIdx hm).2.1
  exact name_ne ht (by simp at this ⊢; omega)

/-- state of the loop after some records -/
structure SplitInv (c : SplitCmd) (l : List ByteRecord) (done : List (List ByteRecord))
    (last : List ByteRecord) (s : SplitState) : Prop where
  whole : done.flatten ++ last = l
  full : ∀ x ∈ done, x.length = c.chunkSize
  le : last.length ≤ c.chunkSize
  empty : last = [] → done = []
  store : s.store = chunkFiles c (done ++ [last])
  chunks : s.chunks = done.length
  count : s.count = l.length

theorem flatten_length_of {n : Nat} {done : List (List ByteRecord)} (h : ∀ x ∈ done, x.length = n) :
    done.flatten.length = done.length * n := by
  induction done with
  | nil => simp
  | cons d ds ih =>
    rw [List.flatten_cons, List.length_append, h d (by simp), ih (fun x hx => h x (by simp [hx])),
      List.length_cons, Nat.add_mul]
    omega

theorem splitInv_step {c : SplitCmd} (hn : 0 < c.chunkSize) (ht : HasBraces c.template) {l done last s}
    (h : SplitInv c l done last s) (r : ByteRecord) (hl : l.length < 2 ^ 32) :
    ∃ done' last', SplitInv c (l ++ [r]) done' last' (c.step s r) := by
  have hcount : l.length = done.length * c.chunkSize + last.length := by
    rw [← h.whole, List.length_append, flatten_length_of h.full]
  have hdone : done.length < 2 ^ 32 := by
    have : done.length * 1 ≤ done.length * c.chunkSize := Nat.mul_le_mul_left _ hn
    omega
  have hmod : l.length % 2 ^ 32 = l.length := Nat.mod_eq_of_lt hl
  by_cases hb : l.length > 0 ∧ l.length % c.chunkSize = 0
  · -- a new chunk
    have hlast : last.length = c.chunkSize := by
      have h1 : last.length % c.chunkSize = 0 := by
        have := hb.2
        rw [hcount, Nat.add_comm, Nat.add_mul_mod_self_right] at this
        exact this
      rcases Nat.lt_or_ge last.length c.chunkSize with h2 | h2
      · rw [Nat.mod_eq_of_lt h2] at h1
        have hd := h.empty (List.length_eq_zero_iff.1 h1)
        rw [hd, h1] at hcount
        have h3 := hb.1
        rw [hcount] at h3
        simp at h3
      · exact Nat.le_antisymm h.le h2
    have hd1 : done.length + 1 < 2 ^ 32 + 1 := by omega
    have hchunk : (s.chunks + 1) % 2 ^ 32 = done.length + 1 := by
      rw [h.chunks]
      apply Nat.mod_eq_of_lt
      have h1 : (done.length + 1) * 1 ≤ (done.length + 1) * c.chunkSize := Nat.mul_le_mul_left _ hn
      rw [Nat.add_mul done.length 1 c.chunkSize, Nat.one_mul] at h1
      omega
    refine ⟨done ++ [last], [r], ⟨by rw [← h.whole]; simp, ?_, Nat.succ_le_of_lt hn, by simp, ?_, ?_, ?_⟩⟩
    · intro x hx
      rcases List.mem_append.1 hx with hx | hx
      · exact h.full x hx
      · simp at hx; rw [hx]; exact hlast
    · have hcond : (decide (s.count > 0) && s.count % 2 ^ 32 % c.chunkSize == 0) = true := by
        rw [h.count, hmod]; simpa using hb
      simp only [SplitCmd.step, hcond, if_true, hchunk, h.store]
      have hnames := chunkFiles_names ht (c := c) (done := done ++ [last]) (n := done.length + 1) (by simp)
      rw [Store.create_new hnames, Store.append_last hnames, chunkFiles_concat c (done ++ [last]) [r]]
      simp
    · have hcond : (decide (s.count > 0) && s.count % 2 ^ 32 % c.chunkSize == 0) = true := by
        rw [h.count, hmod]; simpa using hb
      simp only [SplitCmd.step, hcond, if_true, hchunk]
      simp
    · simp only [SplitCmd.step]; split <;> simp [h.count]
  · -- the same chunk
    have hlt : last.length < c.chunkSize := by
      apply Nat.lt_of_le_of_ne h.le
      intro he
      apply hb
      rw [hcount, he]
      exact ⟨by omega, by simp [Nat.add_mod]⟩
    have hcond : (decide (s.count > 0) && s.count % 2 ^ 32 % c.chunkSize == 0) = false := by
      rw [← Bool.not_eq_true, h.count, hmod]
      simpa using hb
    refine ⟨done, last ++ [r], ⟨by rw [← h.whole]; simp, h.full, by simp; omega, by simp, ?_, ?_, ?_⟩⟩
    · simp only [SplitCmd.step, hcond, Bool.false_eq_true, if_false, h.store, h.chunks]
      rw [chunkFiles_concat, chunkFiles_concat]
      rw [Store.append_last (chunkFiles_names ht (Nat.le_refl _))]
      simp
    · simp only [SplitCmd.step, hcond]; exact h.chunks
    · simp only [SplitCmd.step, hcond]; simp [h.count]

theorem splitInv_foldl {c : SplitCmd} (hn : 0 < c.chunkSize) (ht : HasBraces c.template) :
    ∀ (rs l : List ByteRecord) (done last s), SplitInv c l done last s → l.length + rs.length ≤ 2 ^ 32 →
    ∃ done' last', SplitInv c (l ++ rs) done' last' (rs.foldl c.step s) := by
  intro rs
  induction rs with
  | nil => intro l done last s h _; exact ⟨done, last, by simpa using h⟩
  | cons r rs ih =>
    intro l done last s h hl
    rw [List.length_cons] at hl
    obtain ⟨d, la, h'⟩ := splitInv_step hn ht h r (by omega)
    obtain ⟨d', la', h''⟩ := ih (l ++ [r]) d la _ h' (by rw [List.length_append]; simp; omega)
    exact ⟨d', la', by simpa using h''⟩

theorem splitInv_init (c : SplitCmd) : SplitInv c [] [] [] ⟨Store.create [] (c.name 0), 0, 0⟩ :=
  ⟨rfl, by simp, by simp, by simp, by simp [Store.create, chunkFiles], rfl, rfl⟩

theorem splitInv_chunks {c : SplitCmd} {l done last s} (h : SplitInv c l done last s) :
    Chunks c.chunkSize l (done ++ [last]) :=
  ⟨by rw [← h.whole]; simp, by simp, by simpa using h.full, by simpa using h.le,
    by intro x hx he; simp at hx; subst hx; rw [h.empty he, he]; rfl⟩

/-- **C31** up to 2³² records, and with a template that has a place for the
number: file `i` holds chunk `i` of the selected records; all but the last chunk
have the chunk size.
Missing: more than 2³² records, templates without `{}` (see below). -/
theorem C31_chunks_partial (c : SplitCmd) (hn : 0 < c.chunkSize) (ht : HasBraces c.template)
    (files : List (String × Bytes)) (rs : List ByteRecord) (hi : Input files rs) (s : SplitState)
    (h : c.run files = .ok s) (hsize : (limited c.limit (picked c.sel rs)).length ≤ 2 ^ 32) :
    ∃ chunks, Chunks c.chunkSize (limited c.limit (picked c.sel rs)) chunks ∧
      s.store = chunkFiles c chunks := by
  have := selLimitC_ok (cnt := SplitState.count) (g := c.step)
    (by intro s r; simp only [SplitCmd.step]; split <;> rfl) hi rfl h
  rw [chosen_eq_picked] at this
  obtain ⟨d, la, hinv⟩ := splitInv_foldl hn ht (limited c.limit (picked c.sel rs)) [] [] [] _
    (splitInv_init c) (by simpa using hsize)
  rw [List.nil_append, ← this] at hinv
  exact ⟨_, splitInv_chunks hinv, hinv.store⟩

/-- **C31** the files, one after the other, hold the selected records. -/
theorem C31_concatenation_partial (c : SplitCmd) (hn : 0 < c.chunkSize) (ht : HasBraces c.template)
    (files : List (String × Bytes)) (rs : List ByteRecord) (hi : Input files rs) (s : SplitState)
    (h : c.run files = .ok s) (hsize : (limited c.limit (picked c.sel rs)).length ≤ 2 ^ 32) :
    (s.store.map Prod.snd).flatten = (limited c.limit (picked c.sel rs)).flatMap ByteRecord.write ∧
    s.store.map Prod.fst = (List.range s.store.length).map c.name := by
  obtain ⟨chunks, h1, h2⟩ := C31_chunks_partial c hn ht files rs hi s h hsize
  rw [h2, ← h1.whole]
  have key : ∀ (cs : List (List ByteRecord)) (n : Nat),
      (((cs.zipIdx n).map (fun x => (c.name x.2, x.1.flatMap ByteRecord.write))).map Prod.snd).flatten =
        cs.flatten.flatMap ByteRecord.write := by
    intro cs
    induction cs with
    | nil => intro n; rfl
    | cons x cs ih =>
      intro n
      rw [List.zipIdx_cons, List.map_cons, List.map_cons, List.flatten_cons, ih]
      simp
  refine ⟨key chunks 0, ?_⟩
  unfold chunkFiles
  rw [List.map_map, List.length_map, List.length_zipIdx]
  apply List.ext_getElem
  · simp
  · intro i h1 h2; simp

/-- **C31** the command finishes when the invalid lines are skipped or absent and
neither lists nor matcher panic. -/
theorem C31_finishes (c : SplitCmd) (files : List (String × Bytes)) (rs : List ByteRecord)
    (hi : Input files rs) (hc : c.skip = true ∨ AllValid files)
    (hp : ∀ r ∈ rs, NoPanic c.sel r.record) : ∃ s, c.run files = .ok s :=
  selLimitC_clean (cnt := SplitState.count) (g := c.step)
    (by intro s r; simp only [SplitCmd.step]; split <;> rfl) hi hc (fun r hr => test_total (hp r hr)) _ rfl

/-- **C31** is false for a template without `{}`: at most one file is left, and
the earlier chunks are lost. -/
theorem C31_template_false (c : SplitCmd) (ht : ¬ HasBraces c.template) (hn : c.chunkSize = 1)
    (files : List (String × Bytes)) (rs : List ByteRecord) (hi : Input files rs) (s : SplitState)
    (h : c.run files = .ok s) (a b : ByteRecord) (hsel : limited c.limit (picked c.sel rs) = [a, b]) :
    s.store = [(c.template, b.write)] := by
  have := selLimitC_ok (cnt := SplitState.count) (g := c.step)
    (by intro s r; simp only [SplitCmd.step]; split <;> rfl) hi rfl h
  rw [chosen_eq_picked, hsel] at this
  have hname : ∀ n, c.name n = c.template := fun n => replaceBraces_const ht _
  rw [this]
  simp [SplitCmd.step, hname, hn, Store.create, Store.append]

/-- **C31** is false beyond 2³² records, because the count is cut to 32 bits: with
chunk size 3, the file before the last one holds a single record. -/
theorem C31_wrap_false (c : SplitCmd) (hn : c.chunkSize = 3) (ht : HasBraces c.template)
    (files : List (String × Bytes)) (rs : List ByteRecord) (hi : Input files rs) (s : SplitState)
    (h : c.run files = .ok s) (hsize : (limited c.limit (picked c.sel rs)).length = 2 ^ 32 + 1) :
    ∃ done a b, s.store = chunkFiles c (done ++ [[a], [b]]) := by
  have hs := selLimitC_ok (cnt := SplitState.count) (g := c.step)
    (by intro s r; simp only [SplitCmd.step]; split <;> rfl) hi rfl h
  rw [chosen_eq_picked] at hs
  generalize limited c.limit (picked c.sel rs) = l at hs hsize
  obtain ⟨u, b, rfl⟩ : ∃ u b, l = u ++ [b] := by
    rcases List.eq_nil_or_concat l with rfl | ⟨u, b, rfl⟩
    · simp at hsize
    · exact ⟨u, b, by simp⟩
  have hu : u.length = 2 ^ 32 := by simp at hsize; omega
  obtain ⟨done, last, hinv⟩ := splitInv_foldl (by omega) ht u [] [] [] _ (splitInv_init c)
    (by simp [hu])
  rw [List.nil_append] at hinv
  rw [List.foldl_append] at hs
  generalize u.foldl c.step ⟨Store.create [] (c.name 0), 0, 0⟩ = s1 at hs hinv
  have hcount : u.length = done.length * c.chunkSize + last.length := by
    rw [← hinv.whole, List.length_append, flatten_length_of hinv.full]
  have hle := hinv.le
  rw [hn] at hcount hle
  have hlast : last.length = 1 := by
    rcases Nat.eq_zero_or_pos last.length with h0 | h0
    · have := hinv.empty (List.length_eq_zero_iff.1 h0)
      rw [this, h0, hu] at hcount
      simp at hcount
    · omega
  obtain ⟨a, rfl⟩ := List.length_eq_one_iff.1 hlast
  refine ⟨done, a, b, ?_⟩
  have hcond : (decide (s1.count > 0) && s1.count % 2 ^ 32 % c.chunkSize == 0) = true := by
    rw [hinv.count, hu]; simp
  have hchunk : (s1.chunks + 1) % 2 ^ 32 = done.length + 1 := by
    rw [hinv.chunks]; apply Nat.mod_eq_of_lt; omega
  rw [hs]
  simp only [List.foldl_cons, List.foldl_nil, SplitCmd.step, hcond, if_true, hchunk, hinv.store]
  have hnames := chunkFiles_names ht (c := c) (done := done ++ [[a]]) (n := done.length + 1) (by simp)
  have e : done ++ [[a], [b]] = (done ++ [[a]]) ++ [[b]] := by simp
  rw [Store.create_new hnames, Store.append_last hnames, e, chunkFiles_concat c (done ++ [[a]]) [b]]
  simp

/-- options without lists and matcher -/
def noSelection : Selection :=
  ⟨toyEnv, toyEnv, ⟨false⟩, ⟨none, none, Path.ppnPath⟩, none⟩

/-- a line with a record -/
def recLine (s : String) : Bytes := bs "003@ " ++ [0x1F] ++ bs "0" ++ bs s ++ [0x1E, 0x0A]

def splitSample (t : String) : SplitCmd := ⟨false, 2, bs t, 0, noSelection⟩

/-- the record of a line -/
def recOf (s : String) : ByteRecord := ⟨some (recLine s), [⟨bs "003@", none, [⟨0x30, bs s⟩]⟩]⟩

theorem recOf_line : LineRecord (recOf "1") :=
  ⟨(recLine "1").dropLast, by decide +kernel, by decide +kernel, by decide +kernel⟩

theorem recOf_picked : Picked noSelection (recOf "1").record := by
  rw [← picked_iff]; decide +kernel

theorem recOf_noPanic : NoPanic noSelection (recOf "1").record :=
  ⟨by decide +kernel, fun m hm => by simp [noSelection] at hm⟩

/-- such an input exists -/
theorem C31_wrap_witness : ∃ files s done a b,
    SplitCmd.run { splitSample "{}" with chunkSize := 3 } files = .ok s ∧
    s.store = chunkFiles { splitSample "{}" with chunkSize := 3 } (done ++ [[a], [b]]) := by
  generalize hN : 2 ^ 32 + 1 = N
  have hl : ∀ c ∈ [List.replicate N (recOf "1")], ∀ r ∈ c, LineRecord r := by
    intro c hc r hr
    simp only [List.mem_singleton] at hc
    subst hc
    rw [(List.mem_replicate.1 hr).2]; exact recOf_line
  have hi := input_of_records (fun _ => "a") [List.replicate N (recOf "1")] 0 hl
  have hv := allValid_of_records (fun _ => "a") [List.replicate N (recOf "1")] 0 hl
  generalize List.map (fun x : List ByteRecord × Nat => ("a", x.1.flatMap ByteRecord.write))
    ([List.replicate N (recOf "1")].zipIdx) = files at hi hv
  have hf : [List.replicate N (recOf "1")].flatten = List.replicate N (recOf "1") := by
    rw [List.flatten_cons, List.flatten_nil, List.append_nil]
  rw [hf] at hi
  obtain ⟨s, hs⟩ := C31_finishes { splitSample "{}" with chunkSize := 3 } files _ hi (.inr hv)
    (fun r hr => by rw [(List.mem_replicate.1 hr).2]; exact recOf_noPanic)
  have hp : picked noSelection (List.replicate N (recOf "1")) = List.replicate N (recOf "1") := by
    rw [picked, List.filter_eq_self]
    intro r hr
    rw [(List.mem_replicate.1 hr).2]; simpa using recOf_picked
  obtain ⟨done, a, b, h⟩ := C31_wrap_false { splitSample "{}" with chunkSize := 3 } rfl
    ⟨[], [], by decide +kernel⟩ files _ hi s hs (by
      have e : limited 0 (picked noSelection (List.replicate N (recOf "1"))) =
        List.replicate N (recOf "1") := by rw [hp]; rfl
      have e2 := congrArg List.length e
      rw [List.length_replicate] at e2
      exact e2.trans hN.symm)
  exact ⟨files, s, done, a, b, hs, h⟩

example : (splitSample "x{}").run [("a", recLine "1" ++ recLine "2" ++ recLine "3")] =
    .ok ⟨[(bs "x0", recLine "1" ++ recLine "2"), (bs "x1", recLine "3")], 1, 3⟩ := by decide +kernel
example : (splitSample "{}").run [("a", recLine "1"), ("b", recLine "2")] =
    .ok ⟨[(bs "0", recLine "1" ++ recLine "2")], 0, 2⟩ := by decide +kernel
example : (splitSample "{}").run [] = .ok ⟨[(bs "0", [])], 0, 0⟩ := by decide +kernel
/-- the data loss with a template without `{}` -/
example : ({ splitSample "x" with chunkSize := 1 }).run [("a", recLine "1" ++ recLine "2")] =
    .ok ⟨[(bs "x", recLine "2")], 1, 2⟩ := by decide +kernel

/-! ## the theorems on concrete files -/

/-- a template without `{}` -/
theorem noBraces : ¬ HasBraces (splitSample "x").template := by
  rintro ⟨a, b, h⟩
  have h1 := congrArg List.length h
  have h2 : (splitSample "x").template.length = 1 := by decide +kernel
  simp [h2] at h1
  omega

/-- three records -/
def splitFiles : List (String × Bytes) := [("a", recLine "1" ++ recLine "2" ++ recLine "3")]

example := C31_chunks_partial (splitSample "x{}") (by decide) ⟨bs "x", [], by decide +kernel⟩ splitFiles _ (input_of _)
  ⟨[(bs "x0", recLine "1" ++ recLine "2"), (bs "x1", recLine "3")], 1, 3⟩ (by decide +kernel)
  (by rw [← chosen_eq_picked]; decide +kernel)
example := C31_concatenation_partial (splitSample "x{}") (by decide) ⟨bs "x", [], by decide +kernel⟩ splitFiles _ (input_of _)
  ⟨[(bs "x0", recLine "1" ++ recLine "2"), (bs "x1", recLine "3")], 1, 3⟩ (by decide +kernel)
  (by rw [← chosen_eq_picked]; decide +kernel)
example := C31_finishes (splitSample "x{}") splitFiles _ (input_of _) (.inr (allValid_of (by decide +kernel)))
  (noPanic_of (by decide +kernel))
example := C31_template_false { splitSample "x" with chunkSize := 1 } noBraces rfl
  [("a", recLine "1" ++ recLine "2")] _ (input_of _) ⟨[(bs "x", recLine "2")], 1, 2⟩ (by decide +kernel)
  (recOf "1") (recOf "2") (by rw [← chosen_eq_picked]; decide +kernel)

end Pica.Props
