import Verif.Props.Split

/-! # C31: what `split` writes in general -/

namespace Pica.Props
open Pica Spec

/-- the list is cut into pieces at the positions for which `p` holds, and only there; a piece is empty only if the
list is -/
structure Pieces (p : Nat → Prop) (l : List ByteRecord) (pieces : List (List ByteRecord)) : Prop where
  whole : pieces.flatten = l
  some : pieces ≠ []
  empty : [] ∈ pieces → pieces = [[]]
  border : ∀ a b, pieces = a ++ b → a ≠ [] → b ≠ [] → p a.flatten.length
  inner : ∀ a x b, pieces = a ++ x :: b → ∀ k, 0 < k → k < x.length → ¬ p (a.flatten.length + k)

theorem nil_or_snoc {α : Type} (b : List α) : b = [] ∨ ∃ b' y, b = b' ++ [y] := by
  rcases List.eq_nil_or_concat b with h | ⟨b', y, h⟩
  · exact .inl h
  · exact .inr ⟨b', y, by rw [h, List.concat_eq_append]⟩

theorem Pieces.new {p : Nat → Prop} {l : List ByteRecord} {done : List (List ByteRecord)} {last : List ByteRecord}
    (h : Pieces p l (done ++ [last])) (hl : l ≠ []) (hp : p l.length) (r : ByteRecord) :
    Pieces p (l ++ [r]) (done ++ [last] ++ [[r]]) := by
  refine ⟨by rw [List.flatten_append, h.whole]; simp, by simp, ?_, ?_, ?_⟩
  · intro hm
    rcases List.mem_append.1 hm with hm | hm
    · have := h.empty hm
      have hw := h.whole
      rw [this] at hw
      exact absurd hw.symm (by simpa using hl)
    · simp at hm
  · intro a b hab ha hb
    rcases nil_or_snoc b with rfl | ⟨b', y, rfl⟩
    · exact absurd rfl hb
    · rw [← List.append_assoc] at hab
      have := List.append_inj' hab rfl
      cases b' with
      | nil =>
        rw [List.append_nil] at this
        rw [← this.1, h.whole]
        exact hp
      | cons z zs => exact h.border a (z :: zs) this.1 ha (by simp)
  · intro a x b hab k hk hx
    rcases nil_or_snoc b with rfl | ⟨b', y, rfl⟩
    · have := List.append_inj' hab rfl
      simp only [List.cons.injEq, and_true] at this
      rw [← this.2] at hx
      simp at hx
      omega
    · have e : a ++ x :: (b' ++ [y]) = (a ++ x :: b') ++ [y] := by simp
      rw [e] at hab
      exact h.inner a x b' (List.append_inj' hab rfl).1 k hk hx

theorem Pieces.grow {p : Nat → Prop} {l : List ByteRecord} {done : List (List ByteRecord)} {last : List ByteRecord}
    (h : Pieces p l (done ++ [last])) (hp : l ≠ [] → ¬ p l.length) (r : ByteRecord) :
    Pieces p (l ++ [r]) (done ++ [last ++ [r]]) := by
  have hw := h.whole
  refine ⟨by rw [← hw]; simp, by simp, ?_, ?_, ?_⟩
  · intro hm
    have hd : [] ∈ done := by simpa using hm
    have := h.empty (by simp [hd])
    have : done.length + 1 = 1 := by rw [show done.length + 1 = (done ++ [last]).length by simp, this]; rfl
    have : done = [] := List.length_eq_zero_iff.1 (by omega)
    rw [this] at hd
    simp at hd
  · intro a b hab ha hb
    rcases nil_or_snoc b with rfl | ⟨b', y, rfl⟩
    · exact absurd rfl hb
    · rw [← List.append_assoc] at hab
      have := List.append_inj' hab rfl
      exact h.border a (b' ++ [last]) (by rw [this.1]; simp) ha (by simp)
  · intro a x b hab k hk hx
    rcases nil_or_snoc b with rfl | ⟨b', y, rfl⟩
    · have hi := List.append_inj' hab rfl
      simp only [List.cons.injEq, and_true] at hi
      obtain ⟨rfl, rfl⟩ := hi
      rw [List.length_append, List.length_singleton] at hx
      rcases Nat.lt_or_ge k last.length with hlt | hge
      · exact h.inner done last [] rfl k hk hlt
      · have hk' : k = last.length := by omega
        subst hk'
        have hlen : l.length = done.flatten.length + last.length := by rw [← hw]; simp
        rw [← hlen]
        exact hp (by intro he; rw [he] at hlen; simp at hlen; omega)
    · have e : a ++ x :: (b' ++ [y]) = (a ++ x :: b') ++ [y] := by simp
      rw [e] at hab
      exact h.inner a x (b' ++ [last]) (by rw [(List.append_inj' hab rfl).1]; simp) k hk hx

/-- state of the loop after some records -/
structure SplitInv' (c : SplitCmd) (l : List ByteRecord) (done : List (List ByteRecord))
    (last : List ByteRecord) (s : SplitState) : Prop where
  pieces : Pieces (fun k => k % 2 ^ 32 % c.chunkSize = 0) l (done ++ [last])
  const : ¬ HasBraces c.template → s.store = [(c.template, last.flatMap ByteRecord.write)]
  store : HasBraces c.template → done.length < 2 ^ 32 → s.store = chunkFiles c (done ++ [last])
  chunks : s.chunks = done.length % 2 ^ 32
  count : s.count = l.length

theorem splitInv'_step {c : SplitCmd} {l done last s} (h : SplitInv' c l done last s) (r : ByteRecord) :
    ∃ done' last', SplitInv' c (l ++ [r]) done' last' (c.step s r) := by
  by_cases hb : l.length > 0 ∧ l.length % 2 ^ 32 % c.chunkSize = 0
  · have hcond : (decide (s.count > 0) && s.count % 2 ^ 32 % c.chunkSize == 0) = true := by
      rw [h.count]; simpa using hb
    have hchunk : (s.chunks + 1) % 2 ^ 32 = (done ++ [last]).length % 2 ^ 32 := by
      rw [h.chunks]; simp
    refine ⟨done ++ [last], [r], h.pieces.new (by intro he; simp [he] at hb) hb.2 r, ?_, ?_, ?_, ?_⟩
    · intro ht
      have hname : ∀ n, c.name n = c.template := fun n => replaceBraces_const ht _
      simp only [SplitCmd.step, hcond, if_true, h.const ht, hname]
      simp [Store.create, Store.append]
    · intro ht hd
      have hm : (done ++ [last]).length % 2 ^ 32 = (done ++ [last]).length := Nat.mod_eq_of_lt hd
      rw [hm] at hchunk
      simp only [List.length_append, List.length_singleton] at hd hchunk
      simp only [SplitCmd.step, hcond, if_true, hchunk, h.store ht (by omega)]
      have hnames := chunkFiles_names ht (c := c) (done := done ++ [last]) (n := done.length + 1) (by simp)
      rw [Store.create_new hnames, Store.append_last hnames, chunkFiles_concat c (done ++ [last]) [r]]
      simp
    · simp only [SplitCmd.step, hcond, if_true, hchunk]
    · simp only [SplitCmd.step]; split <;> simp [h.count]
  · have hcond : (decide (s.count > 0) && s.count % 2 ^ 32 % c.chunkSize == 0) = false := by
      rw [← Bool.not_eq_true, h.count]
      simpa using hb
    refine ⟨done, last ++ [r], h.pieces.grow (fun hl hp => hb ⟨List.length_pos_iff.2 hl, hp⟩) r, ?_, ?_, ?_, ?_⟩
    · intro ht
      have hname : ∀ n, c.name n = c.template := fun n => replaceBraces_const ht _
      simp only [SplitCmd.step, hcond, Bool.false_eq_true, if_false, h.const ht, hname]
      simp [Store.append]
    · intro ht hd
      simp only [SplitCmd.step, hcond, Bool.false_eq_true, if_false, h.store ht hd, h.chunks,
        Nat.mod_eq_of_lt hd]
      rw [chunkFiles_concat, chunkFiles_concat]
      rw [Store.append_last (chunkFiles_names ht (Nat.le_refl _))]
      simp
    · simp only [SplitCmd.step, hcond]; exact h.chunks
    · simp only [SplitCmd.step, hcond]; simp [h.count]

theorem splitInv'_foldl {c : SplitCmd} :
    ∀ (rs l : List ByteRecord) (done last s), SplitInv' c l done last s →
    ∃ done' last', SplitInv' c (l ++ rs) done' last' (rs.foldl c.step s) := by
  intro rs
  induction rs with
  | nil => intro l done last s h; exact ⟨done, last, by simpa using h⟩
  | cons r rs ih =>
    intro l done last s h
    obtain ⟨d, la, h'⟩ := splitInv'_step h r
    obtain ⟨d', la', h''⟩ := ih (l ++ [r]) d la _ h'
    exact ⟨d', la', by simpa using h''⟩

/-- **C31** (in general, for every chunk size, template and number of records) the selected records are cut where
their number, cut to 32 bits, is a multiple of the chunk size.  With a place for the number in the template, each
piece is in the file with its number, up to 2³² pieces; without, the only file holds the last piece. -/
theorem C31_exact (c : SplitCmd) (files : List (String × Bytes)) (rs : List ByteRecord) (hi : Input files rs)
    (s : SplitState) (h : c.run files = .ok s) :
    ∃ pieces, Pieces (fun k => k % 2 ^ 32 % c.chunkSize = 0) (limited c.limit (picked c.sel rs)) pieces ∧
      (¬ HasBraces c.template → s.store = [(c.template, (pieces.getLastD []).flatMap ByteRecord.write)]) ∧
      (HasBraces c.template → pieces.length ≤ 2 ^ 32 → s.store = chunkFiles c pieces) := by
  have := selLimitC_ok (cnt := SplitState.count) (g := c.step)
    (by intro s r; simp only [SplitCmd.step]; split <;> rfl) hi rfl h
  rw [chosen_eq_picked] at this
  have hinit : SplitInv' c [] [] [] ⟨Store.create [] (c.name 0), 0, 0⟩ := by
    refine ⟨⟨rfl, by simp, by simp, ?_, ?_⟩, ?_, ?_, rfl, rfl⟩
    · intro a b hab ha hb
      have : 1 = a.length + b.length := by rw [← List.length_append, ← hab]; rfl
      have h1 := List.length_pos_iff.2 ha
      have h2 := List.length_pos_iff.2 hb
      omega
    · intro a x b hab k hk hx
      have hx' : x ∈ a ++ x :: b := by simp
      rw [← hab] at hx'
      simp at hx'
      rw [hx'] at hx
      simp at hx
    · intro ht
      have hname : c.name 0 = c.template := replaceBraces_const ht _
      simp [Store.create, hname]
    · intro _ _
      simp [Store.create, chunkFiles]
  obtain ⟨d, la, hinv⟩ := splitInv'_foldl (limited c.limit (picked c.sel rs)) [] [] [] _ hinit
  rw [List.nil_append, ← this] at hinv
  refine ⟨d ++ [la], hinv.pieces, ?_, ?_⟩
  · intro ht
    rw [hinv.const ht]
    simp
  · intro ht hd
    exact hinv.store ht (by simp at hd; omega)

/-- the options of this case have no place for the number; only the last record is left -/
example : ¬ HasBraces (splitSample "x").template ∧
    (splitSample "x").run [("a", recLine "1" ++ recLine "2" ++ recLine "3")] =
      .ok ⟨[(bs "x", recLine "3")], 1, 3⟩ := by
  refine ⟨?_, by decide +kernel⟩
  rintro ⟨a, b, h⟩
  have : (splitSample "x").template = [0x78] := by decide +kernel
  rw [this] at h
  have := congrArg List.length h
  simp at this
  omega

end Pica.Props
