import Verif.Model.Trim
import Verif.Spec.Trim
import Verif.Lemmas.Lossy
import Verif.Lemmas.SubText

namespace Pica
open Spec

theorem ofNat_inj {a b : Nat} (ha : a < 256) (hb : b < 256) (h : UInt8.ofNat a = UInt8.ofNat b) : a = b := by
  have := congrArg UInt8.toNat h
  rwa [ofNat_toNat ha, ofNat_toNat hb] at this

theorem encodeChar_inj {c d : Char} (h : String.utf8EncodeChar c = String.utf8EncodeChar d) : c = d := by
  have hc : c.val.toNat < 0xD800 ∨ (0xDFFF < c.val.toNat ∧ c.val.toNat < 0x110000) := c.valid
  have hd : d.val.toNat < 0xD800 ∨ (0xDFFF < d.val.toNat ∧ d.val.toNat < 0x110000) := d.valid
  suffices hv : c.val.toNat = d.val.toNat from Char.ext (UInt32.toNat_inj.1 hv)
  unfold String.utf8EncodeChar at h
  generalize c.val.toNat = v at hc h
  generalize d.val.toNat = w at hd h
  simp only at h
  repeat' split at h
  all_goals first
    | (exfalso; have hl := congrArg List.length h; simp only [List.length_cons, List.length_nil] at hl; omega)
    | (simp only [List.cons.injEq, and_true] at h
       exact ofNat_inj (by omega) (by omega) h)
    | (simp only [List.cons.injEq, and_true] at h
       have h1 := ofNat_inj (by omega) (by omega) h.1
       have h2 := ofNat_inj (by omega) (by omega) h.2
       omega)
    | (simp only [List.cons.injEq, and_true] at h
       have h1 := ofNat_inj (by omega) (by omega) h.1
       have h2 := ofNat_inj (by omega) (by omega) h.2.1
       have h3 := ofNat_inj (by omega) (by omega) h.2.2
       omega)
    | (simp only [List.cons.injEq, and_true] at h
       have h1 := ofNat_inj (by omega) (by omega) h.1
       have h2 := ofNat_inj (by omega) (by omega) h.2.1
       have h3 := ofNat_inj (by omega) (by omega) h.2.2.1
       have h4 := ofNat_inj (by omega) (by omega) h.2.2.2
       omega)

/-- the code points -/
def whiteCodes : List Nat :=
  [9, 10, 11, 12, 13, 0x20, 0x85, 0xA0, 0x1680, 0x2000, 0x2001, 0x2002, 0x2003, 0x2004, 0x2005, 0x2006, 0x2007,
   0x2008, 0x2009, 0x200A, 0x2028, 0x2029, 0x202F, 0x205F, 0x3000]

theorem isWhite_codes (c : Char) : IsWhite c ↔ c.toNat ∈ whiteCodes := by
  unfold IsWhite whiteCodes
  simp only [List.mem_cons, List.not_mem_nil, or_false]
  omega

theorem whiteCodes_map : whiteSpaces = whiteCodes.map (fun n => String.utf8EncodeChar (Char.ofNat n)) := by
  decide

theorem white_iff (c : Char) : IsWhite c ↔ String.utf8EncodeChar c ∈ whiteSpaces := by
  rw [isWhite_codes, whiteCodes_map, List.mem_map]
  constructor
  · intro h
    exact ⟨c.toNat, h, by rw [Char.ofNat_toNat]⟩
  · rintro ⟨n, hn, he⟩
    have := encodeChar_inj he
    subst this
    have key : ∀ n ∈ whiteCodes, (Char.ofNat n).toNat = n := by decide
    rw [key n hn]
    exact hn

theorem whiteSpaces_char {w : Bytes} (h : w ∈ whiteSpaces) : ∃ c, IsWhite c ∧ String.utf8EncodeChar c = w := by
  have h' := h
  rw [whiteCodes_map, List.mem_map] at h
  obtain ⟨n, hn, rfl⟩ := h
  exact ⟨_, (white_iff _).2 h', rfl⟩

/-- encodings that begin the same text are equal -/
theorem enc_prefix {c d : Char} {x y : Bytes} (h : String.utf8EncodeChar c ++ x = String.utf8EncodeChar d ++ y) :
    c = d ∧ x = y := by
  obtain ⟨b, w, hb, -, -⟩ := encodeChar_shape c
  have h1 := utf8Step_shape (b0 := b) (r := w ++ x) (encShape_char c) (rest := x) (by rw [hb]; rfl)
  have h2 := utf8Step_shape (b0 := b) (r := w ++ x) (encShape_char d) (rest := y) (by rw [← h, hb]; rfl)
  rw [h1] at h2
  have hl : (String.utf8EncodeChar c).length = (String.utf8EncodeChar d).length := (Prod.mk.injEq _ _ _ _ ▸ h2).1
  obtain ⟨e1, e2⟩ := List.append_inj h hl
  exact ⟨encodeChar_inj e1, e2⟩

/-- encodings that end the same text are equal -/
theorem enc_suffix {c d : Char} {x y : Bytes} (h : x ++ String.utf8EncodeChar c = y ++ String.utf8EncodeChar d) :
    c = d ∧ x = y := by
  obtain ⟨b, w, hb, hb0, hbw⟩ := encodeChar_shape c
  obtain ⟨b', w', hb', hb0', hbw'⟩ := encodeChar_shape d
  have key : ∀ (b b' : Byte) (w w' x y : Bytes), isCont b = false → (∀ z ∈ w', isCont z = true) →
      x ++ (b :: w) = y ++ (b' :: w') → w'.length ≤ w.length := by
    intro b b' w w' x y h0 hw he
    apply Classical.byContradiction
    intro hn
    have hlen := congrArg List.length he
    simp only [List.length_append, List.length_cons] at hlen
    have hx : x.length = y.length + (w'.length - w.length) := by omega
    have e : (x ++ (b :: w))[x.length]? = some b := by simp
    rw [he, hx, List.getElem?_append_right (by omega)] at e
    have : y.length + (w'.length - w.length) - y.length = (w'.length - w.length - 1) + 1 := by omega
    rw [this, List.getElem?_cons_succ] at e
    have := hw b (List.mem_of_getElem? e)
    rw [h0] at this
    cases this
  rw [hb, hb'] at h
  have l1 := key b b' w w' x y hb0 hbw' h
  have l2 := key b' b w' w y x hb0' hbw h.symm
  obtain ⟨e1, e2⟩ := List.append_inj' h (by simp; omega)
  exact ⟨encodeChar_inj (by rw [hb, hb', e2]), e1⟩

theorem textBytes_cons (c : Char) (cs : List Char) : textBytes (c :: cs) = String.utf8EncodeChar c ++ textBytes cs := by
  simp [textBytes]

theorem textBytes_append (a b : List Char) : textBytes (a ++ b) = textBytes a ++ textBytes b := by
  simp [textBytes]

theorem enc_length_pos (c : Char) : 0 < (String.utf8EncodeChar c).length :=
  List.length_pos_iff.2 (encShape_ne (encShape_char c))

open Classical in
/-- white as a test -/
noncomputable def whiteTest (c : Char) : Bool := decide (IsWhite c)

theorem whiteTest_iff (c : Char) : whiteTest c = true ↔ IsWhite c := by simp [whiteTest]

theorem find_white (c : Char) (x : Bytes) :
    whiteSpaces.find? (fun w => w.isPrefixOf (String.utf8EncodeChar c ++ x)) =
      if whiteTest c then some (String.utf8EncodeChar c) else none := by
  split
  · rename_i h
    rw [whiteTest_iff] at h
    cases hf : whiteSpaces.find? (fun w => w.isPrefixOf (String.utf8EncodeChar c ++ x)) with
    | none =>
      have := List.find?_eq_none.1 hf _ ((white_iff c).1 h)
      simp at this
    | some w =>
      have hp := List.find?_some hf
      obtain ⟨d, -, rfl⟩ := whiteSpaces_char (List.mem_of_find?_eq_some hf)
      rw [List.isPrefixOf_iff_prefix] at hp
      obtain ⟨y, hy⟩ := hp
      rw [(enc_prefix hy).1]
  · rename_i h
    rw [List.find?_eq_none]
    intro w hw hp
    obtain ⟨d, hd, rfl⟩ := whiteSpaces_char hw
    rw [List.isPrefixOf_iff_prefix] at hp
    obtain ⟨y, hy⟩ := hp
    rw [(enc_prefix hy).1] at hd
    exact h ((whiteTest_iff c).2 hd)

theorem find_white_rev (c : Char) (x : Bytes) :
    (whiteSpaces.map List.reverse).find? (fun w => w.isPrefixOf ((String.utf8EncodeChar c).reverse ++ x)) =
      if whiteTest c then some (String.utf8EncodeChar c).reverse else none := by
  have suf : ∀ (d : Char) (y : Bytes), (String.utf8EncodeChar d).reverse ++ y = (String.utf8EncodeChar c).reverse ++ x →
      d = c := by
    intro d y hy
    have := congrArg List.reverse hy
    simp only [List.reverse_append, List.reverse_reverse] at this
    exact (enc_suffix this).1
  split
  · rename_i h
    rw [whiteTest_iff] at h
    cases hf : (whiteSpaces.map List.reverse).find? (fun w => w.isPrefixOf ((String.utf8EncodeChar c).reverse ++ x)) with
    | none =>
      have := List.find?_eq_none.1 hf _ (List.mem_map.2 ⟨_, (white_iff c).1 h, rfl⟩)
      simp at this
    | some w =>
      have hp := List.find?_some hf
      obtain ⟨w', hw', rfl⟩ := List.mem_map.1 (List.mem_of_find?_eq_some hf)
      obtain ⟨d, -, rfl⟩ := whiteSpaces_char hw'
      rw [List.isPrefixOf_iff_prefix] at hp
      obtain ⟨y, hy⟩ := hp
      rw [suf d y hy]
  · rename_i h
    rw [List.find?_eq_none]
    intro w hw hp
    obtain ⟨w', hw', rfl⟩ := List.mem_map.1 hw
    obtain ⟨d, hd, rfl⟩ := whiteSpaces_char hw'
    rw [List.isPrefixOf_iff_prefix] at hp
    obtain ⟨y, hy⟩ := hp
    rw [suf d y hy] at hd
    exact h ((whiteTest_iff c).2 hd)

theorem stripLoop_nil (ws : List Bytes) (n : Nat) (h : ∀ w ∈ ws, w ≠ []) : stripLoop ws n [] = [] := by
  cases n with
  | zero => rfl
  | succ n =>
    rw [stripLoop]
    have : ws.find? (fun w => w.isPrefixOf []) = none := by
      rw [List.find?_eq_none]
      intro w hw hp
      rw [List.isPrefixOf_iff_prefix, List.prefix_nil] at hp
      exact h w hw hp
    rw [this]

theorem whiteSpaces_ne : ∀ w ∈ whiteSpaces, w ≠ [] := by decide

theorem whiteSpaces_rev_ne : ∀ w ∈ whiteSpaces.map List.reverse, w ≠ [] := by decide

theorem strip_text (cs : List Char) : ∀ n, (textBytes cs).length ≤ n →
    stripLoop whiteSpaces n (textBytes cs) = textBytes (cs.dropWhile whiteTest) := by
  induction cs with
  | nil => intro n _; exact stripLoop_nil _ _ whiteSpaces_ne
  | cons c cs ih =>
    intro n hn
    rw [textBytes_cons, List.length_append] at hn
    have hpos := enc_length_pos c
    obtain ⟨n, rfl⟩ : ∃ k, n = k + 1 := ⟨n - 1, by omega⟩
    rw [textBytes_cons, stripLoop, find_white, List.dropWhile_cons]
    by_cases h : whiteTest c = true
    · rw [if_pos h, if_pos h]
      simp only [List.drop_left]
      exact ih n (by omega)
    · rw [if_neg h, if_neg h, textBytes_cons]

theorem strip_text_rev (ds : List Char) : ∀ n, (textBytes ds.reverse).length ≤ n →
    stripLoop (whiteSpaces.map List.reverse) n (textBytes ds.reverse).reverse =
      (textBytes (ds.dropWhile whiteTest).reverse).reverse := by
  induction ds with
  | nil => intro n _; exact stripLoop_nil _ _ whiteSpaces_rev_ne
  | cons c ds ih =>
    intro n hn
    have e : textBytes (c :: ds).reverse = textBytes ds.reverse ++ String.utf8EncodeChar c := by
      rw [List.reverse_cons, textBytes_append]
      simp [textBytes]
    rw [e, List.length_append] at hn
    have hpos := enc_length_pos c
    obtain ⟨n, rfl⟩ : ∃ k, n = k + 1 := ⟨n - 1, by omega⟩
    rw [e, List.reverse_append, stripLoop, find_white_rev, List.dropWhile_cons]
    by_cases h : whiteTest c = true
    · rw [if_pos h, if_pos h]
      simp only [List.drop_left]
      exact ih n (by omega)
    · rw [if_neg h, if_neg h, e, List.reverse_append]

/-- the characters that are left -/
noncomputable def trimChars (cs : List Char) : List Char :=
  ((cs.dropWhile whiteTest).reverse.dropWhile whiteTest).reverse

theorem trimText_text (cs : List Char) : trimText (textBytes cs) = textBytes (trimChars cs) := by
  unfold trimText trimEnd trimStart
  rw [strip_text cs _ (Nat.le_refl _)]
  have := strip_text_rev (cs.dropWhile whiteTest).reverse (textBytes (cs.dropWhile whiteTest)).length
    (by rw [List.reverse_reverse]; exact Nat.le_refl _)
  rw [List.reverse_reverse] at this
  rw [this, List.reverse_reverse]
  rfl

theorem dropWhile_all {α : Type} {p : α → Bool} {a b : List α} (h : ∀ x ∈ a, p x = true) :
    (a ++ b).dropWhile p = b.dropWhile p := by
  induction a with
  | nil => rfl
  | cons x a ih => rw [List.cons_append, List.dropWhile_cons, if_pos (h x (by simp)), ih (fun y hy => h y (by simp [hy]))]

theorem dropWhile_head {α : Type} {p : α → Bool} {b : List α} (h : ∀ x, b.head? = some x → p x = false) : b.dropWhile p = b := by
  cases b with
  | nil => rfl
  | cons x b => rw [List.dropWhile_cons, if_neg (by simp [h x rfl])]

theorem dropWhile_split {α : Type} (p : α → Bool) (l : List α) : ∃ a, l = a ++ l.dropWhile p ∧ (∀ x ∈ a, p x = true) ∧
    ∀ x, (l.dropWhile p).head? = some x → p x = false := by
  induction l with
  | nil => exact ⟨[], rfl, by simp, by simp⟩
  | cons x l ih =>
    rw [List.dropWhile_cons]
    split
    · rename_i hx
      obtain ⟨a, h1, h2, h3⟩ := ih
      refine ⟨x :: a, by rw [List.cons_append, ← h1], fun y hy => ?_, h3⟩
      rcases List.mem_cons.1 hy with rfl | hy
      · exact hx
      · exact h2 y hy
    · rename_i hx
      exact ⟨[], rfl, by simp, fun y hy => by simp at hy; subst hy; simpa using hx⟩

theorem trimmed_iff (cs t : List Char) : TrimmedText cs t ↔ t = trimChars cs := by
  constructor
  · rintro ⟨⟨a, b, rfl, ha, hb⟩, h1, h2⟩
    unfold trimChars
    have hnw : ∀ c, ¬ IsWhite c → whiteTest c = false := fun c h => by simp [whiteTest, h]
    rw [List.append_assoc, dropWhile_all (fun x hx => (whiteTest_iff x).2 (ha x hx))]
    cases t with
    | nil =>
      rw [List.nil_append]
      have : b.dropWhile whiteTest = [] := by
        have := dropWhile_all (p := whiteTest) (a := b) (b := []) (fun x hx => (whiteTest_iff x).2 (hb x hx))
        simpa using this
      rw [this]
      rfl
    | cons c t =>
      rw [dropWhile_head (b := c :: t ++ b) (fun x hx => hnw x (h1 x (by simpa using hx))), List.reverse_append,
        dropWhile_all (fun x hx => (whiteTest_iff x).2 (hb x (List.mem_reverse.1 hx))),
        dropWhile_head (fun x hx => hnw x (h2 x (by rw [List.head?_reverse] at hx; exact hx))), List.reverse_reverse]
  · rintro rfl
    obtain ⟨a, e1, h1, h2⟩ := dropWhile_split whiteTest cs
    obtain ⟨b, e2, h3, h4⟩ := dropWhile_split whiteTest (cs.dropWhile whiteTest).reverse
    have e3 : cs.dropWhile whiteTest = trimChars cs ++ b.reverse := by
      have := congrArg List.reverse e2
      rwa [List.reverse_reverse, List.reverse_append] at this
    refine ⟨⟨a, b.reverse, by rw [List.append_assoc, ← e3]; exact e1, fun c hc => (whiteTest_iff c).1 (h1 c hc),
      fun c hc => (whiteTest_iff c).1 (h3 c (List.mem_reverse.1 hc))⟩, fun c hc => ?_, fun c hc => ?_⟩
    · have : (cs.dropWhile whiteTest).head? = some c := by
        rw [e3]
        cases ht : trimChars cs with
        | nil => rw [ht] at hc; simp at hc
        | cons x t => rw [ht] at hc; simpa using hc
      have := h2 c this
      simpa [whiteTest] using this
    · unfold trimChars at hc
      rw [List.getLast?_reverse] at hc
      have := h4 c hc
      simpa [whiteTest] using this

/-! ## bytes that need not be text -/

theorem stripLoop_spec (ws : List Bytes) (hw : ∀ w ∈ ws, w ≠ []) : ∀ (n : Nat) (b : Bytes), b.length ≤ n →
    (∃ a : List Bytes, (∀ w ∈ a, w ∈ ws) ∧ b = a.flatten ++ stripLoop ws n b) ∧
    ∀ w ∈ ws, ¬ w <+: stripLoop ws n b := by
  intro n
  induction n with
  | zero =>
    intro b hb
    have : b = [] := List.length_eq_zero_iff.1 (by omega)
    subst this
    exact ⟨⟨[], by simp, rfl⟩, fun w h hp => hw w h (List.prefix_nil.1 hp)⟩
  | succ n ih =>
    intro b hb
    rw [stripLoop]
    cases hf : ws.find? (fun w => w.isPrefixOf b) with
    | none =>
      refine ⟨⟨[], by simp, rfl⟩, fun w h hp => ?_⟩
      have := List.find?_eq_none.1 hf w h
      rw [List.isPrefixOf_iff_prefix] at this
      exact this hp
    | some w =>
      have hm := List.mem_of_find?_eq_some hf
      have hp := List.find?_some hf
      rw [List.isPrefixOf_iff_prefix] at hp
      obtain ⟨y, rfl⟩ := hp
      have := List.length_pos_iff.2 (hw w hm)
      simp only [List.drop_left]
      rw [List.length_append] at hb
      obtain ⟨⟨a, h1, h2⟩, h3⟩ := ih y (by omega)
      refine ⟨⟨w :: a, fun x hx => ?_, ?_⟩, h3⟩
      · rcases List.mem_cons.1 hx with rfl | hx
        · exact hm
        · exact h1 x hx
      · rw [List.flatten_cons, List.append_assoc, ← h2]

end Pica
