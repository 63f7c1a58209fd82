import Verif.Lemmas.Reads
import Verif.Lemmas.TagMatcher
import Verif.Lemmas.OccMatcher
import Verif.Lemmas.Utf8
import Verif.Spec.Atoms

/-! The lexical parsers read what the specification says. -/

namespace Pica
open Spec Parser

/-! ## Codes -/

theorem mem_allCodes : (· ∈ allCodes) = IsCode := by
  funext b
  apply propext
  have h : ∀ n : Fin 256, (UInt8.ofFin n ∈ allCodes) ↔ IsCode (UInt8.ofFin n) := by
    unfold IsCode; decide +kernel
  exact h b.toFin

theorem isAlnum_eq_contains : isAlnum = (allCodes.contains ·) := by
  funext b
  have := isAlnum_iff (b := b)
  rw [← mem_allCodes] at this
  cases h : isAlnum b with
  | true => simpa using (this.1 h)
  | false =>
    have h' : b ∉ allCodes := fun hb => by rw [this.2 hb] at h; cases h
    simpa using h'

theorem pCodeItem_eq : alt pCodeRange (map (fun c => [c]) pSubfieldCode) = pClassItem allCodes := by
  unfold pCodeRange pClassItem pSubfieldCode
  rw [isAlnum_eq_contains]

theorem pCodes_eq : pCodes = alt
    (delimited (byte 0x5B) (map List.flatten (repeat1 (pClassItem allCodes))) (byte 0x5D))
    (alt (map (fun c => [c]) (oneOf (allCodes.contains ·))) pCodeAll) := by
  unfold pCodes pCodeList
  rw [pCodeItem_eq]
  unfold pSubfieldCode
  rw [isAlnum_eq_contains]

/-- the list denotes the set -/
def SetOf (codes : Bytes) (S : ByteSet) : Prop := ∀ b, b ∈ codes ↔ S b

theorem pCodes_reads : Reads pCodes (fun cs t => ∃ S, CodesText t S ∧ SetOf cs S) := by
  intro i cs r h
  rw [pCodes_eq] at h
  rcases alt_eq_some.1 h with h | ⟨_, h⟩
  · obtain ⟨_, r1, _, r2, h1, h2, h3⟩ := delimited_eq_some.1 h
    obtain ⟨rfl, _⟩ := byte_eq_some.1 h1
    obtain ⟨xs, h4, rfl⟩ := map_eq_some.1 h2
    obtain ⟨rfl, _⟩ := byte_eq_some.1 h3
    obtain ⟨t, rfl, hne, hs⟩ := repeat1_spells (fun i a r hp => pClassItem_sound hp) h4
    obtain ⟨S, hc, hd⟩ := classText_of_spells hne hs
    rw [mem_allCodes] at hc
    exact ⟨[0x5B] ++ t ++ [0x5D], by simp, S, .list hc, hd⟩
  · rcases alt_eq_some.1 h with h | ⟨_, h⟩
    · obtain ⟨c, h1, rfl⟩ := map_eq_some.1 h
      obtain ⟨rfl, h2⟩ := oneOf_eq_some.1 h1
      refine ⟨[c], rfl, _, .one c ?_, by simp [SetOf]⟩
      rw [← mem_allCodes]; simpa using h2
    · obtain ⟨rfl, c, h1⟩ := value_eq_some.1 h
      obtain ⟨rfl, rfl⟩ := byte_eq_some.1 h1
      refine ⟨[0x2A], rfl, _, .all, ?_⟩
      intro b
      rw [← mem_allCodes]

theorem isCode_not_special {c : Byte} (h : IsCode c) : c ≠ 0x5B ∧ c ≠ 0x2A ∧ c ≠ 0x5D ∧ c ≠ 0x2D ∧
    c ≠ 0x2E := by
  unfold IsCode at h
  simp only [UInt8.le_iff_toNat_le] at h
  refine ⟨?_, ?_, ?_, ?_, ?_⟩ <;> · rintro rfl; simp at h

theorem noSpecialCodes : NoSpecial allCodes := by
  unfold NoSpecial; decide +kernel

theorem pCodes_complete {t S} (h : CodesText t S) :
    ∃ cs, (∀ r, pCodes (t ++ r) = some (cs, r)) ∧ SetOf cs S := by
  rw [pCodes_eq]
  cases h with
  | one c hc =>
    refine ⟨[c], fun r => ?_, by simp [SetOf]⟩
    obtain ⟨h1, h2, -⟩ := isCode_not_special hc
    have hm : c ∈ allCodes := by
      have := hc; rw [← mem_allCodes] at this; exact this
    rw [alt_right]
    · apply alt_left
      apply map_run (a := c)
      exact oneOf_eq_some.2 ⟨rfl, by simpa using hm⟩
    · exact preceded_none (byte_cons_ne h1 _)
  | @list t S hc =>
    have hc' : PosText (· ∈ allCodes) ([0x5B] ++ t ++ [0x5D]) S := by
      rw [mem_allCodes]; exact .cls hc
    obtain ⟨p, hp, hd⟩ := pTagFragment_complete noSpecialCodes hc'
    refine ⟨p, fun r => ?_, hd⟩
    replace hp := hp r
    apply alt_left
    unfold pTagFragment at hp
    rw [alt_right, alt_right] at hp
    · exact hp
    · exact map_none (byte_cons_ne (by decide) _)
    · apply map_none
      have : 0x5B ∉ allCodes := by decide +kernel
      simp [oneOf, this]
  | all =>
    refine ⟨allCodes, fun r => ?_, fun b => by rw [← mem_allCodes]⟩
    rw [alt_right, alt_right]
    · exact value_eq_some.2 ⟨rfl, _, byte_cons_self _ _⟩
    · apply map_none
      have : 0x2A ∉ allCodes := by decide +kernel
      simp [oneOf, this]
    · exact preceded_none (byte_cons_ne (by decide) _)

/-! ## Strings -/

theorem pEscapedChar_reads (q : Byte) :
    Reads (pEscapedChar q) (fun b t => ∃ e, Escape q e b ∧ t = [0x5C, e]) := by
  have hb : ∀ (e b : Byte), Reads (value b (byte e)) (fun x t => x = b ∧ t = [e]) := fun e b =>
    ((Reads.byte e).value b).mono (by rintro x t ⟨rfl, _, _, rfl⟩; exact ⟨rfl, rfl⟩)
  refine ((Reads.byte 0x5C).preceded ((hb 0x6E 0x0A).alt ((hb 0x72 0x0D).alt ((hb 0x74 0x09).alt
    ((hb 0x62 0x08).alt ((hb 0x66 0x0C).alt ((hb 0x5C 0x5C).alt ((hb 0x2F 0x2F).alt
      (hb q q))))))))).mono ?_
  rintro b t ⟨_, t1, t2, rfl, ⟨_, rfl⟩, h⟩
  rcases h with h | h | h | h | h | h | h | h <;> obtain ⟨rfl, rfl⟩ := h <;>
    exact ⟨_, by simp [Escape], rfl⟩

/-- quotes that cannot be mistaken for an escape letter -/
def IsQuote (q : Byte) : Prop := q = 0x27 ∨ q = 0x22

theorem escape_run {q e b : Byte} (hq : IsQuote q) (h : Escape q e b) (r : Bytes) :
    pEscapedChar q (0x5C :: e :: r) = some (b, r) := by
  rcases hq with rfl | rfl <;> rcases h with h | h | h | h | h | h | h | h <;>
    obtain ⟨rfl, rfl⟩ := h <;> rfl

theorem escape_not_ws {q e b : Byte} (hq : IsQuote q) (h : Escape q e b) :
    isMultispace e = false := by
  rcases hq with rfl | rfl <;> rcases h with h | h | h | h | h | h | h | h <;>
    obtain ⟨rfl, rfl⟩ := h <;> rfl

/-- one step of the loop in `parse_quoted_string` -/
theorem pQuotedFragment_cases {q : Byte} {i x r : Bytes} (h : pQuotedFragment q i = some (x, r)) :
    (i = x ++ r ∧ x ≠ [] ∧ ∀ b ∈ x, b ≠ q ∧ b ≠ 0x5C) ∨
    (∃ e b, Escape q e b ∧ i = 0x5C :: e :: r ∧ x = [b]) ∨
    (∃ w, x = [] ∧ w ≠ [] ∧ Ws w ∧ i = 0x5C :: (w ++ r) ∧ ∀ b, r.head? = some b → ¬ IsWs b) := by
  unfold pQuotedFragment at h
  rcases alt_eq_some.1 h with h | ⟨_, h⟩
  · left
    obtain ⟨t, rfl, rfl, h1, h2⟩ := Reads.takeWhileM _ _ _ _ _ h
    refine ⟨rfl, ?_, ?_⟩
    · rintro rfl; simp at h1
    · intro b hb
      have := h2 b hb
      simpa using this
  · rcases alt_eq_some.1 h with h | ⟨_, h⟩
    · right; left
      obtain ⟨b, h1, rfl⟩ := map_eq_some.1 h
      obtain ⟨t, rfl, e, h2, rfl⟩ := pEscapedChar_reads q _ _ _ h1
      exact ⟨e, b, h2, rfl, rfl⟩
    · right; right
      obtain ⟨rfl, w, h1⟩ := value_eq_some.1 h
      obtain ⟨_, r1, h2, h3⟩ := preceded_eq_some.1 h1
      obtain ⟨rfl, _⟩ := byte_eq_some.1 h2
      obtain ⟨h4, h5, h6⟩ := takeWhileM_eq_some.1 h3
      refine ⟨w, rfl, ?_, ?_, ?_, ?_⟩
      · rintro rfl; simp at h6
      · intro b hb; subst h4; exact (isMultispace_iff b).1 (mem_takeWhile hb)
      · rw [h4, h5, List.takeWhile_append_dropWhile]
      · intro b hb hws
        have : isMultispace b = true := (isMultispace_iff b).2 hws
        subst h5
        have hd := List.head?_dropWhile_not isMultispace r1
        rw [hb] at hd
        simp [this] at hd

theorem body_append_lit {q : Byte} {x t s : Bytes} (hx : ∀ b ∈ x, b ≠ q ∧ b ≠ 0x5C)
    (h : Body q t s) : Body q (x ++ t) (x ++ s) := by
  induction x with
  | nil => exact h
  | cons b x ih =>
    obtain ⟨h1, h2⟩ := hx b (by simp)
    exact .lit h1 h2 (ih fun c hc => hx c (by simp [hc]))

theorem pQuoted_loop {q : Byte} : ∀ n i as r, repeat0Aux (pQuotedFragment q) n i = some (as, r) →
    r.head? = some q → ¬ IsWs q → ∃ t, i = t ++ r ∧ Body q t as.flatten := by
  intro n
  induction n with
  | zero =>
    intro i as r h hr hq
    simp only [repeat0Aux, Option.some.injEq, Prod.mk.injEq] at h
    obtain ⟨rfl, rfl⟩ := h
    exact ⟨[], rfl, .nil⟩
  | succ n ih =>
    intro i as r h hr hq
    rw [repeat0Aux] at h
    cases hp : pQuotedFragment q i with
    | none =>
      rw [hp] at h
      simp only [Option.some.injEq, Prod.mk.injEq] at h
      obtain ⟨rfl, rfl⟩ := h
      exact ⟨[], rfl, .nil⟩
    | some y =>
      obtain ⟨x, r1⟩ := y
      rw [hp] at h
      simp only at h
      split at h
      · split at h
        · rename_i as' r' he
          simp only [Option.some.injEq, Prod.mk.injEq] at h
          obtain ⟨rfl, rfl⟩ := h
          obtain ⟨t, rfl, hb⟩ := ih _ _ _ he hr hq
          rcases pQuotedFragment_cases hp with ⟨rfl, _, h2⟩ | ⟨e, b, h1, rfl, rfl⟩ |
            ⟨w, rfl, h1, h2, rfl, h4⟩
          · exact ⟨x ++ t, by simp, by simpa using body_append_lit h2 hb⟩
          · exact ⟨0x5C :: e :: t, by simp, by simpa using Body.esc h1 hb⟩
          · refine ⟨0x5C :: (w ++ t), by simp, ?_⟩
            simp only [List.flatten_cons, List.nil_append]
            refine .skip h1 h2 (fun b hb' => h4 b ?_) hb
            cases t with
            | nil => simp at hb'
            | cons c t => simpa using hb'
        · simp at h
      · simp at h

theorem pQuoted_reads {q : Byte} (hq : IsQuote q) :
    Reads (pQuoted q) (fun s t => ∃ b, Body q b s ∧ t = [q] ++ b ++ [q]) := by
  intro i s r h
  unfold pQuoted at h
  obtain ⟨_, r1, _, r2, h1, h2, h3⟩ := delimited_eq_some.1 h
  obtain ⟨rfl, _⟩ := byte_eq_some.1 h1
  obtain ⟨xs, h4, rfl⟩ := map_eq_some.1 h2
  obtain ⟨rfl, _⟩ := byte_eq_some.1 h3
  obtain ⟨t, rfl, hb⟩ := pQuoted_loop _ _ _ _ h4 rfl (by
    rcases hq with rfl | rfl <;> simp [IsWs])
  exact ⟨[q] ++ t ++ [q], by simp, t, hb, rfl⟩

theorem pString_reads : Reads pString (fun s t => StringText t s) := by
  unfold pString
  refine (((pQuoted_reads (.inl rfl)).alt (pQuoted_reads (.inr rfl))).verify utf8Valid).mono ?_
  rintro s t ⟨⟨b, h1, rfl⟩ | ⟨b, h1, rfl⟩, h2⟩
  · exact .mk (.inl rfl) h1 ((utf8Valid_iff s).1 h2)
  · exact .mk (.inr rfl) h1 ((utf8Valid_iff s).1 h2)

/-- split off the leading run of literal bytes -/
theorem body_split {q : Byte} {t s : Bytes} (h : Body q t s) :
    ∃ x t' s', t = x ++ t' ∧ s = x ++ s' ∧ (∀ b ∈ x, b ≠ q ∧ b ≠ 0x5C) ∧ Body q t' s' ∧
      (t' = [] ∨ t'.head? = some 0x5C) := by
  induction h with
  | nil => exact ⟨[], [], [], rfl, rfl, by simp, .nil, .inl rfl⟩
  | @lit b t s h1 h2 _ ih =>
    obtain ⟨x, t', s', rfl, rfl, h3, h4, h5⟩ := ih
    refine ⟨b :: x, t', s', rfl, rfl, ?_, h4, h5⟩
    intro c hc
    rcases List.mem_cons.1 hc with rfl | hc
    · exact ⟨h1, h2⟩
    · exact h3 c hc
  | esc h1 h2 ih => exact ⟨[], _, _, rfl, rfl, by simp, .esc h1 h2, .inr rfl⟩
  | skip h1 h2 h3 h4 ih => exact ⟨[], _, _, rfl, rfl, by simp, .skip h1 h2 h3 h4, .inr rfl⟩

theorem quote_ne {q : Byte} (hq : IsQuote q) : q ≠ 0x5C ∧ isMultispace q = false := by
  rcases hq with rfl | rfl <;> exact ⟨by decide, by decide⟩

theorem pQuotedFragment_lit {q : Byte} {x r : Bytes} (hne : x ≠ [])
    (hx : ∀ b ∈ x, b ≠ q ∧ b ≠ 0x5C) (hr : ∃ b, r.head? = some b ∧ (b = q ∨ b = 0x5C)) :
    pQuotedFragment q (x ++ r) = some (x, r) := by
  apply alt_left
  apply takeWhileM_append
  · cases x with
    | nil => exact absurd rfl hne
    | cons => simp
  · intro b hb; simpa using hx b hb
  · intro b hb
    obtain ⟨b', h1, h2⟩ := hr
    rw [h1] at hb
    cases hb
    rcases h2 with rfl | rfl <;> simp

theorem pLiteral_none {q c : Byte} {r : Bytes} (h : c = q ∨ c = 0x5C) : pLiteral q (c :: r) = none := by
  unfold pLiteral takeWhileM
  have : (!(c == q || c == 0x5C)) = false := by rcases h with rfl | rfl <;> simp
  simp only [List.takeWhile_cons, this]
  rfl

theorem pQuotedFragment_esc {q e b : Byte} {r : Bytes} (hq : IsQuote q) (h : Escape q e b) :
    pQuotedFragment q (0x5C :: e :: r) = some ([b], r) := by
  unfold pQuotedFragment
  rw [alt_right (pLiteral_none (.inr rfl))]
  exact alt_left (map_run (escape_run hq h r))

theorem pEscapedChar_ws {q c : Byte} {r : Bytes} (hq : IsQuote q) (h : isMultispace c = true) :
    pEscapedChar q (0x5C :: c :: r) = none := by
  rw [Option.eq_none_iff_forall_ne_some]
  rintro ⟨b, r'⟩ h'
  obtain ⟨t, ht, e, he, rfl⟩ := pEscapedChar_reads q _ _ _ h'
  simp at ht
  obtain ⟨rfl, rfl⟩ := ht
  rw [escape_not_ws hq he] at h
  cases h

theorem pQuotedFragment_skip {q : Byte} {w r : Bytes} (hq : IsQuote q) (hne : w ≠ []) (hw : Ws w)
    (hr : NoWs r) : pQuotedFragment q (0x5C :: (w ++ r)) = some ([], r) := by
  unfold pQuotedFragment
  rw [alt_right (pLiteral_none (.inr rfl)), alt_right]
  · refine value_eq_some.2 ⟨rfl, w, preceded_run (byte_cons_self _ _) ?_⟩
    refine takeWhileM_append ?_ (fun b hb => (isMultispace_iff b).2 (hw b hb)) hr
    cases w with
    | nil => exact absurd rfl hne
    | cons => simp
  · apply map_none
    cases w with
    | nil => exact absurd rfl hne
    | cons c w => exact pEscapedChar_ws hq ((isMultispace_iff c).2 (hw c (by simp)))

theorem pQuotedFragment_end {q : Byte} (hq : IsQuote q) (r : Bytes) :
    pQuotedFragment q (q :: r) = none := by
  unfold pQuotedFragment
  rw [alt_right (pLiteral_none (.inl rfl)), alt_right]
  · exact map_none (preceded_none (byte_cons_ne (quote_ne hq).1 _))
  · exact map_none (preceded_none (byte_cons_ne (quote_ne hq).1 _))

theorem repeat0Aux_step {α : Type} {p : Parser α} {n i a r as r'} (h : p i = some (a, r))
    (hl : r.length < i.length) (h' : repeat0Aux p n r = some (as, r')) :
    repeat0Aux p (n + 1) i = some (a :: as, r') := by
  rw [repeat0Aux, h]
  simp only [hl, if_true, h']

theorem repeat0Aux_stop {α : Type} {p : Parser α} {n i} (h : p i = none) :
    repeat0Aux p n i = some ([], i) := by
  cases n with
  | zero => rfl
  | succ n => rw [repeat0Aux, h]

theorem body_loop {q : Byte} (hq : IsQuote q) (rest : Bytes) : ∀ n t s, Body q t s →
    t.length ≤ n →
    ∃ as, as.flatten = s ∧
      repeat0Aux (pQuotedFragment q) (n + 1) (t ++ q :: rest) = some (as, q :: rest) := by
  intro n
  induction n using Nat.strongRecOn with
  | _ n ih =>
  intro t s h hn
  obtain ⟨x, t', s', rfl, rfl, hx, hb, hh⟩ := body_split h
  by_cases hxe : x = []
  · subst hxe
    simp only [List.nil_append] at hn ⊢
    cases hb with
    | nil => exact ⟨[], rfl, by rw [List.nil_append]; exact repeat0Aux_stop (pQuotedFragment_end hq rest)⟩
    | lit h1 h2 _ =>
      rcases hh with hh | hh
      · simp at hh
      · simp at hh; exact absurd hh h2
    | @esc e b t s h1 h2 =>
      simp only [List.length_cons] at hn
      obtain ⟨as, h3, h4⟩ := ih (n - 1) (by omega) t s h2 (by omega)
      obtain ⟨k, rfl⟩ : ∃ k, n = k + 1 := ⟨n - 1, by omega⟩
      refine ⟨[b] :: as, by simp [h3], ?_⟩
      exact repeat0Aux_step (pQuotedFragment_esc hq h1) (by simp; omega) h4
    | @skip w t s h1 h2 h3 h4 =>
      simp only [List.length_cons, List.length_append] at hn
      have hl : 0 < w.length := List.length_pos_iff.2 h1
      obtain ⟨as, h5, h6⟩ := ih (n - 1) (by omega) t s' h4 (by omega)
      obtain ⟨k, rfl⟩ : ∃ k, n = k + 1 := ⟨n - 1, by omega⟩
      refine ⟨[] :: as, by simp [h5], ?_⟩
      have hns : NoWs (t ++ q :: rest) := by
        cases t with
        | nil => simpa [noWs_cons] using (quote_ne hq).2
        | cons c t =>
          have := h3 c rfl
          rw [List.cons_append, noWs_cons]
          cases hc : isMultispace c with
          | false => rfl
          | true => exact absurd ((isMultispace_iff c).1 hc) this
      have hf := pQuotedFragment_skip hq h1 h2 hns
      rw [List.cons_append, List.append_assoc]
      exact repeat0Aux_step hf (by simp; omega) h6
  · have hl : 0 < x.length := List.length_pos_iff.2 hxe
    simp only [List.length_append] at hn
    obtain ⟨as, h3, h4⟩ := ih (n - 1) (by omega) t' s' hb (by omega)
    obtain ⟨k, rfl⟩ : ∃ k, n = k + 1 := ⟨n - 1, by omega⟩
    refine ⟨x :: as, by simp [h3], ?_⟩
    rw [List.append_assoc]
    refine repeat0Aux_step (pQuotedFragment_lit hxe hx ?_) (by simp; omega) h4
    rcases hh with rfl | hh
    · exact ⟨q, rfl, .inl rfl⟩
    · cases t' with
      | nil => simp at hh
      | cons c t' => exact ⟨c, rfl, .inr (by simpa using hh)⟩

theorem pQuoted_complete {q : Byte} (hq : IsQuote q) {t s : Bytes} (h : Body q t s) (r : Bytes) :
    pQuoted q ([q] ++ t ++ [q] ++ r) = some (s, r) := by
  obtain ⟨as, rfl, h2⟩ := body_loop hq r (t ++ q :: r).length t s h (by simp)
  have e : [q] ++ t ++ [q] ++ r = q :: (t ++ q :: r) := by simp
  rw [e]
  refine delimited_run (byte_cons_self _ _) (map_run ?_) (byte_cons_self _ _)
  exact h2

theorem pString_complete {t s : Bytes} (h : StringText t s) (r : Bytes) :
    pString (t ++ r) = some (s, r) := by
  cases h with
  | @mk q t s hq hb hu =>
    refine verify_run ?_ ((utf8Valid_iff s).2 hu)
    rcases hq with rfl | rfl
    · exact alt_left (pQuoted_complete (.inl rfl) hb r)
    · rw [alt_right]
      · exact pQuoted_complete (.inr rfl) hb r
      · unfold pQuoted
        exact preceded_none (byte_none_of_head (by simp))

theorem stringText_head {t s : Bytes} (h : StringText t s) (r : Bytes) : NoWs (t ++ r) ∧ t ≠ [] := by
  cases h with
  | mk hq _ _ =>
    refine ⟨?_, by simp⟩
    rcases hq with rfl | rfl <;> simp [noWs_cons, isMultispace]

end Pica
