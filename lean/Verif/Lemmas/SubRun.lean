import Verif.Lemmas.Operand

/-! Every text of `Spec.SubText` is read by the parser of simple subfield
matchers, and with the meaning given there. -/

namespace Pica
open Spec Parser

/-! ## Quantifier and codes -/

/-- the optional quantifier in front; `sp`: white space is needed after it -/
def pQuant (sp : Bool) : Parser Quantifier :=
  map Quantifier.orDefault
    (opt (Pica.ws (if sp then terminated pQuantifier multispace1 else pQuantifier)))

theorem ws_multispace {w : Bytes} (h : Ws w) : ∀ b ∈ w, isMultispace b = true :=
  fun b hb => (isMultispace_iff b).2 (h b hb)

theorem dws_head (r : Bytes) : ∀ b, (dws r).head? = some b → isMultispace b = false := by
  intro b hb
  have := dws_noWs r
  cases hd : dws r with
  | nil => rw [hd] at hb; simp at hb
  | cons x y =>
    rw [hd] at hb this
    simp only [List.head?_cons, Option.some.injEq] at hb
    subst hb
    exact noWs_cons.1 this

theorem multispace1_run {w r : Bytes} (hw : Ws w) (hne : w ≠ []) :
    ∃ x, multispace1 (w ++ r) = some (x, dws r) := by
  refine ⟨(w ++ r).takeWhile isMultispace, ?_⟩
  have h2 : (w ++ r).dropWhile isMultispace = dws r := dws_append hw
  refine takeWhileM_eq_some.2 ⟨rfl, h2.symm, ?_⟩
  cases w with
  | nil => exact absurd rfl hne
  | cons b w =>
    have : isMultispace b = true := ws_multispace hw b (by simp)
    simp [this]

theorem multispace1_none {r : Bytes} (h : NoWs r) : multispace1 r = none := by
  cases e : multispace1 r with
  | none => rfl
  | some x =>
    obtain ⟨t, rfl, h1, h2⟩ := multispace1_reads _ _ _ e
    cases t with
    | nil => exact absurd rfl h2
    | cons b t =>
      have h3 := ws_multispace h1 b (by simp)
      rw [List.cons_append, noWs_cons] at h
      rw [h] at h3; cases h3

theorem pQuantifier_any (r : Bytes) : pQuantifier (bs "ANY" ++ r) = some (.any, r) := by
  unfold pQuantifier
  rw [alt_right]
  · exact map_run (lit_run _ _)
  · refine map_none ?_
    rw [bs_ANY, bs_ALL]
    exact lit_none_of_second (by decide)

theorem pQuantifier_all (r : Bytes) : pQuantifier (bs "ALL" ++ r) = some (.all, r) :=
  alt_left (map_run (lit_run _ _))

theorem noWs_any (r : Bytes) : NoWs (bs "ANY" ++ r) := by rw [bs_ANY]; exact noWs_cons.2 (by decide)
theorem noWs_all (r : Bytes) : NoWs (bs "ALL" ++ r) := by rw [bs_ALL]; exact noWs_cons.2 (by decide)

/-- the quantifier sign -/
def qSign : Quantifier → Bytes
  | .any => bs "ANY"
  | .all => bs "ALL"

theorem pQuantifier_run (q : Quantifier) (r : Bytes) : pQuantifier (qSign q ++ r) = some (q, r) := by
  cases q
  · exact pQuantifier_all r
  · exact pQuantifier_any r

theorem qSign_noWs (q : Quantifier) (r : Bytes) : NoWs (qSign q ++ r) := by
  cases q
  · exact noWs_all r
  · exact noWs_any r

theorem quantText_cases {sp tq q} (h : QuantText sp tq q) : (tq = [] ∧ q = .any) ∨
    ∃ w w', tq = w ++ qSign q ++ w' ∧ Ws w ∧ Ws w' ∧ (sp = true → w' ≠ []) := by
  cases h with
  | none => exact .inl ⟨rfl, rfl⟩
  | any h1 h2 h3 => exact .inr ⟨_, _, rfl, h1, h2, h3⟩
  | all h1 h2 h3 => exact .inr ⟨_, _, rfl, h1, h2, h3⟩

theorem pQuant_sign {sp : Bool} {q : Quantifier} {w w' r : Bytes} (hw : Ws w) (hw' : Ws w')
    (hs : sp = true → w' ≠ []) : pQuant sp (w ++ qSign q ++ w' ++ r) = some (q, dws r) := by
  unfold pQuant
  refine map_run (a := some q) (opt_run ?_)
  have e : dws (w ++ qSign q ++ w' ++ r) = qSign q ++ (w' ++ r) := by
    rw [List.append_assoc, List.append_assoc, dws_append hw, dws_of_noWs (qSign_noWs _ _)]
  cases sp with
  | false =>
    rw [← dws_append hw']
    refine ws_run' ?_
    rw [e]; exact pQuantifier_run q _
  | true =>
    rw [← dws_dws]
    refine ws_run' ?_
    rw [e]
    obtain ⟨x, hx⟩ := multispace1_run (r := r) hw' (hs rfl)
    exact terminated_run (pQuantifier_run q _) hx

/-- what may follow the codes: no white space, no `L` and no `N` -/
def AfterCodes (X : Bytes) : Prop := NoWs X ∧ X.head? ≠ some 0x4C ∧ X.head? ≠ some 0x4E

theorem pQuant_codes {sp : Bool} {u S} {w1 w2 X : Bytes} (hu : CodesText u S) (h1 : Ws w1) (h2 : Ws w2)
    (hX : AfterCodes X) : pQuant sp (w1 ++ u ++ w2 ++ X) = some (.any, w1 ++ u ++ w2 ++ X) := by
  unfold pQuant
  refine map_run (a := none) (opt_none (ws_none' ?_))
  obtain ⟨h3, h4⟩ := codesText_noWs hu
  have e : dws (w1 ++ u ++ w2 ++ X) = u ++ (w2 ++ X) := by
    rw [List.append_assoc, List.append_assoc, dws_append h1, dws_of_noWs (noWs_append h4 h3)]
  have hn := pQuantifier_none hu (r := w2 ++ X) ⟨head_ws h2 hX.2.1 (by decide), head_ws h2 hX.2.2 (by decide)⟩
  rw [e]
  cases sp with
  | false => exact hn
  | true => exact terminated_none hn

theorem wsCodes_padded {u S} {w1 w2 : Bytes} (hu : CodesText u S) (h1 : Ws w1) (h2 : Ws w2) :
    ∃ cs, SetOf cs S ∧ ∀ X, NoWs X → Pica.ws pCodes (w1 ++ u ++ w2 ++ X) = some (cs, X) ∧
      Pica.ws pCodes (dws (w1 ++ u ++ w2 ++ X)) = some (cs, X) := by
  obtain ⟨cs, h3, h4, h5⟩ := wsCodes_run hu
  obtain ⟨h6, h7⟩ := codesText_noWs hu
  refine ⟨cs, h5, fun X hX => ?_⟩
  have e : dws (w1 ++ u ++ w2 ++ X) = u ++ (w2 ++ X) := by
    rw [List.append_assoc, List.append_assoc, dws_append h1, dws_of_noWs (noWs_append h7 h6)]
  have e2 : dws (w2 ++ X) = X := by rw [dws_append h2, dws_of_noWs hX]
  have key : ∀ i, dws i = u ++ (w2 ++ X) → Pica.ws pCodes i = some (cs, X) := by
    intro i hi
    rw [← e2]
    refine ws_run' ?_
    rw [hi]
    exact h4 _
  exact ⟨key _ e, key _ (by rw [dws_dws, e])⟩

/-- quantifier and codes are read -/
theorem quantCodes_run {sp tq q c S} (hq : QuantText sp tq q) (hc : Padded (CodesText · S) c) :
    ∃ cs, SetOf cs S ∧ ∀ X, AfterCodes X → ∃ r, pQuant sp (tq ++ (c ++ X)) = some (q, r) ∧
      Pica.ws pCodes r = some (cs, X) := by
  obtain ⟨w1, u, w2, rfl, h1, hu, h2⟩ := hc
  obtain ⟨cs, h3, h4⟩ := wsCodes_padded hu h1 h2
  refine ⟨cs, h3, fun X hX => ?_⟩
  obtain ⟨h5, h6⟩ := h4 X hX.1
  rcases quantText_cases hq with ⟨rfl, rfl⟩ | ⟨w, w', rfl, hw, hw', hs⟩
  · exact ⟨_, pQuant_codes hu h1 h2 hX, h5⟩
  · refine ⟨dws (w1 ++ u ++ w2 ++ X), ?_, h6⟩
    exact pQuant_sign hw hw' hs

/-- a parser that needs a space after the quantifier and then an operator fails
if the operator is not there -/
theorem quantCodes_none {β : Type} {K : Parser β} {tq q c S X} (hq : QuantText false tq q)
    (hc : Padded (CodesText · S) c) (hX : AfterCodes X) (h1 : K X = none)
    (h2 : ∀ y b, b = 0x4C ∨ b = 0x4E → K (b :: y) = none) :
    seq (pQuant true) (seq (Pica.ws pCodes) K) (tq ++ (c ++ X)) = none := by
  rcases quantText_cases hq with ⟨rfl, rfl⟩ | ⟨w, w', rfl, hw, hw', -⟩
  · obtain ⟨cs, -, h3⟩ := quantCodes_run (sp := true) .none hc
    obtain ⟨r, h4, h5⟩ := h3 X hX
    exact seq_none' h4 (seq_none' h5 h1)
  · obtain ⟨w1, u, w2, rfl, hw1, hu, hw2⟩ := hc
    by_cases hne : w' ++ w1 = []
    · simp only [List.append_eq_nil_iff] at hne
      obtain ⟨rfl, rfl⟩ := hne
      obtain ⟨n1, n2⟩ := codesText_noWs hu
      have hi : dws (w ++ qSign q ++ [] ++ ([] ++ u ++ w2 ++ X)) = qSign q ++ (u ++ (w2 ++ X)) := by
        simp only [List.append_nil, List.nil_append, List.append_assoc]
        rw [dws_append hw, dws_of_noWs (qSign_noWs _ _)]
      have hq1 : pQuant true (w ++ qSign q ++ [] ++ ([] ++ u ++ w2 ++ X)) =
          some (.any, w ++ qSign q ++ [] ++ ([] ++ u ++ w2 ++ X)) := by
        unfold pQuant
        refine map_run (a := none) (opt_none (ws_none' ?_))
        rw [hi]
        exact terminated_none' (pQuantifier_run q _) (multispace1_none (noWs_append n2 n1))
      refine seq_none' hq1 ?_
      obtain ⟨b, y, hb, hb'⟩ : ∃ b y, qSign q ++ (u ++ (w2 ++ X)) = 0x41 :: b :: y ∧
          (b = 0x4C ∨ b = 0x4E) := by
        cases q
        · exact ⟨0x4C, _, by simp only [qSign, bs_ALL]; rfl, .inl rfl⟩
        · exact ⟨0x4E, _, by simp only [qSign, bs_ANY]; rfl, .inr rfl⟩
      have hA : CodesText [0x41] (fun x => x = 0x41) := .one _ (by unfold IsCode; decide)
      obtain ⟨cs, -, h3, -⟩ := wsCodes_run hA
      have h4 : Pica.ws pCodes (w ++ qSign q ++ [] ++ ([] ++ u ++ w2 ++ X)) = some (cs, b :: y) := by
        have hb'' : isMultispace b = false := by rcases hb' with rfl | rfl <;> decide
        have := ws_run' (p := pCodes) (i := w ++ qSign q ++ [] ++ ([] ++ u ++ w2 ++ X))
          (a := cs) (r := b :: y) (by
            rw [hi, hb]
            exact h3 (b :: y))
        rw [this, dws_cons _ hb'']
      exact seq_none' h4 (h2 y b hb')
    · have e : w ++ qSign q ++ w' ++ (w1 ++ u ++ w2 ++ X) =
          w ++ qSign q ++ (w' ++ w1) ++ (([] ++ u ++ w2) ++ X) := by simp
      rw [e]
      have h3 := pQuant_sign (sp := true) (q := q) (r := ([] ++ u ++ w2) ++ X) hw
        (ws_append hw' hw1) (fun _ => hne)
      obtain ⟨cs, -, h4⟩ := wsCodes_padded hu (w1 := []) (by simp [Ws]) hw2
      exact seq_none' h3 (seq_none' (h4 X hX.1).2 h1)

/-! ## Lists -/

theorem wsByte_run {b : Byte} {w w' r : Bytes} (hb : isMultispace b = false) (hw : Ws w) (hw' : Ws w') :
    Pica.ws (byte b) (w ++ [b] ++ w' ++ r) = some (b, dws r) := by
  rw [← dws_append hw']
  refine ws_run' ?_
  rw [List.append_assoc, List.append_assoc, dws_append hw, List.singleton_append, dws_cons _ hb]
  exact byte_cons_self _ _

theorem wsByte_run' {b : Byte} {i r : Bytes} (h : dws i = b :: r) :
    Pica.ws (byte b) i = some (b, dws r) := ws_run' (by rw [h]; exact byte_cons_self _ _)

section lists
variable {R : Bytes → Bytes → Prop} {p : Parser Bytes}

/-- items are read, start with no white space and are not empty -/
structure ItemRuns (p : Parser Bytes) (R : Bytes → Bytes → Prop) : Prop where
  run : ∀ {t x}, R t x → ∀ r, p (t ++ r) = some (x, r)
  noWs : ∀ {t x}, R t x → ∀ r, NoWs (t ++ r)
  ne : ∀ {t x}, R t x → t ≠ []
  bracket : ∀ r, p (0x5D :: r) = none

theorem itemsText_noWs (hp : ItemRuns p R) {t xs} (h : ItemsText R t xs) (r : Bytes) : NoWs (t ++ r) := by
  cases h with
  | one h => exact hp.noWs h r
  | more h _ _ =>
    rw [List.append_assoc, List.append_assoc]
    exact hp.noWs h _

/-- the items after the first -/
theorem separatedAux_run (hp : ItemRuns p R) {rest : Bytes}
    (hstop : ∀ n, separatedAux p (Pica.ws (byte 0x2C)) n rest = some ([], rest)) :
    ∀ {t xs}, ItemsText R t xs → ∃ x xs', xs = x :: xs' ∧ ∃ r1,
      p (t ++ rest) = some (x, r1) ∧ r1.length < (t ++ rest).length ∧
      ∀ n, r1.length ≤ n → separatedAux p (Pica.ws (byte 0x2C)) n r1 = some (xs', rest) := by
  intro t xs h
  induction h with
  | @one t x h =>
    refine ⟨x, [], rfl, rest, hp.run h rest, ?_, fun n _ => hstop n⟩
    have := List.length_pos_iff.2 (hp.ne h)
    simp; omega
  | @more t x s t' xs h hs h' ih =>
    obtain ⟨w, w', rfl, hw, hw'⟩ := hs
    have hl := List.length_pos_iff.2 (hp.ne h)
    obtain ⟨x2, xs', rfl, r1, h1, h2, h3⟩ := ih
    refine ⟨x, x2 :: xs', rfl, w ++ [0x2C] ++ w' ++ (t' ++ rest), ?_, ?_, ?_⟩
    · have := hp.run h (w ++ [0x2C] ++ w' ++ (t' ++ rest))
      simpa using this
    · simp; omega
    · intro n hn
      simp only [List.length_append, List.length_cons, List.length_nil] at hn h2
      cases n with
      | zero => omega
      | succ n =>
        have e1 := wsByte_run (b := 0x2C) (w := w) (w' := w') (r := t' ++ rest) (by decide) hw hw'
        rw [dws_of_noWs (itemsText_noWs hp h' rest)] at e1
        rw [separatedAux]
        simp only [e1, h1, h3 n (by omega)]

/-- white space, an optional comma, white space and the closing bracket -/
theorem separated_stop (hp : ItemRuns p R) {tail w3 r : Bytes} (ht : tail = [] ∨ Sep tail) (h3 : Ws w3)
    (n : Nat) : separatedAux p (Pica.ws (byte 0x2C)) n (tail ++ w3 ++ [0x5D] ++ r) =
      some ([], tail ++ w3 ++ [0x5D] ++ r) := by
  cases n with
  | zero => rfl
  | succ n =>
    rw [separatedAux]
    rcases ht with rfl | ⟨w, w', rfl, hw, hw'⟩
    · have : Pica.ws (byte 0x2C) ([] ++ w3 ++ [0x5D] ++ r) = none := by
        refine ws_none' ?_
        rw [List.nil_append, List.append_assoc, dws_append h3]
        rfl
      simp only [this]
    · have : Pica.ws (byte 0x2C) (w ++ [0x2C] ++ w' ++ w3 ++ [0x5D] ++ r) = some (0x2C, 0x5D :: r) := by
        have := wsByte_run (b := 0x2C) (w := w) (w' := w' ++ w3) (r := [0x5D] ++ r) (by decide) hw
          (ws_append hw' h3)
        simpa [dws, isMultispace] using this
      simp only [this, hp.bracket]

theorem pBracketList_run (hp : ItemRuns p R) {t xs} (h : ListText R t xs) {rest : Bytes}
    (hr : NoWs rest) : pBracketList p (t ++ rest) = some (xs, rest) := by
  obtain ⟨w1, w2, items, tail, w3, w4, rfl, h1, h2, hi, ht, h3, h4⟩ := h
  unfold pBracketList
  have e0 : w1 ++ [0x5B] ++ w2 ++ items ++ tail ++ w3 ++ [0x5D] ++ w4 ++ rest =
      w1 ++ [0x5B] ++ w2 ++ (items ++ (tail ++ w3 ++ [0x5D] ++ (w4 ++ rest))) := by simp
  rw [e0]
  have e1 := wsByte_run (b := 0x5B) (r := items ++ (tail ++ w3 ++ [0x5D] ++ (w4 ++ rest))) (by decide) h1 h2
  rw [dws_of_noWs (itemsText_noWs hp hi _)] at e1
  have e2 : ∀ w3', Ws w3' → Pica.ws (byte 0x5D) (w3' ++ [0x5D] ++ (w4 ++ rest)) = some (0x5D, rest) := by
    intro w3' hw
    have := wsByte_run (b := 0x5D) (r := rest) (by decide) hw h4
    rw [dws_of_noWs hr] at this
    simpa using this
  have e3 : ∃ w3' o, Ws w3' ∧ opt (Pica.ws (byte 0x2C)) (tail ++ w3 ++ [0x5D] ++ (w4 ++ rest)) =
      some (o, w3' ++ [0x5D] ++ (w4 ++ rest)) := by
    rcases ht with rfl | ⟨w, w', rfl, hw, hw'⟩
    · refine ⟨w3, none, h3, ?_⟩
      rw [opt_none]
      · simp
      · refine ws_none' ?_
        rw [List.nil_append, List.append_assoc, dws_append h3]
        rfl
    · refine ⟨[], some 0x2C, by simp [Ws], opt_run ?_⟩
      have := wsByte_run (b := 0x2C) (w := w) (w' := w' ++ w3) (r := [0x5D] ++ (w4 ++ rest)) (by decide) hw
        (ws_append hw' h3)
      simpa [dws, isMultispace] using this
  obtain ⟨w3', o, hw3', e3⟩ := e3
  refine delimited_run e1 (terminated_run ?_ e3) (e2 _ hw3')
  obtain ⟨x, xs', rfl, r1, g1, g2, g3⟩ := separatedAux_run hp
    (rest := tail ++ w3 ++ [0x5D] ++ (w4 ++ rest)) (fun n => separated_stop hp ht h3 n) hi
  unfold separated1
  simp only [g1, g3 _ (Nat.le_succ _)]

end lists

/-! ## The simple matchers -/

theorem padded_append {P : Bytes → Prop} {c w : Bytes} (h : Padded P c) (hw : Ws w) : Padded P (c ++ w) := by
  obtain ⟨w1, u, w2, rfl, h1, h2, h3⟩ := h
  exact ⟨w1, u, w2 ++ w, by simp, h1, h2, ws_append h3 hw⟩

theorem stringRuns : ItemRuns pString StringText where
  run := fun h r => pString_complete h r
  noWs := fun h r => (stringText_head h r).1
  ne := fun h => (stringText_head h []).2
  bracket := fun _ => rfl

theorem regexRuns (rx : Bytes → Bool) : ItemRuns (verify rx pString) (RegexText rx) where
  run := fun h r => verify_run (pString_complete h.1 r) h.2
  noWs := fun h r => (stringText_head h.1 r).1
  ne := fun h => (stringText_head h.1 []).2
  bracket := fun _ => rfl

/-- a string starts with a quote -/
theorem stringText_quote {t x : Bytes} (h : StringText t x) : ∃ q r, t = q :: r ∧ (q = 0x27 ∨ q = 0x22) := by
  cases h with
  | mk hq _ _ => exact ⟨_, _, rfl, hq⟩

theorem pBracketList_none {p : Parser Bytes} {i : Bytes} (h : (dws i).head? ≠ some 0x5B) :
    pBracketList p i = none :=
  preceded_none (ws_none' (byte_none_of_head h))

theorem dws_append_noWs {w r : Bytes} (hw : Ws w) (hr : NoWs r) : dws (w ++ r) = r := by
  rw [dws_append hw, dws_of_noWs hr]

/-- `ws` around a sign -/
theorem wsSign_run {α : Type} {p : Parser α} {sg w Y : Bytes} {a : α} (hn : NoWs (sg ++ (w ++ Y)))
    (hw : Ws w) (hY : NoWs Y) (h : p (sg ++ (w ++ Y)) = some (a, w ++ Y)) :
    Pica.ws p (sg ++ (w ++ Y)) = some (a, Y) := by
  have := ws_run' (p := p) (i := sg ++ (w ++ Y)) (a := a) (r := w ++ Y) (by rw [dws_of_noWs hn]; exact h)
  rwa [dws_append_noWs hw hY] at this

section fails
variable {tq c X : Bytes} {q : Quantifier} {S : ByteSet}

theorem relation_fails (hq : QuantText false tq q) (hc : Padded (CodesText · S) c) (hX : AfterCodes X)
    (h : pRelOp X = none) : pSubRelation (tq ++ (c ++ X)) = none := by
  unfold pSubRelation
  refine map_none (withTaken_none ?_)
  refine quantCodes_none (K := seq (verify RelOp.strOk (Pica.ws pRelOp)) (Pica.ws pString)) hq hc hX ?_ ?_
  · exact seq_none (verify_none (ws_none' (by rw [dws_of_noWs hX.1]; exact h)))
  · intro y b hb
    refine seq_none (verify_none (ws_none' ?_))
    rw [dws_cons _ (by rcases hb with rfl | rfl <;> decide)]
    obtain ⟨e1, e2, e3, e4, e5, e6, e7, e8, e9, e10, e11, _⟩ := bs_ops
    unfold pRelOp
    simp only [e1, e2, e3, e4, e5, e6, e7, e8, e9, e10, e11]
    rcases hb with rfl | rfl <;> rfl

theorem contains_fails (hq : QuantText false tq q) (hc : Padded (CodesText · S) c) (hX : AfterCodes X)
    (h : lit (bs "=?") X = none) : pSubContains (tq ++ (c ++ X)) = none := by
  obtain ⟨cs, -, h1⟩ := quantCodes_run hq hc
  obtain ⟨r, h2, h3⟩ := h1 X hX
  unfold pSubContains
  refine map_none (withTaken_none (seq_none' h2 (seq_none' h3 (seq_none (ws_none' ?_)))))
  rw [dws_of_noWs hX.1]; exact h

theorem in_fails (hq : QuantText false tq q) (hc : Padded (CodesText · S) c) (hX : AfterCodes X)
    (h : lit (bs "not") X = none) (h' : lit (bs "in") X = none) : pSubIn (tq ++ (c ++ X)) = none := by
  obtain ⟨cs, -, h1⟩ := quantCodes_run hq hc
  obtain ⟨r, h2, h3⟩ := h1 X hX
  unfold pSubIn
  refine map_none (withTaken_none (seq_none' h2 (seq_none' h3 (seq_none' (map_run (opt_none (ws_none' ?_)))
    (preceded_none (ws_none' ?_))))))
  · rw [dws_of_noWs hX.1]; exact h
  · rw [dws_of_noWs hX.1]; exact h'

theorem pCodes_ws {b : Byte} (r : Bytes) (h : isMultispace b = true) : pCodes (b :: r) = none := by
  rcases (isMultispace_iff b).1 h with rfl | rfl | rfl | rfl <;> rfl

theorem exists_fails (hq : QuantText false tq q) (hc : Padded (CodesText · S) c) (hX : AfterCodes X)
    (h : X.head? ≠ some 0x3F) : pSubExists (tq ++ (c ++ X)) = none := by
  unfold pSubExists
  refine map_none (withTaken_none ?_)
  have hws : ∀ {w r : Bytes}, w ≠ [] → Ws w → terminated pCodes (byte 0x3F) (w ++ r) = none := by
    intro w r hne hw
    cases w with
    | nil => exact absurd rfl hne
    | cons b w => exact terminated_none (pCodes_ws _ (ws_multispace hw b (by simp)))
  rcases quantText_cases hq with ⟨rfl, rfl⟩ | ⟨w, w', rfl, hw, hw', -⟩
  · obtain ⟨w1, u, w2, rfl, h1, hu, h2⟩ := hc
    by_cases hne : w1 = []
    · subst hne
      obtain ⟨cs, -, h3, -⟩ := wsCodes_run hu
      have e : [] ++ ([] ++ u ++ w2 ++ X) = u ++ (w2 ++ X) := by simp
      rw [e]
      exact terminated_none' (h3 _) (byte_none_of_head (head_ws h2 h (by decide)))
    · rw [List.nil_append, List.append_assoc, List.append_assoc]
      exact hws hne h1
  · by_cases hne : w = []
    · subst hne
      have hA : CodesText [0x41] (fun x => x = 0x41) := .one _ (by unfold IsCode; decide)
      obtain ⟨cs, -, h3, -⟩ := wsCodes_run hA
      obtain ⟨b, y, hb, hb'⟩ : ∃ b y, [] ++ qSign q ++ w' ++ (c ++ X) = [0x41] ++ b :: y ∧
          (b = 0x4C ∨ b = 0x4E) := by
        cases q
        · exact ⟨0x4C, _, by simp only [qSign, bs_ALL]; rfl, .inl rfl⟩
        · exact ⟨0x4E, _, by simp only [qSign, bs_ANY]; rfl, .inr rfl⟩
      rw [hb]
      exact terminated_none' (h3 _) (byte_none_of_head (by rcases hb' with rfl | rfl <;> simp))
    · rw [List.append_assoc, List.append_assoc]
      exact hws hne hw

theorem card_fails (hq : QuantText false tq q) (hc : Padded (CodesText · S) c) :
    pSubCard (tq ++ (c ++ X)) = none := by
  unfold pSubCard
  refine map_none (withTaken_none (preceded_none (ws_none' (byte_none_of_head ?_))))
  obtain ⟨w1, u, w2, rfl, h1, hu, h2⟩ := hc
  obtain ⟨b, r, rfl, hb, -⟩ := codesText_head hu
  have hb' := codes_not hb (x := 0x23) (by simp)
  rcases quantText_cases hq with ⟨rfl, rfl⟩ | ⟨w, w', rfl, hw, hw', -⟩
  · rw [List.nil_append, List.append_assoc, List.append_assoc, List.cons_append,
      dws_append_noWs h1 (codeHead_noWs hb _)]
    simpa using hb'
  · rw [List.append_assoc, List.append_assoc, dws_append_noWs hw (qSign_noWs _ _)]
    cases q
    · rw [qSign, bs_ALL]; simp
    · rw [qSign, bs_ANY]; simp

end fails

/-- after white space there is a number sign: no quantifier and no codes -/
theorem hash_fails {β : Type} {K : Parser β} {sp : Bool} {i r : Bytes} (h : dws i = 0x23 :: r) :
    seq (pQuant sp) (seq (Pica.ws pCodes) K) i = none := by
  have hq : pQuantifier (0x23 :: r) = none := by
    unfold pQuantifier
    rw [bs_ALL, bs_ANY]; rfl
  have h1 : pQuant sp i = some (.any, i) := by
    unfold pQuant
    refine map_run (a := none) (opt_none (ws_none' ?_))
    rw [h]
    cases sp
    · exact hq
    · exact terminated_none hq
  exact seq_none' h1 (seq_none (ws_none' (by rw [h]; rfl)))

/-- no digit in front -/
def NoDigit (r : Bytes) : Prop := ∀ b, r.head? = some b → isDigit b = false

theorem pNumOp_run {op : RelOp} {Y : Bytes} (h : NumOp op) (hY : Y.head? ≠ some 0x3D) :
    pRelOp (relSign op ++ Y) = some (op, Y) := by
  obtain ⟨e1, e2, e3, e4, e5, e6, e7, e8, e9, e10, e11, _⟩ := bs_ops
  unfold pRelOp
  rcases h with rfl | rfl | rfl | rfl | rfl | rfl <;>
    simp only [relSign, e1, e2, e3, e4, e5, e6, e7, e8, e9, e10, e11]
  · rfl
  · rfl
  · cases Y with
    | nil => rfl
    | cons b Y =>
      have : b ≠ 0x3D := by simpa using hY
      simp [alt, value, map, lit, this]
  · rfl
  · cases Y with
    | nil => rfl
    | cons b Y =>
      have : b ≠ 0x3D := by simpa using hY
      simp [alt, value, map, lit, this]
  · rfl

theorem relSign_noWs (op : RelOp) (r : Bytes) : NoWs (relSign op ++ r) ∧
    (relSign op ++ r).head? ≠ some 0x4C ∧ (relSign op ++ r).head? ≠ some 0x4E := by
  obtain ⟨e1, e2, e3, e4, e5, e6, e7, e8, e9, e10, e11, _⟩ := bs_ops
  cases op <;> simp only [relSign, e1, e2, e3, e4, e5, e6, e7, e8, e9, e10, e11] <;>
    exact ⟨noWs_cons.2 (by decide), by simp, by simp⟩

theorem pUsize_run {ds r : Bytes} (h1 : ds ≠ []) (h2 : ∀ b ∈ ds, 0x30 ≤ b ∧ b ≤ 0x39)
    (h3 : numVal ds < 2 ^ 64) (hr : NoDigit r) : pUsize (ds ++ r) = some (numVal ds, r) :=
  verifyMap_eq_some.2 ⟨ds, takeWhileM_append (by have := List.length_pos_iff.2 h1; omega)
    (fun b hb => isDigit_iff'.2 (h2 b hb)) hr, parseUsize_eq_some.2 ⟨rfl, h3⟩⟩

theorem sign_after {a b : Byte} {Y : Bytes} (h : a = 0x3D ∨ a = 0x21 ∨ a = 0x69 ∨ a = 0x6E) :
    AfterCodes (a :: b :: Y) := by
  refine ⟨noWs_cons.2 ?_, ?_, ?_⟩ <;> rcases h with rfl | rfl | rfl | rfl <;> simp [isMultispace]

section main
variable (rx : Bytes → Bool) {E : Env} {o : Opts}

theorem relation_complete {tq q c S to op ts x w} (hq : QuantText true tq q)
    (hc : Padded (CodesText · S) c) (hto : Padded (· = relSign op) to) (hop : StrOp op)
    (hts : Padded (StringText · x) ts) (hw : Ws w) :
    ∃ m : SubSingle, m.eval E o = (fun sf => truth (Quant q S (RelHolds E o op x) sf)) ∧
      ∀ rest, NoWs rest →
        pSubSingle rx (tq ++ c ++ to ++ ts ++ w ++ rest) = some (m, rest) := by
  obtain ⟨wo, _, wo', rfl, h1, rfl, h2⟩ := hto
  obtain ⟨wt, u, wt', rfl, h3, hu, h4⟩ := hts
  obtain ⟨cs, hS, hrun⟩ := quantCodes_run hq (padded_append hc h1)
  obtain ⟨f, hf, hf'⟩ := relCheck_some (E := E) (o := o) (strOk_iff.2 hop) x
  refine ⟨.relation q cs op x (trimAscii (tq ++ c ++ (wo ++ relSign op ++ wo') ++ (wt ++ u ++ wt') ++ w)),
    ?_, fun rest hr => ?_⟩
  · funext sf
    simp only [SubSingle.eval, hf]
    exact run_truth hS q hf' sf
  · refine alt_left ?_
    unfold pSubRelation
    refine map_run (a := ((q, cs, op, x), tq ++ c ++ (wo ++ relSign op ++ wo') ++ (wt ++ u ++ wt') ++ w))
      (withTaken_run ?_ rfl)
    have e : tq ++ c ++ (wo ++ relSign op ++ wo') ++ (wt ++ u ++ wt') ++ w ++ rest =
      tq ++ ((c ++ wo) ++ (relSign op ++ ((wo' ++ wt) ++ (u ++ ((wt' ++ w) ++ rest))))) := by simp
    rw [e]
    obtain ⟨n1, n2, n3⟩ := relSign_noWs op ((wo' ++ wt) ++ (u ++ ((wt' ++ w) ++ rest)))
    obtain ⟨r, g1, g2⟩ := hrun _ ⟨n1, n2, n3⟩
    have hs := stringText_head hu ((wt' ++ w) ++ rest)
    refine seq_run g1 (seq_run g2 (seq_run (verify_run (wsSign_run n1 (ws_append h2 h3) hs.1
      (pRelOp_run hop _)) (strOk_iff.2 hop)) ?_))
    exact wsSign_run hs.1 (ws_append h4 hw) hr (pString_complete hu _)

theorem lit2_none {a b : Byte} {s : String} {c : Byte} {t Y : Bytes} (hs : bs s = c :: t)
    (h : a ≠ c) : lit (bs s) (a :: b :: Y) = none := by
  rw [hs]
  exact lit_none_of_head (by simpa using h)

theorem pRelOp_none2 {a b : Byte} {Y : Bytes}
    (h : (a = 0x3D ∧ (b = 0x3F ∨ b = 0x7E)) ∨ (a = 0x21 ∧ b = 0x7E) ∨ a = 0x69 ∨ a = 0x6E) :
    pRelOp (a :: b :: Y) = none := by
  obtain ⟨e1, e2, e3, e4, e5, e6, e7, e8, e9, e10, e11, _⟩ := bs_ops
  unfold pRelOp
  simp only [e1, e2, e3, e4, e5, e6, e7, e8, e9, e10, e11]
  rcases h with ⟨rfl, rfl | rfl⟩ | ⟨rfl, rfl⟩ | rfl | rfl
  · rfl
  · rfl
  · rfl
  · simp [alt, value, map, lit]
  · simp [alt, value, map, lit]

theorem contains_complete {tq q c S to ts xs w} (hq : QuantText false tq q)
    (hc : Padded (CodesText · S) c) (hto : Padded (· = bs "=?") to)
    (hts : ListText StringText ts xs ∨ ∃ x, xs = [x] ∧ Padded (StringText · x) ts) (hw : Ws w) :
    ∃ m : SubSingle, m.eval E o = (fun sf =>
        truth (Quant q S (fun v => ∃ x ∈ xs, ∃ y z, fold E o v = y ++ fold E o x ++ z) sf)) ∧
      ∀ rest, NoWs rest →
        pSubSingle rx (tq ++ c ++ to ++ ts ++ w ++ rest) = some (m, rest) := by
  obtain ⟨wo, _, wo', rfl, h1, rfl, h2⟩ := hto
  obtain ⟨e1, e2, e3, e4, e5, e6, e7, e8, e9, e10, e11, e12, e13, e14, e15⟩ := bs_ops
  obtain ⟨cs, hS, hrun⟩ := quantCodes_run hq (padded_append hc h1)
  refine ⟨.contains q cs xs (tq ++ c ++ (wo ++ bs "=?" ++ wo') ++ ts ++ w),
    ?_, fun rest hr => ?_⟩
  · funext sf
    exact run_truth hS q (fun v => containsCheck_iff E o xs v) sf
  · have e : tq ++ c ++ (wo ++ bs "=?" ++ wo') ++ ts ++ w ++ rest =
      tq ++ ((c ++ wo) ++ (bs "=?" ++ (wo' ++ (ts ++ (w ++ rest))))) := by simp
    have hX : AfterCodes (bs "=?" ++ (wo' ++ (ts ++ (w ++ rest)))) := by
      rw [e12]; exact sign_after (.inl rfl)
    unfold pSubSingle
    rw [alt_right]
    · refine alt_left ?_
      unfold pSubContains
      refine map_run (a := ((q, cs, (), xs), tq ++ c ++ (wo ++ bs "=?" ++ wo') ++ ts ++ w))
        (withTaken_run ?_ rfl)
      rw [e]
      obtain ⟨r, g1, g2⟩ := hrun _ hX
      have g3 : Pica.ws (lit (bs "=?")) (bs "=?" ++ (wo' ++ (ts ++ (w ++ rest)))) =
          some ((), dws (wo' ++ (ts ++ (w ++ rest)))) := by
        refine ws_run' ?_
        rw [dws_of_noWs hX.1]; exact lit_run _ _
      refine seq_run g1 (seq_run g2 (seq_run g3 ?_))
      rw [dws_append h2]
      rcases hts with hl | ⟨x, rfl, wt, u, wt', rfl, h3, hu, h4⟩
      · obtain ⟨a1, a2, items, tail, a3, a4, rfl, b1, b2, b3, b4, b5, b6⟩ := hl
        refine alt_left ?_
        have := pBracketList_run stringRuns (t := [] ++ [0x5B] ++ a2 ++ items ++ tail ++ a3 ++ [0x5D] ++ (a4 ++ w))
          (rest := rest) ⟨[], a2, items, tail, a3, a4 ++ w, rfl, by simp [Ws], b2, b3, b4, b5, ws_append b6 hw⟩ hr
        rw [← this]
        congr 1
        simp only [List.append_assoc, List.nil_append]
        rw [dws_append b1]
        exact dws_cons _ (by decide)
      · have hs := stringText_head hu ((wt' ++ w) ++ rest)
        have e : dws (wt ++ u ++ wt' ++ (w ++ rest)) = u ++ ((wt' ++ w) ++ rest) := by
          simp only [List.append_assoc] at hs ⊢
          rw [dws_append_noWs h3 hs.1]
        rw [e, alt_right]
        · exact map_run (wsSign_run hs.1 (ws_append h4 hw) hr (pString_complete hu _))
        · refine pBracketList_none ?_
          rw [dws_of_noWs hs.1]
          obtain ⟨qt, r', rfl, hqt⟩ := stringText_quote hu
          rcases hqt with rfl | rfl <;> simp
    · rw [e]
      refine relation_fails hq (padded_append hc h1) hX ?_
      rw [e12]
      exact pRelOp_none2 (.inl ⟨rfl, .inl rfl⟩)

/-- a list after white space has been skipped -/
theorem list_run {R : Bytes → Bytes → Prop} {p : Parser Bytes} (hp : ItemRuns p R) {ts xs w rest}
    (hl : ListText R ts xs) (hw : Ws w) (hr : NoWs rest) :
    pBracketList p (dws (ts ++ (w ++ rest))) = some (xs, rest) := by
  obtain ⟨a1, a2, items, tail, a3, a4, rfl, b1, b2, b3, b4, b5, b6⟩ := hl
  have := pBracketList_run hp (t := [] ++ [0x5B] ++ a2 ++ items ++ tail ++ a3 ++ [0x5D] ++ (a4 ++ w))
    (rest := rest) ⟨[], a2, items, tail, a3, a4 ++ w, rfl, by simp [Ws], b2, b3, b4, b5, ws_append b6 hw⟩ hr
  rw [← this]
  congr 1
  simp only [List.append_assoc, List.nil_append]
  rw [dws_append b1]
  exact dws_cons _ (by decide)

theorem string_noList {p : Parser Bytes} {u x r : Bytes} (hu : StringText u x) :
    pBracketList p (u ++ r) = none := by
  refine pBracketList_none ?_
  rw [dws_of_noWs (stringText_head hu r).1]
  obtain ⟨qt, r', rfl, hqt⟩ := stringText_quote hu
  rcases hqt with rfl | rfl <;> simp

theorem charsOf_flatten {cs : List Char} {xs : List Bytes} (h1 : 1 < cs.length)
    (h2 : xs = cs.map String.utf8EncodeChar) : charsOf xs.flatten = some xs := by
  subst h2
  unfold charsOf
  rw [← List.flatMap_def, utf8Chars_encode]
  simp [h1]

/-- the `not` of `not in` -/
theorem notIn_run {tn ti : Bytes} {inv : Bool} (hn : (inv = false ∧ tn = []) ∨ (inv = true ∧ Padded (· = bs "not") tn))
    (hi : Padded (· = bs "in") ti) : ∃ wx X0, tn ++ ti = wx ++ X0 ∧ Ws wx ∧
      (∃ a b Y, X0 = a :: b :: Y ∧ (a = 0x69 ∨ a = 0x6E)) ∧ ∀ Y, ∃ r,
        map Option.isSome (opt (Pica.ws (lit (bs "not")))) (X0 ++ Y) = some (inv, r) ∧
        Pica.ws (lit (bs "in")) r = some ((), dws Y) := by
  obtain ⟨wi, _, wi', rfl, h1, rfl, h2⟩ := hi
  obtain ⟨e1, e2, e3, e4, e5, e6, e7, e8, e9, e10, e11, e12, e13, e14, e15⟩ := bs_ops
  have hin : ∀ Y, NoWs (bs "in" ++ Y) := fun Y => by rw [e13]; exact noWs_cons.2 (by decide)
  have hnot : ∀ Y, NoWs (bs "not" ++ Y) := fun Y => by rw [e14]; exact noWs_cons.2 (by decide)
  have hlit : ∀ i Y, dws i = bs "in" ++ (wi' ++ Y) → Pica.ws (lit (bs "in")) i = some ((), dws Y) := by
    intro i Y hi
    rw [← dws_append h2]
    exact ws_run' (by rw [hi]; exact lit_run _ _)
  rcases hn with ⟨rfl, rfl⟩ | ⟨rfl, wn, _, wn', rfl, h3, rfl, h4⟩
  · refine ⟨wi, bs "in" ++ wi', by simp, h1, ⟨0x69, 0x6E, wi', by rw [e13]; rfl, .inl rfl⟩, fun Y => ?_⟩
    refine ⟨bs "in" ++ wi' ++ Y, map_run (a := none) (opt_none (ws_none' ?_)), hlit _ _ ?_⟩
    · rw [List.append_assoc, dws_of_noWs (hin _), e13, e14]
      rfl
    · rw [List.append_assoc, dws_of_noWs (hin _)]
  · refine ⟨wn, bs "not" ++ wn' ++ (wi ++ bs "in" ++ wi'), by simp, h3,
      ⟨0x6E, 0x6F, [0x74] ++ wn' ++ (wi ++ bs "in" ++ wi'), by rw [e14]; simp, .inr rfl⟩, fun Y => ?_⟩
    refine ⟨dws (wn' ++ (wi ++ bs "in" ++ wi' ++ Y)), map_run (a := some ()) (opt_run (ws_run' ?_)), hlit _ _ ?_⟩
    · rw [List.append_assoc, List.append_assoc, dws_of_noWs (hnot _), List.append_assoc]
      exact lit_run _ _
    · rw [dws_dws, dws_append h4, List.append_assoc, List.append_assoc, dws_append_noWs h1 (hin _)]

theorem in_complete {tq q c S tn inv ti ts xs w} (hq : QuantText false tq q)
    (hc : Padded (CodesText · S) c)
    (hn : (inv = false ∧ tn = []) ∨ (inv = true ∧ Padded (· = bs "not") tn))
    (hi : Padded (· = bs "in") ti)
    (hts : ListText StringText ts xs ∨ ∃ cs : List Char, 1 < cs.length ∧
      xs = cs.map String.utf8EncodeChar ∧ StringText ts xs.flatten) (hw : Ws w) :
    ∃ m : SubSingle, m.eval E o = (fun sf => truth (Quant q S (fun v =>
          if inv then ∀ x ∈ xs, fold E o v ≠ fold E o x else ∃ x ∈ xs, fold E o v = fold E o x) sf)) ∧
      ∀ rest, NoWs rest → ∃ r',
        pSubSingle rx (tq ++ c ++ tn ++ ti ++ ts ++ w ++ rest) = some (m, r') ∧ dws r' = rest := by
  obtain ⟨e1, e2, e3, e4, e5, e6, e7, e8, e9, e10, e11, e12, e13, e14, e15⟩ := bs_ops
  obtain ⟨wx, X0, hX0, hwx, ⟨a, b, Y0, rfl, hab⟩, hnot⟩ := notIn_run hn hi
  obtain ⟨cs, hS, hrun⟩ := quantCodes_run hq (padded_append hc hwx)
  have heval : ∀ raw, (SubSingle.isIn q cs xs inv raw).eval E o = (fun sf => truth (Quant q S (fun v =>
          if inv then ∀ x ∈ xs, fold E o v ≠ fold E o x else ∃ x ∈ xs, fold E o v = fold E o x) sf)) := by
    intro raw
    funext sf
    exact run_truth hS q (fun v => inCheck_iff E o xs inv v) sf
  have hX : ∀ Y, AfterCodes ((a :: b :: Y0) ++ Y) := fun Y => sign_after (.inr (.inr hab))
  have hrel : ∀ Y, pSubRelation (tq ++ ((c ++ wx) ++ ((a :: b :: Y0) ++ Y))) = none := fun Y =>
    relation_fails hq (padded_append hc hwx) (hX Y) (pRelOp_none2 (.inr (.inr hab)))
  have hcon : ∀ Y, pSubContains (tq ++ ((c ++ wx) ++ ((a :: b :: Y0) ++ Y))) = none := fun Y =>
    contains_fails hq (padded_append hc hwx) (hX Y) (lit2_none e12 (by rcases hab with rfl | rfl <;> decide))
  have happ : ∀ Y, tq ++ c ++ tn ++ ti ++ Y = tq ++ ((c ++ wx) ++ ((a :: b :: Y0) ++ Y)) := by
    intro Y
    have : tq ++ c ++ tn ++ ti ++ Y = tq ++ (c ++ ((tn ++ ti) ++ Y)) := by simp
    rw [this, hX0]; simp
  have main : ∀ (Y r' raw : Bytes), alt (pBracketList pString) (verifyMap charsOf pString) (dws Y) = some (xs, r') →
      tq ++ c ++ tn ++ ti ++ Y = raw ++ r' →
      pSubSingle rx (tq ++ c ++ tn ++ ti ++ Y) = some (.isIn q cs xs inv raw, r') := by
    intro Y r' raw h1 h2
    obtain ⟨r1, g1, g2⟩ := hrun _ (hX Y)
    obtain ⟨r2, g3, g4⟩ := hnot Y
    unfold pSubSingle
    rw [alt_right, alt_right]
    · refine alt_left ?_
      unfold pSubIn
      refine map_run (a := ((q, cs, inv, xs), raw)) (withTaken_run ?_ h2)
      rw [happ]
      exact seq_run g1 (seq_run g2 (seq_run g3 (preceded_run g4 h1)))
    · rw [happ]; exact hcon Y
    · rw [happ]; exact hrel Y
  rcases hts with hl | ⟨chars, hc1, hc2, hu⟩
  · refine ⟨_, heval (tq ++ c ++ tn ++ ti ++ ts ++ w), fun rest hr => ⟨rest, ?_, dws_of_noWs hr⟩⟩
    have := main (ts ++ (w ++ rest)) rest (tq ++ c ++ tn ++ ti ++ ts ++ w)
      (alt_left (list_run stringRuns hl hw hr)) (by simp)
    simpa using this
  · refine ⟨_, heval (tq ++ c ++ tn ++ ti ++ ts), fun rest hr => ⟨w ++ rest, ?_, dws_append_noWs hw hr⟩⟩
    have := main (ts ++ (w ++ rest)) (w ++ rest) (tq ++ c ++ tn ++ ti ++ ts) (by
      rw [dws_of_noWs (stringText_head hu _).1, alt_right (string_noList hu)]
      exact verifyMap_eq_some.2 ⟨_, pString_complete hu _, charsOf_flatten hc1 hc2⟩) (by simp)
    simpa using this

theorem bs_rx : bs "=~" = [0x3D, 0x7E] ∧ bs "!~" = [0x21, 0x7E] := by decide +kernel

/-- up to the operator `=~` or `!~`, and what fails there -/
theorem regex_head {tq q c S to} {inv : Bool} (hq : QuantText false tq q) (hc : Padded (CodesText · S) c)
    (hto : Padded (· = if inv then bs "!~" else bs "=~") to) :
    ∃ cs, SetOf cs S ∧ ∀ Y, (∃ r1 r2, pQuant false (tq ++ c ++ to ++ Y) = some (q, r1) ∧
        Pica.ws pCodes r1 = some (cs, r2) ∧ Pica.ws pRegexOp r2 = some (inv, dws Y)) ∧
      pSubSingle rx (tq ++ c ++ to ++ Y) = alt (pSubRegexSet rx) (pSubRegex rx) (tq ++ c ++ to ++ Y) := by
  obtain ⟨wo, _, wo', rfl, h1, rfl, h2⟩ := hto
  obtain ⟨e1, e2, e3, e4, e5, e6, e7, e8, e9, e10, e11, e12, e13, e14, e15⟩ := bs_ops
  obtain ⟨cs, hS, hrun⟩ := quantCodes_run hq (padded_append hc h1)
  obtain ⟨a, hsg, ha⟩ : ∃ a, (if inv then bs "!~" else bs "=~") = [a, 0x7E] ∧ (a = 0x3D ∨ a = 0x21) := by
    cases inv
    · exact ⟨0x3D, bs_rx.1, .inl rfl⟩
    · exact ⟨0x21, bs_rx.2, .inr rfl⟩
  have hop : ∀ Y, pRegexOp ([a, 0x7E] ++ Y) = some (inv, Y) := by
    intro Y
    rw [← hsg]
    unfold pRegexOp
    cases inv
    · exact alt_left (map_run (lit_run _ _))
    · rw [alt_right]
      · exact map_run (lit_run _ _)
      · rw [bs_rx.1]
        simp only [if_true, bs_rx.2]
        rfl
  have hX : ∀ Y, AfterCodes ([a, 0x7E] ++ Y) := fun Y => sign_after (by
    rcases ha with h | h
    · exact .inl h
    · exact .inr (.inl h))
  refine ⟨cs, hS, fun Y => ?_⟩
  have e : tq ++ c ++ (wo ++ (if inv then bs "!~" else bs "=~") ++ wo') ++ Y =
      tq ++ ((c ++ wo) ++ ([a, 0x7E] ++ (wo' ++ Y))) := by rw [hsg]; simp
  rw [e]
  constructor
  · obtain ⟨r, g1, g2⟩ := hrun _ (hX (wo' ++ Y))
    refine ⟨r, _, g1, g2, ?_⟩
    rw [← dws_append h2]
    refine ws_run' ?_
    rw [dws_of_noWs (hX _).1]
    exact hop _
  · unfold pSubSingle
    rw [alt_right, alt_right, alt_right, alt_right, alt_right]
    · exact card_fails hq (padded_append hc h1)
    · exact exists_fails hq (padded_append hc h1) (hX _) (by rcases ha with rfl | rfl <;> simp)
    · exact in_fails hq (padded_append hc h1) (hX _)
        (lit2_none e14 (by rcases ha with rfl | rfl <;> decide))
        (lit2_none e13 (by rcases ha with rfl | rfl <;> decide))
    · refine contains_fails hq (padded_append hc h1) (hX _) ?_
      rw [e12]
      rcases ha with rfl | rfl
      · exact lit_none_of_second (by decide)
      · exact lit_none_of_head (by simp)
    · refine relation_fails hq (padded_append hc h1) (hX _) (pRelOp_none2 ?_)
      rcases ha with rfl | rfl
      · exact .inl ⟨rfl, .inr rfl⟩
      · exact .inr (.inl ⟨rfl, rfl⟩)

theorem regexSet_complete {tq q c S to ts xs w} {inv : Bool} (hq : QuantText false tq q)
    (hc : Padded (CodesText · S) c) (hto : Padded (· = if inv then bs "!~" else bs "=~") to)
    (hts : ListText (RegexText rx) ts xs) (hw : Ws w) :
    ∃ m : SubSingle, m.eval E o = rxDen (E.regexSet o.caseIgnore xs) q S inv ∧
      ∀ rest, NoWs rest →
        pSubSingle rx (tq ++ c ++ to ++ ts ++ w ++ rest) = some (m, rest) := by
  obtain ⟨cs, hS, h⟩ := regex_head rx hq hc hto
  refine ⟨.regexSet q cs xs inv (tq ++ c ++ to ++ ts ++ w), ?_, fun rest hr => ?_⟩
  · funext sf
    rw [← rx_run hS]; rfl
  · obtain ⟨⟨r1, r2, g1, g2, g3⟩, g4⟩ := h (ts ++ (w ++ rest))
    have e : tq ++ c ++ to ++ ts ++ w ++ rest = tq ++ c ++ to ++ (ts ++ (w ++ rest)) := by simp
    rw [e, g4]
    refine alt_left ?_
    unfold pSubRegexSet
    refine map_run (a := ((q, cs, inv, xs), tq ++ c ++ to ++ ts ++ w)) (withTaken_run ?_ (by simp))
    exact seq_run g1 (seq_run g2 (seq_run g3 (list_run (regexRuns rx) hts hw hr)))

theorem regexOne_complete {tq q c S to ts x w} {inv : Bool} (hq : QuantText false tq q)
    (hc : Padded (CodesText · S) c) (hto : Padded (· = if inv then bs "!~" else bs "=~") to)
    (hts : RegexText rx ts x) (hw : Ws w) :
    ∃ m : SubSingle, m.eval E o = rxDen (E.regex o.caseIgnore x) q S inv ∧
      ∀ rest, NoWs rest → ∃ r',
        pSubSingle rx (tq ++ c ++ to ++ ts ++ w ++ rest) = some (m, r') ∧ dws r' = rest := by
  obtain ⟨cs, hS, h⟩ := regex_head rx hq hc hto
  refine ⟨.regex q cs x inv (tq ++ c ++ to ++ ts), ?_, fun rest hr => ⟨w ++ rest, ?_, dws_append_noWs hw hr⟩⟩
  · funext sf
    rw [← rx_run hS]; rfl
  · obtain ⟨⟨r1, r2, g1, g2, g3⟩, g4⟩ := h (ts ++ (w ++ rest))
    have e : tq ++ c ++ to ++ ts ++ w ++ rest = tq ++ c ++ to ++ (ts ++ (w ++ rest)) := by simp
    rw [e, g4]
    rw [dws_of_noWs (stringText_head hts.1 _).1] at g3
    rw [alt_right]
    · unfold pSubRegex
      refine map_run (a := ((q, cs, inv, x), tq ++ c ++ to ++ ts)) (withTaken_run ?_ (by simp))
      exact seq_run g1 (seq_run g2 (seq_run g3 ((regexRuns rx).run hts _)))
    · unfold pSubRegexSet
      exact map_none (withTaken_none (seq_none' g1 (seq_none' g2 (seq_none' g3 (string_noList hts.1)))))

theorem card_complete {th c S to op ds w} (hth : Padded (· = bs "#") th) (hc : Padded (CodesText · S) c)
    (hto : Padded (· = relSign op) to) (hop : NumOp op) (hne : ds ≠ [])
    (hds : ∀ b ∈ ds, 0x30 ≤ b ∧ b ≤ 0x39) (hlt : numVal ds < 2 ^ 64) (hw : Ws w) :
    ∃ m : SubSingle, m.eval E o = (fun sf => truth (NumHolds op (countCodes S sf) (numVal ds))) ∧
      ∀ rest, NoWs rest → NoDigit rest → ∃ r',
        pSubSingle rx (th ++ c ++ to ++ ds ++ w ++ rest) = some (m, r') ∧ dws r' = rest := by
  obtain ⟨wh, _, wh', rfl, a1, rfl, a2⟩ := hth
  obtain ⟨w1, u, w2, rfl, b1, hu, b2⟩ := hc
  obtain ⟨wo, _, wo', rfl, h1, rfl, h2⟩ := hto
  obtain ⟨cs, hS, hrun⟩ := wsCodes_padded (w1 := []) hu (by simp [Ws]) (ws_append b2 h1)
  have hh : bs "#" = [0x23] := by decide +kernel
  obtain ⟨n1, n2⟩ := codesText_noWs hu
  obtain ⟨d0, dr, rfl⟩ : ∃ d0 dr, ds = d0 :: dr := by
    cases ds with
    | nil => exact absurd rfl hne
    | cons d0 dr => exact ⟨d0, dr, rfl⟩
  have hd0 := hds d0 (by simp)
  have hdw : ∀ Y, NoWs (d0 :: dr ++ Y) := fun Y => noWs_cons.2 (by
    cases hm : isMultispace d0 with
    | false => rfl
    | true =>
      rcases (isMultispace_iff d0).1 hm with rfl | rfl | rfl | rfl <;> revert hd0 <;> decide)
  refine ⟨.card cs op (numVal (d0 :: dr)) (wh ++ bs "#" ++ wh' ++ (w1 ++ u ++ w2) ++ (wo ++ relSign op ++ wo') ++
    (d0 :: dr)), ?_, fun rest hr hnd => ⟨w ++ rest, ?_, dws_append_noWs hw hr⟩⟩
  · funext sf
    simp only [SubSingle.eval]
    rw [cardCheck_some (usizeOk_iff.2 hop), length_pick hS]
  · have hdig : NoDigit (w ++ rest) := by
      cases w with
      | nil => exact hnd
      | cons b w =>
        intro x hx
        simp only [List.cons_append, List.head?_cons, Option.some.injEq] at hx
        subst hx
        rcases hw b (by simp) with rfl | rfl | rfl | rfl <;> decide
    have e : wh ++ bs "#" ++ wh' ++ (w1 ++ u ++ w2) ++ (wo ++ relSign op ++ wo') ++ (d0 :: dr) ++ w ++ rest =
        wh ++ [0x23] ++ wh' ++ (w1 ++ (u ++ ((w2 ++ wo) ++ (relSign op ++ (wo' ++ (d0 :: dr ++ (w ++ rest))))))) := by
      rw [hh]; simp
    have hd : dws (wh ++ [0x23] ++ wh' ++ (w1 ++ (u ++ ((w2 ++ wo) ++ (relSign op ++ (wo' ++ (d0 :: dr ++ (w ++ rest)))))))) =
        0x23 :: (wh' ++ (w1 ++ (u ++ ((w2 ++ wo) ++ (relSign op ++ (wo' ++ (d0 :: dr ++ (w ++ rest)))))))) := by
      rw [List.append_assoc, List.append_assoc, dws_append a1]
      exact dws_cons _ (by decide)
    unfold pSubSingle
    rw [alt_right, alt_right, alt_right, alt_right]
    · refine alt_left ?_
      unfold pSubCard
      refine map_run (a := ((cs, op, numVal (d0 :: dr)), wh ++ bs "#" ++ wh' ++ (w1 ++ u ++ w2) ++
        (wo ++ relSign op ++ wo') ++ (d0 :: dr))) (withTaken_run ?_ (by simp))
      rw [e]
      have g1 := wsByte_run (b := 0x23) (r := w1 ++ (u ++ ((w2 ++ wo) ++ (relSign op ++ (wo' ++ (d0 :: dr ++ (w ++ rest)))))))
        (by decide) a1 a2
      rw [dws_append_noWs b1 (noWs_append n2 n1)] at g1
      have g2 := (hrun (relSign op ++ (wo' ++ (d0 :: dr ++ (w ++ rest)))) (relSign_noWs _ _).1).1
      have e2 : [] ++ u ++ (w2 ++ wo) ++ (relSign op ++ (wo' ++ (d0 :: dr ++ (w ++ rest)))) =
          u ++ ((w2 ++ wo) ++ (relSign op ++ (wo' ++ (d0 :: dr ++ (w ++ rest))))) := by simp
      rw [e2] at g2
      refine preceded_run g1 (seq_run g2 (seq_run (verify_run (wsSign_run (relSign_noWs _ _).1 h2 (hdw _)
        (pNumOp_run hop ?_)) (usizeOk_iff.2 hop)) (pUsize_run hne hds hlt hdig)))
      refine head_ws h2 ?_ (by decide)
      intro hx
      simp only [List.cons_append, List.head?_cons, Option.some.injEq] at hx
      subst hx
      revert hd0; decide
    · rw [e]
      unfold pSubExists
      refine map_none (withTaken_none (terminated_none ?_))
      cases wh with
      | nil => rfl
      | cons b wh => exact pCodes_ws _ (ws_multispace a1 b (by simp))
    · rw [e]; exact map_none (withTaken_none (hash_fails (sp := false) hd))
    · rw [e]; exact map_none (withTaken_none (hash_fails (sp := false) hd))
    · rw [e]; exact map_none (withTaken_none (hash_fails (sp := true) hd))

theorem exists_complete {c S w} (hc : CodesText c S) (hw : Ws w) :
    ∃ m : SubSingle, m.eval E o = (fun sf => truth (∃ s ∈ sf, S s.code)) ∧
      ∀ rest, NoWs rest → ∃ r', pSubSingle rx (c ++ bs "?" ++ w ++ rest) = some (m, r') ∧ dws r' = rest := by
  obtain ⟨m, h1, h2⟩ := existsText_run rx (E := E) (o := o) hc hw
  exact ⟨m, h1, h2⟩

/-- Every simple subfield matcher of the grammar is read, whatever follows, as
long as it is no digit. -/
theorem subText_run {t : Bytes} {v : Den (List Subfield)} (h : SubText rx E o t v) {w : Bytes} (hw : Ws w) :
    ∃ m : SubSingle, m.eval E o = v ∧ ∀ rest, NoWs rest → NoDigit rest →
      ∃ r', pSubSingle rx (t ++ w ++ rest) = some (m, r') ∧ dws r' = rest := by
  cases h with
  | «exists» hc =>
    obtain ⟨m, h1, h2⟩ := exists_complete rx (E := E) (o := o) hc hw
    exact ⟨m, h1, fun rest hr _ => h2 rest hr⟩
  | relation h1 h2 h3 h4 h5 =>
    obtain ⟨m, h1, h2⟩ := relation_complete rx (E := E) (o := o) h1 h2 h3 h4 h5 hw
    exact ⟨m, h1, fun rest hr _ => ⟨rest, h2 rest hr, dws_of_noWs hr⟩⟩
  | contains h1 h2 h3 h4 =>
    obtain ⟨m, h1, h2⟩ := contains_complete rx (E := E) (o := o) h1 h2 h3 h4 hw
    exact ⟨m, h1, fun rest hr _ => ⟨rest, h2 rest hr, dws_of_noWs hr⟩⟩
  | isIn h1 h2 h3 h4 h5 =>
    obtain ⟨m, h1, h2⟩ := in_complete rx (E := E) (o := o) h1 h2 h3 h4 h5 hw
    exact ⟨m, h1, fun rest hr _ => h2 rest hr⟩
  | regex h1 h2 h3 h4 =>
    obtain ⟨m, h1, h2⟩ := regexOne_complete rx (E := E) (o := o) h1 h2 h3 h4 hw
    exact ⟨m, h1, fun rest hr _ => h2 rest hr⟩
  | regexSet h1 h2 h3 h4 =>
    obtain ⟨m, h1, h2⟩ := regexSet_complete rx (E := E) (o := o) h1 h2 h3 h4 hw
    exact ⟨m, h1, fun rest hr _ => ⟨rest, h2 rest hr, dws_of_noWs hr⟩⟩
  | card h1 h2 h3 h4 h5 h6 h7 => exact card_complete rx h1 h2 h3 h4 h5 h6 h7 hw

end main

end Pica
