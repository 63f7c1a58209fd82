import Verif.Lemmas.Group

/-! The field operands of `Spec.Sequence` are read by the parsers. -/

namespace Pica
open Spec Parser

/-! ## Tags, occurrences, quantifiers -/

/-- a tag does not start like a quantifier, a parenthesis, `#` or `!` -/
theorem tagText_head {t m} (h : TagMatcher.new t = some m) (r : Bytes) :
    (t ++ r).head? ≠ some 0x41 ∧ (t ++ r).head? ≠ some 0x28 ∧ (t ++ r).head? ≠ some 0x23 ∧
      (t ++ r).head? ≠ some 0x21 := by
  have h := parseAll_eq_some.1 h
  cases t with
  | nil =>
    have : pTagMatcher [] = none := rfl
    rw [this] at h; simp at h
  | cons b t =>
    have key : ∀ c, pTagMatcher (c :: t) = none → b ≠ c := by
      intro c hc e
      rw [e, hc] at h; cases h
    simp only [List.cons_append, List.head?_cons, ne_eq, Option.some.injEq]
    exact ⟨key _ rfl, key _ rfl, key _ rfl, key _ rfl⟩

theorem occText_cases {t m} (h : OccMatcher.new t = some m) : t = [] ∨ ∃ r, t = 0x2F :: r := by
  have h := parseAll_eq_some.1 h
  unfold pOccMatcher at h
  rcases alt_eq_some.1 h with h | ⟨_, h⟩
  · obtain ⟨b, r1, h1, h2⟩ := preceded_eq_some.1 h
    obtain ⟨rfl, rfl⟩ := byte_eq_some.1 h1
    exact .inr ⟨_, rfl⟩
  · simp at h
    exact .inl h.2

theorem occStop_ws {w r : Bytes} (hw : Ws w) (hr : OccStop r) : OccStop (w ++ r) := by
  cases w with
  | nil => exact hr
  | cons b w =>
    refine OccStop.cons ?_
    rcases (hw b (by simp)) with rfl | rfl | rfl | rfl <;> decide

/-- tag and occurrence -/
theorem selects_run {t to sel} (h : Selects t to sel) : ∃ m om, (sel = fun f => fieldSel m om f = true) ∧
    TagMatcher.new t = some m ∧ OccMatcher.new to = some om ∧
    ∀ r, OccStop r → seq pTagMatcher pOccMatcher (t ++ (to ++ r)) = some ((m, om), r) := by
  obtain ⟨m, om, h1, h2, rfl⟩ := h
  refine ⟨m, om, ?_, h1, h2, fun r hr => seq_run (pTagMatcher_follow h1) (pOccMatcher_follow h2 hr)⟩
  funext f
  simp [fieldSel]

theorem pQuantifier_noA {i : Bytes} (h : i.head? ≠ some 0x41) : pQuantifier i = none := by
  unfold pQuantifier
  rw [bs_ALL, bs_ANY, alt_right]
  · exact map_none (lit_none_of_head h)
  · exact map_none (lit_none_of_head h)

/-- the quantifier in front of a tag -/
theorem fieldQuant_run {tq q} (hq : QuantText false tq q) {r : Bytes} (h : NoWs r)
    (hA : r.head? ≠ some 0x41) :
    map Quantifier.orDefault (opt (Pica.ws pQuantifier)) (tq ++ r) = some (q, r) := by
  rcases quantText_cases hq with ⟨rfl, rfl⟩ | ⟨w, w', rfl, hw, hw', -⟩
  · exact map_run (a := none) (opt_none (ws_none' (by
      rw [List.nil_append, dws_of_noWs h]; exact pQuantifier_noA hA)))
  · have := pQuant_sign (sp := false) (q := q) (r := r) hw hw' (by simp)
    rw [dws_of_noWs h] at this
    exact this

theorem pFieldHead_run {tq q t to sel} (hq : QuantText false tq q) (h : Selects t to sel) :
    ∃ m om, (sel = fun f => fieldSel m om f = true) ∧
      ∀ r, OccStop r → pFieldHead (tq ++ (t ++ (to ++ r))) = some ((q, m, om), r) := by
  obtain ⟨m, om, h1, h2, h3, h4⟩ := selects_run h
  refine ⟨m, om, h1, fun r hr => ?_⟩
  exact seq_run (fieldQuant_run hq (tagText_noWs h2 _).1 (tagText_head h2 _).1) (h4 r hr)

/-- the text of quantifier, tag and occurrence -/
theorem fieldHead_noWs {tq q t to sel} (hq : QuantText false tq q) (hu : Unled tq) (h : Selects t to sel)
    (r : Bytes) : NoWs (tq ++ (t ++ r)) ∧ tq ++ (t ++ r) ≠ [] ∧ (tq ++ (t ++ r)).head? ≠ some 0x28 ∧
      (tq ++ (t ++ r)).head? ≠ some 0x23 ∧ (tq ++ (t ++ r)).head? ≠ some 0x21 := by
  obtain ⟨m, om, -, h2, -, -⟩ := selects_run h
  obtain ⟨n1, n2⟩ := tagText_noWs h2 r
  obtain ⟨-, n3, n4, n5⟩ := tagText_head h2 r
  rcases quantText_cases hq with ⟨rfl, rfl⟩ | ⟨w, w', rfl, hw, hw', -⟩
  · exact ⟨n1, by simp [n2], n3, n4, n5⟩
  · have hn := unled_noWs hu
    have hq0 : ∃ x, qSign q = 0x41 :: x := by
      cases q
      · exact ⟨_, bs_ALL⟩
      · exact ⟨_, bs_ANY⟩
    have hw0 : w = [] := by
      cases w with
      | nil => rfl
      | cons b w =>
        rw [List.cons_append, List.cons_append, noWs_cons, ws_multispace hw b (by simp)] at hn
        cases hn
    obtain ⟨x, hx⟩ := hq0
    subst hw0
    rw [hx]
    exact ⟨noWs_cons.2 (by decide), by simp, by simp, by simp, by simp⟩

/-- existence needs a `?` after tag and occurrence -/
theorem pFieldExists_none {tq q t to sel r} (hq : QuantText false tq q) (hu : Unled tq) (h : Selects t to sel)
    (hr : OccStop r) (hr' : (dws r).head? ≠ some 0x3F) : pFieldExists (tq ++ (t ++ (to ++ r))) = none := by
  obtain ⟨hn, -⟩ := fieldHead_noWs hq hu h (to ++ r)
  obtain ⟨m, om, h1, h2, h3, h4⟩ := selects_run h
  refine map_none ?_
  rcases quantText_cases hq with ⟨rfl, rfl⟩ | ⟨w, w', rfl, hw, hw', -⟩
  · exact terminated_none' (ws_run' (by rw [dws_of_noWs hn]; exact h4 r hr)) (byte_none_of_head hr')
  · refine terminated_none (ws_none' ?_)
    rw [dws_of_noWs hn]
    have hn' := unled_noWs hu
    have hw0 : w = [] := by
      cases w with
      | nil => rfl
      | cons b w =>
        rw [List.cons_append, List.cons_append, noWs_cons, ws_multispace hw b (by simp)] at hn'
        cases hn'
    subst hw0
    cases q
    · rw [qSign, bs_ALL]; exact seq_none rfl
    · rw [qSign, bs_ANY]; exact seq_none rfl

/-! ## Simple matchers -/

theorem fieldExists_run {t to sel w w'} (h : Selects t to sel) (hw : Ws w) (E : Env) (o : Opts) :
    ∃ m : FieldSingle, m.eval E o = (fun fs => truth (∃ f ∈ fs, sel f)) ∧
      ∀ r, pFieldExists (t ++ to ++ w ++ bs "?" ++ w' ++ r) = some (m, w' ++ r) := by
  obtain ⟨m, om, rfl, h2, -, h4⟩ := selects_run h
  refine ⟨.exists m om, any_sel_truth E o m om, fun r => ?_⟩
  refine map_run (a := (m, om)) (terminated_run (r := 0x3F :: (w' ++ r)) (b := 0x3F) ?_ (byte_cons_self _ _))
  have e : t ++ to ++ w ++ bs "?" ++ w' ++ r = t ++ (to ++ (w ++ (0x3F :: (w' ++ r)))) := by
    rw [← bs_qm]; simp
  have := ws_run' (p := seq pTagMatcher pOccMatcher) (i := t ++ (to ++ (w ++ (0x3F :: (w' ++ r)))))
    (by rw [dws_of_noWs (tagText_noWs h2 _).1]
        exact h4 _ (occStop_ws hw (OccStop.cons (by decide))))
  rw [e, this, dws_append hw, dws_cons _ (by decide)]

theorem trimEndAscii_ws {w : Bytes} (hw : Ws w) (x : Bytes) : trimEndAscii (x ++ w) = trimEndAscii x := by
  unfold trimEndAscii
  rw [List.reverse_append, List.dropWhile_append_of_pos]
  intro b hb
  rw [isMultispace_iff]
  exact hw b (by simpa using hb)

/-- the rest of a text is a suffix, and the part in front of it is the text up to white space -/
theorem rest_of_dws {u r' ts w rest : Bytes} (h : ts ++ w ++ rest = u ++ r') (h' : dws r' = rest) (hw : Ws w) (x : Bytes) :
    trimEndAscii (x ++ u) = trimEndAscii (x ++ ts) := by
  have e : r' = r'.takeWhile isMultispace ++ rest := by
    rw [← h']; exact (List.takeWhile_append_dropWhile ..).symm
  rw [e, ← List.append_assoc] at h
  have h2 := List.append_cancel_right h
  have hw2 : Ws (r'.takeWhile isMultispace) := by
    intro b hb
    exact (isMultispace_iff _).1 (mem_takeWhile hb)
  have h3 := trimEndAscii_ws hw (x ++ ts)
  rw [List.append_assoc, h2, ← List.append_assoc, trimEndAscii_ws hw2] at h3
  exact h3

theorem subfieldsDot_run (rx : Bytes → Bool) {E : Env} {o : Opts} {tq q t to sel ts v w}
    (hq : QuantText false tq q) (h : Selects t to sel) (hs : SubText rx E o ts v) (hw : Ws w) :
    ∃ m : FieldSingle, m.eval E o = FQuant q sel v ∧ ∀ rest, Follow rest → ∃ r',
      pSubfieldsDot rx (tq ++ t ++ to ++ bs "." ++ ts ++ w ++ rest) = some (m, r') ∧ dws r' = rest := by
  obtain ⟨m, om, rfl, h1⟩ := pFieldHead_run hq h
  obtain ⟨sm, hsm, hrun⟩ := subText_run rx hs hw
  refine ⟨.subfields q m om (.single sm) (trimEndAscii (tq ++ t ++ to ++ bs "." ++ ts)), ?_, fun rest hr => ?_⟩
  · rw [run_fquant, SubMatcher.eval_single, hsm]
  · obtain ⟨r', g1, g2⟩ := hrun rest hr.1 hr.2
    refine ⟨r', ?_, g2⟩
    have e : tq ++ t ++ to ++ bs "." ++ ts ++ w ++ rest =
        tq ++ (t ++ (to ++ (0x2E :: (ts ++ w ++ rest)))) := by
      rw [← bs_dot]; simp
    rw [e]
    obtain ⟨u, g3, -⟩ := pSubSingle_reads rx E o _ _ _ g1
    have g4 := rest_of_dws g3 g2 hw (tq ++ t ++ to ++ bs ".")
    rw [← g4]
    refine map_run (a := (((q, m, om), sm), tq ++ t ++ to ++ bs "." ++ u)) (withTaken_run
      (seq_run (h1 _ (OccStop.cons (by decide))) (preceded_run (byte_cons_self _ _) g1)) ?_)
    rw [g3, ← bs_dot]; simp

theorem padded_byte {b : Byte} {tl : Bytes} (h : Padded (· = [b]) tl) (hb : isMultispace b = false)
    (hb' : isDigit b = false ∧ b ≠ 0x2D ∧ b ≠ 0x2F) (r : Bytes) :
    OccStop (tl ++ r) ∧ dws (tl ++ r) = b :: (dws (tl ++ r)).tail ∧
      Pica.ws (byte b) (tl ++ r) = some (b, dws r) := by
  obtain ⟨w, u, w', rfl, hw, rfl, hw'⟩ := h
  have e : w ++ [b] ++ w' ++ r = w ++ (b :: (w' ++ r)) := by simp
  refine ⟨?_, ?_, wsByte_run hb hw hw'⟩
  · rw [e]; exact occStop_ws hw (OccStop.cons hb')
  · rw [e, dws_append hw, dws_cons _ hb]; rfl

theorem stop_rbrace (r : Bytes) : Stop (0x7D :: r) := .inr (.inr rfl)

/-- an expression in braces -/
theorem braces_run (rx : Bytes → Bool) {E : Env} {o : Opts} {tl ts v w} (hl : Padded (· = bs "{") tl)
    (hs : SubBody rx E o ts v) (hw : Ws w) : ∃ m : SubMatcher, m.eval E o = v ∧ ∀ s rest, s.sub = 0 →
      NoWs rest → TParser.delimited (TParser.lift (Pica.ws (byte 0x7B))) (pSubMatcher rx)
        (TParser.lift (Pica.ws (byte 0x7D))) s (tl ++ (ts ++ (0x7D :: (w ++ rest)))) = (some (m, rest), s) := by
  obtain ⟨n1, n2, m, hm, hrun⟩ := subBody_run rx hs
  refine ⟨m, hm, fun s rest h0 hr => ?_⟩
  obtain ⟨r', h1, h2⟩ := hrun s (0x7D :: (w ++ rest)) h0 (stop_rbrace _)
  rw [← bs_lbrace] at hl
  have h3 := (padded_byte hl (by decide) (by decide) (ts ++ (0x7D :: (w ++ rest)))).2.2
  rw [dws_of_noWs (noWs_append n2 n1)] at h3
  have h4 := wsByte_run' h1
  rw [dws_append_noWs hw hr] at h4
  exact TParser.delimited_run (TParser.lift_run h3) h2 (TParser.lift_run h4)

theorem subfieldsBracket_run (rx : Bytes → Bool) {E : Env} {o : Opts} {tq q t to sel tl ts v w}
    (hq : QuantText false tq q) (h : Selects t to sel) (hl : Padded (· = bs "{") tl)
    (hs : SubBody rx E o ts v) (hw : Ws w) :
    ∃ m : FieldSingle, m.eval E o = FQuant q sel v ∧ ∀ s rest, s.sub = 0 → NoWs rest →
      pSubfieldsBracket rx s (tq ++ t ++ to ++ tl ++ ts ++ bs "}" ++ w ++ rest) = (some (m, rest), s) := by
  obtain ⟨m, om, rfl, h1⟩ := pFieldHead_run hq h
  obtain ⟨sm, hsm, hrun⟩ := braces_run rx hl hs hw
  refine ⟨.subfields q m om sm (tq ++ t ++ to ++ tl ++ ts ++ bs "}" ++ w), ?_, fun s rest h0 hr => ?_⟩
  · rw [run_fquant, hsm]
  · have e : tq ++ t ++ to ++ tl ++ ts ++ bs "}" ++ w ++ rest =
        tq ++ (t ++ (to ++ (tl ++ (ts ++ (0x7D :: (w ++ rest)))))) := by
      rw [← bs_rbrace]; simp
    rw [e]
    have hl' := hl
    rw [← bs_lbrace] at hl'
    refine TParser.map_run (a := (((q, m, om), sm), tq ++ t ++ to ++ tl ++ ts ++ bs "}" ++ w))
      (TParser.withTaken_run (TParser.seq_run (TParser.lift_run
        (h1 _ (padded_byte hl' (by decide) (by decide) _).1)) (hrun s rest h0 hr)) e.symm)

/-- after the head there is no brace -/
theorem subfieldsBracket_none (rx : Bytes → Bool) {tq q t to sel r} (hq : QuantText false tq q)
    (h : Selects t to sel) (hr : OccStop r) (hr' : (dws r).head? ≠ some 0x7B) (s : Levels) :
    pSubfieldsBracket rx s (tq ++ (t ++ (to ++ r))) = (none, s) := by
  obtain ⟨m, om, rfl, h1⟩ := pFieldHead_run hq h
  exact TParser.map_none (TParser.withTaken_none (TParser.seq_none' (TParser.lift_run (h1 r hr))
    (TParser.preceded_none (TParser.lift_none (ws_none' (byte_none_of_head hr'))))))

theorem subfieldsDot_none (rx : Bytes → Bool) {tq q t to sel r} (hq : QuantText false tq q)
    (h : Selects t to sel) (hr : OccStop r) (hr' : r.head? ≠ some 0x2E) :
    pSubfieldsDot rx (tq ++ (t ++ (to ++ r))) = none := by
  obtain ⟨m, om, rfl, h1⟩ := pFieldHead_run hq h
  exact map_none (withTaken_none (seq_none' (h1 r hr) (preceded_none (byte_none_of_head hr'))))

/-- a number with its sign -/
theorem numCheck_run {top op ds} (ht : Padded (· = relSign op) top) (hop : NumOp op) (h1 : ds ≠ [])
    (h2 : ∀ b ∈ ds, 0x30 ≤ b ∧ b ≤ 0x39) (h3 : numVal ds < 2 ^ 64) {r : Bytes} (hr : NoDigit r) :
    seq (verify RelOp.usizeOk (Pica.ws pRelOp)) pUsize (top ++ (ds ++ r)) = some ((op, numVal ds), r) := by
  obtain ⟨w, u, w', rfl, hw, rfl, hw'⟩ := ht
  have hd : NoWs (ds ++ r) ∧ (ds ++ r).head? ≠ some 0x3D := by
    cases ds with
    | nil => exact absurd rfl h1
    | cons d ds =>
      have hdig := isDigit_iff'.2 (h2 d (by simp))
      refine ⟨noWs_cons.2 ?_, ?_⟩
      · cases hm : isMultispace d with
        | false => rfl
        | true => rcases (isMultispace_iff d).1 hm with rfl | rfl | rfl | rfl <;> cases hdig
      · simp only [List.cons_append, List.head?_cons, ne_eq, Option.some.injEq]
        rintro rfl
        cases hdig
  have hop' : op.usizeOk = true := by rcases hop with rfl | rfl | rfl | rfl | rfl | rfl <;> rfl
  refine seq_run (verify_run (r := ds ++ r) ?_ hop') (pUsize_run h1 h2 h3 hr)
  have e : dws (w ++ relSign op ++ w' ++ (ds ++ r)) = relSign op ++ (w' ++ (ds ++ r)) := by
    rw [List.append_assoc, List.append_assoc, dws_append hw, dws_of_noWs (relSign_noWs _ _).1]
  have := ws_run' (p := pRelOp) (i := w ++ relSign op ++ w' ++ (ds ++ r)) (a := op) (r := w' ++ (ds ++ r)) (by
    rw [e]
    refine pNumOp_run hop ?_
    cases w' with
    | nil => exact hd.2
    | cons b w' =>
      simp only [List.cons_append, List.head?_cons, ne_eq, Option.some.injEq]
      rcases (hw' b (by simp)) with rfl | rfl | rfl | rfl <;> decide)
  rwa [dws_append_noWs hw' hd.1] at this

/-- tag and occurrence after a `#` -/
theorem cardHead_run {w0 w1 t to sel} (h0 : Ws w0) (h : Selects t to sel) (h1 : Ws w1) :
    ∃ m om, (sel = fun f => fieldSel m om f = true) ∧ ∀ r, OccStop r → OccStop (dws r) →
      Pica.ws (byte 0x23) (bs "#" ++ w0 ++ (t ++ (w1 ++ (to ++ r)))) = some (0x23, t ++ (w1 ++ (to ++ r))) ∧
      ∃ r1, Pica.ws pTagMatcher (t ++ (w1 ++ (to ++ r))) = some (m, r1) ∧
        Pica.ws pOccMatcher r1 = some (om, dws r) := by
  obtain ⟨m, om, rfl, g1, g2, -⟩ := selects_run h
  refine ⟨m, om, rfl, fun r hr hr' => ?_⟩
  have hn : NoWs (t ++ (w1 ++ (to ++ r))) := (tagText_noWs g1 _).1
  refine ⟨?_, dws (to ++ r), ?_, ?_⟩
  · have := wsByte_run (b := 0x23) (w := []) (w' := w0) (r := t ++ (w1 ++ (to ++ r))) (by decide)
      (by simp [Ws]) h0
    rw [dws_of_noWs hn] at this
    rw [← bs_hash]
    simpa using this
  · have := ws_run' (p := pTagMatcher) (i := t ++ (w1 ++ (to ++ r))) (by
      rw [dws_of_noWs hn]; exact pTagMatcher_follow g1)
    rw [this, dws_append h1]
  · rcases occText_cases g2 with rfl | ⟨x, rfl⟩
    · have := ws_run' (p := pOccMatcher) (i := dws r) (by
        rw [dws_dws]; have := pOccMatcher_follow g2 hr'; simpa using this)
      rw [List.nil_append, this, dws_dws]
    · rw [List.cons_append, dws_cons _ (by decide), ← List.cons_append]
      exact ws_run' (by
        rw [List.cons_append, dws_cons _ (by decide), ← List.cons_append]
        exact pOccMatcher_follow g2 hr)

theorem relSign_stop (op : RelOp) (r : Bytes) : OccStop (relSign op ++ r) ∧
    (relSign op ++ r).head? ≠ some 0x7B := by
  obtain ⟨e1, e2, e3, e4, e5, e6, e7, e8, e9, e10, e11, _⟩ := bs_ops
  cases op <;> simp only [relSign, e1, e2, e3, e4, e5, e6, e7, e8, e9, e10, e11] <;>
    exact ⟨OccStop.cons (by decide), by simp⟩

theorem relPadded_head {top op} (ht : Padded (· = relSign op) top) (r : Bytes) :
    OccStop (top ++ r) ∧ OccStop (dws (top ++ r)) ∧ (dws (top ++ r)).head? ≠ some 0x7B := by
  obtain ⟨w, u, w', rfl, hw, rfl, hw'⟩ := ht
  have e : w ++ relSign op ++ w' ++ r = w ++ (relSign op ++ (w' ++ r)) := by simp
  have e' : dws (w ++ (relSign op ++ (w' ++ r))) = relSign op ++ (w' ++ r) :=
    dws_append_noWs hw (relSign_noWs _ _).1
  rw [e, e']
  exact ⟨occStop_ws hw (relSign_stop _ _).1, (relSign_stop _ _).1, (relSign_stop _ _).2⟩

/-- numbers after white space that was skipped -/
theorem numCheck_dws {top op ds} (ht : Padded (· = relSign op) top) (hop : NumOp op) (h1 : ds ≠ [])
    (h2 : ∀ b ∈ ds, 0x30 ≤ b ∧ b ≤ 0x39) (h3 : numVal ds < 2 ^ 64) {r : Bytes} (hr : NoDigit r) :
    seq (verify RelOp.usizeOk (Pica.ws pRelOp)) pUsize (dws (top ++ (ds ++ r))) =
      some ((op, numVal ds), r) := by
  obtain ⟨w, u, w', rfl, hw, rfl, hw'⟩ := ht
  have e : w ++ relSign op ++ w' ++ (ds ++ r) = w ++ (relSign op ++ w' ++ (ds ++ r)) := by simp
  have e' : dws (w ++ (relSign op ++ w' ++ (ds ++ r))) = relSign op ++ w' ++ (ds ++ r) :=
    dws_append_noWs hw (by rw [List.append_assoc]; exact (relSign_noWs _ _).1)
  rw [e, e']
  exact numCheck_run ⟨[], relSign op, w', by simp, by simp [Ws], rfl, hw'⟩ hop h1 h2 h3 hr

theorem ws_padded {P : Bytes → Prop} {w t : Bytes} (hw : Ws w) (h : Padded P t) : Padded P (w ++ t) := by
  obtain ⟨w1, u, w', rfl, hw1, hu, hw'⟩ := h
  exact ⟨w ++ w1, u, w', by simp, ws_append hw hw1, hu, hw'⟩

theorem follow_ws {w rest : Bytes} (hw : Ws w) (hr : Follow rest) : NoDigit (w ++ rest) := by
  cases w with
  | nil => exact hr.2
  | cons b w =>
    intro x hx
    simp at hx
    subst hx
    rcases (hw b (by simp)) with rfl | rfl | rfl | rfl <;> decide

theorem TParser.opt_run {α : Type} {p : TParser α} {s s' : Levels} {i r : Bytes} {a : α}
    (h : p s i = (some (a, r), s')) : TParser.opt p s i = (some (some a, r), s') := by
  simp only [TParser.opt, h]

theorem TParser.opt_none {α : Type} {p : TParser α} {s s' : Levels} {i : Bytes}
    (h : p s i = (none, s')) : TParser.opt p s i = (some (none, i), s') := by
  simp only [TParser.opt, h]

theorem fieldCard_run (rx : Bytes → Bool) {E : Env} {o : Opts} {w0 w1 t to sel w2 top op ds w} (h0 : Ws w0)
    (h : Selects t to sel) (h1 : Ws w1) (h2 : Ws w2) (ht : Padded (· = relSign op) top) (hop : NumOp op)
    (hd1 : ds ≠ []) (hd2 : ∀ b ∈ ds, 0x30 ≤ b ∧ b ≤ 0x39) (hd3 : numVal ds < 2 ^ 64) (hw : Ws w) :
    ∃ m : FieldCard, m.eval E o = (fun fs => (FCount sel (fun _ => some true) fs).bind
        (fun n => truth (NumHolds op n (numVal ds)))) ∧
      ∀ s rest, Follow rest → pFieldCard rx s
        (bs "#" ++ w0 ++ t ++ w1 ++ to ++ w2 ++ top ++ ds ++ w ++ rest) = (some (m, w ++ rest), s) := by
  obtain ⟨m, om, rfl, g⟩ := cardHead_run h0 h h1
  have hop' : op.usizeOk = true := by rcases hop with rfl | rfl | rfl | rfl | rfl | rfl <;> rfl
  refine ⟨⟨m, om, none, op, numVal ds, bs "#" ++ w0 ++ t ++ w1 ++ to ++ w2 ++ top ++ ds⟩, ?_, fun s rest hr => ?_⟩
  · rw [eval_fcard E o hop']; rfl
  · have ht' := ws_padded h2 ht
    have hdig := follow_ws hw hr
    obtain ⟨k1, k2, k3⟩ := relPadded_head ht' (ds ++ (w ++ rest))
    obtain ⟨g1, r1, g2, g3⟩ := g _ k1 k2
    have e : bs "#" ++ w0 ++ t ++ w1 ++ to ++ w2 ++ top ++ ds ++ w ++ rest =
        bs "#" ++ w0 ++ (t ++ (w1 ++ (to ++ (w2 ++ top ++ (ds ++ (w ++ rest)))))) := by simp
    rw [e]
    refine TParser.map_run (a := ((m, om, none, op, numVal ds), bs "#" ++ w0 ++ t ++ w1 ++ to ++ w2 ++ top ++ ds))
      (TParser.withTaken_run (TParser.preceded_run (TParser.lift_run g1)
      (TParser.seq_run (TParser.lift_run g2) (TParser.seq_run (TParser.lift_run g3) (TParser.seq_run
        (TParser.opt_none (TParser.preceded_none (TParser.lift_none (ws_none' (by
          rw [dws_dws]; exact byte_none_of_head k3)))))
        (TParser.lift_run (numCheck_dws ht' hop hd1 hd2 hd3 hdig)))))) (by simp))

theorem fieldCardSub_run (rx : Bytes → Bool) {E : Env} {o : Opts} {w0 w1 t to sel tl ts v w3 top op ds w}
    (h0 : Ws w0) (h : Selects t to sel) (h1 : Ws w1) (hl : Padded (· = bs "{") tl)
    (hs : SubBody rx E o ts v) (h3 : Ws w3) (ht : Padded (· = relSign op) top) (hop : NumOp op)
    (hd1 : ds ≠ []) (hd2 : ∀ b ∈ ds, 0x30 ≤ b ∧ b ≤ 0x39) (hd3 : numVal ds < 2 ^ 64) (hw : Ws w) :
    ∃ m : FieldCard, m.eval E o = (fun fs => (FCount sel v fs).bind
        (fun n => truth (NumHolds op n (numVal ds)))) ∧
      ∀ s rest, s.sub = 0 → Follow rest → pFieldCard rx s
        (bs "#" ++ w0 ++ t ++ w1 ++ to ++ tl ++ ts ++ bs "}" ++ w3 ++ top ++ ds ++ w ++ rest) =
          (some (m, w ++ rest), s) := by
  obtain ⟨m, om, rfl, g⟩ := cardHead_run h0 h h1
  have hop' : op.usizeOk = true := by rcases hop with rfl | rfl | rfl | rfl | rfl | rfl <;> rfl
  obtain ⟨la, _, lb, rfl, hla, rfl, hlb⟩ := hl
  obtain ⟨wa, _, wb, rfl, hwa, rfl, hwb⟩ := ht
  have hl0 : Padded (· = bs "{") (bs "{" ++ lb) := ⟨[], bs "{", lb, by simp, by simp [Ws], rfl, hlb⟩
  have ht0 : Padded (· = relSign op) (relSign op ++ wb) := ⟨[], relSign op, wb, by simp, by simp [Ws], rfl, hwb⟩
  obtain ⟨sm, hsm, hrun⟩ := braces_run rx hl0 hs (ws_append h3 hwa)
  refine ⟨⟨m, om, some sm, op, numVal ds, bs "#" ++ w0 ++ t ++ w1 ++ to ++ (la ++ bs "{" ++ lb) ++ ts ++ bs "}" ++
    w3 ++ (wa ++ relSign op ++ wb) ++ ds⟩, ?_, fun s rest hs0 hr => ?_⟩
  · rw [eval_fcard E o hop', ← hsm]; rfl
  · have hdig := follow_ws hw hr
    have hn : NoWs (relSign op ++ wb ++ (ds ++ (w ++ rest))) := by
      rw [List.append_assoc]; exact (relSign_noWs _ _).1
    have hb := hrun s _ hs0 hn
    have hlb' : ∀ r, NoWs (bs "{" ++ r) := fun r => by rw [← bs_lbrace]; exact noWs_cons.2 (by decide)
    have e1 : ∀ Z, dws (la ++ bs "{" ++ lb ++ Z) = bs "{" ++ lb ++ Z := fun Z => by
      rw [List.append_assoc, List.append_assoc, dws_append_noWs hla (hlb' _), List.append_assoc]
    have o1 : ∀ Z, OccStop (bs "{" ++ lb ++ Z) := fun Z => by
      rw [← bs_lbrace]; exact OccStop.cons (by decide)
    generalize hZ : ts ++ (0x7D :: (w3 ++ wa ++ (relSign op ++ wb ++ (ds ++ (w ++ rest))))) = Z at hb
    obtain ⟨g1, r1, g2, g3⟩ := g (la ++ bs "{" ++ lb ++ Z)
      (by have := occStop_ws hla (o1 Z); simpa using this) (by rw [e1]; exact o1 Z)
    rw [e1] at g3
    have e : bs "#" ++ w0 ++ t ++ w1 ++ to ++ (la ++ bs "{" ++ lb) ++ ts ++ bs "}" ++ w3 ++
        (wa ++ relSign op ++ wb) ++ ds ++ w ++ rest =
        bs "#" ++ w0 ++ (t ++ (w1 ++ (to ++ (la ++ bs "{" ++ lb ++ Z)))) := by
      rw [← hZ, ← bs_rbrace]; simp
    rw [e]
    refine TParser.map_run (a := ((m, om, some sm, op, numVal ds), _)) (TParser.withTaken_run (TParser.preceded_run
      (TParser.lift_run g1)
      (TParser.seq_run (TParser.lift_run g2) (TParser.seq_run (TParser.lift_run g3) (TParser.seq_run
        (TParser.opt_run hb)
        (TParser.lift_run (numCheck_run ht0 hop hd1 hd2 hd3 hdig)))))) (by rw [← e]; simp))

end Pica
