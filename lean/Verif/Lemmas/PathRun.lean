import Verif.Spec.PathSeq
import Verif.Lemmas.FormatRun
import Verif.Lemmas.Query

/-! Paths and queries are accepted. -/

namespace Pica
open Pica.Spec Parser

/-! ## Code lists -/

/-- the list of codes that is read for a text -/
def CodesRead (t cs : Bytes) : Prop := (∃ S, CodesText t S) ∧ ∀ r, pCodes (t ++ r) = some (cs, r)

theorem codesRuns : ItemRuns pCodes CodesRead where
  run := fun h r => h.2 r
  noWs := fun h r => by obtain ⟨⟨S, h⟩, _⟩ := h; exact (codesText_follow_noWs h r).1
  ne := fun h => by obtain ⟨⟨S, h⟩, _⟩ := h; exact (codesText_follow_noWs h []).2
  bracket := fun _ => rfl

/-- two lists of codes with the same members -/
def SameCodes (cs cs' : Bytes) : Prop := ∀ b, b ∈ cs ↔ b ∈ cs'

theorem codesItems {t css} (h : ItemsText CodesOf t css) :
    ∃ css', ItemsText CodesRead t css' ∧ All2 SameCodes css' css := by
  induction h with
  | one h =>
    obtain ⟨cs', h1, h2⟩ := pCodes_complete h
    exact ⟨[cs'], .one ⟨⟨_, h⟩, h1⟩, .cons h2 .nil⟩
  | more h hs _ ih =>
    obtain ⟨cs', h1, h2⟩ := pCodes_complete h
    obtain ⟨css', h3, h4⟩ := ih
    exact ⟨cs' :: css', .more ⟨⟨_, h⟩, h1⟩ hs h3, .cons h2 h4⟩

theorem separated1_run {p : Parser Bytes} {R : Bytes → Bytes → Prop} (hp : ItemRuns p R) {t xs}
    (h : ItemsText R t xs) {rest : Bytes} (hstop : (dws rest).head? ≠ some 0x2C) :
    separated1 p (Pica.ws (byte 0x2C)) (t ++ rest) = some (xs, rest) := by
  have hs : ∀ n, separatedAux p (Pica.ws (byte 0x2C)) n rest = some ([], rest) := by
    intro n
    cases n with
    | zero => rfl
    | succ n =>
      have : Pica.ws (byte 0x2C) rest = none := ws_none' (byte_none_of_head hstop)
      rw [separatedAux]
      simp only [this]
  obtain ⟨x, xs', rfl, r1, g1, g2, g3⟩ := separatedAux_run hp hs h
  unfold separated1
  simp only [g1, g3 _ (Nat.le_succ _)]

/-- the codes of a path in braces are read; what follows is a filter or the closing
brace -/
theorem codesBody_run {tc css} (h : CodesBody tc css) :
    ∃ css', All2 SameCodes css' css ∧ Solid tc ∧ ∀ rest, NoWs rest → rest.head? ≠ some 0x2C →
      ∃ r', dws r' = rest ∧ pPathCodes (tc ++ rest) = some (css', r') := by
  cases h with
  | @bare t _ w h hw =>
    obtain ⟨css', h1, h2⟩ := codesItems h
    refine ⟨css', h2, ⟨?_, ?_⟩, fun rest hn hr => ⟨w ++ rest, dws_append_noWs hw hn, ?_⟩⟩
    · have := itemsText_noWs codesRuns h1 w; exact this
    · cases h1 with
      | one g => have := codesRuns.ne g; simp [this]
      | more g _ _ => have := codesRuns.ne g; simp [this]
    · unfold pPathCodes
      rw [List.append_assoc]
      refine alt_left ?_
      exact separated1_run codesRuns h1 (by rw [dws_append_noWs hw hn]; exact hr)
  | @parens w0 t _ w1 w2 h0 h h1 h2 =>
    obtain ⟨css', h3, h4⟩ := codesItems h
    refine ⟨css', h4, ⟨?_, ?_⟩, fun rest hn hr => ⟨rest, dws_of_noWs hn, ?_⟩⟩
    · rw [show bs "(" ++ w0 ++ t ++ w1 ++ bs ")" ++ w2 = 0x28 :: (w0 ++ t ++ w1 ++ bs ")" ++ w2) by rw [bs_lpar]; simp]
      exact noWs_cons.2 (by decide)
    · rw [bs_lpar]; simp
    · have e : bs "(" ++ w0 ++ t ++ w1 ++ bs ")" ++ w2 ++ rest =
          0x28 :: (w0 ++ (t ++ (w1 ++ (0x29 :: (w2 ++ rest))))) := by rw [bs_lpar, bs_rpar]; simp
      have hl : Pica.ws (byte 0x28) (0x28 :: (w0 ++ (t ++ (w1 ++ (0x29 :: (w2 ++ rest)))))) =
          some (0x28, t ++ (w1 ++ (0x29 :: (w2 ++ rest)))) := by
        rw [wsByte_dws (dws_cons _ (by decide)), dws_append_noWs h0 (itemsText_noWs codesRuns h3 _)]
      have hm : separated1 pCodes (Pica.ws (byte 0x2C)) (t ++ (w1 ++ (0x29 :: (w2 ++ rest)))) =
          some (css', w1 ++ (0x29 :: (w2 ++ rest))) := by
        refine separated1_run codesRuns h3 ?_
        rw [dws_append_noWs h1 (noWs_cons.2 (by decide))]
        simp
      have hr : Pica.ws (byte 0x29) (w1 ++ (0x29 :: (w2 ++ rest))) = some (0x29, rest) := by
        rw [wsByte_dws (dws_append_noWs h1 (noWs_cons.2 (by decide))), dws_append_noWs h2 hn]
      unfold pPathCodes
      rw [e]
      rw [alt_right]
      · exact delimited_run hl hm hr
      · have : pCodes (0x28 :: (w0 ++ (t ++ (w1 ++ (0x29 :: (w2 ++ rest)))))) = none := rfl
        unfold separated1
        simp only [this]

variable (rx : Bytes → Bool)

/-- a filter behind white space is read -/
theorem filterBody_run' {E : Env} {o : Opts} {tf v} (h : FilterBody rx E o tf v) :
    ∃ m : Option SubMatcher, subDen E o m = v ∧ ∀ (s : Levels) rest i, s.sub = 0 → rest.head? = some 0x7D →
      dws i = tf ++ rest → ∃ r', dws r' = rest ∧ pFilterOpt rx s i = (some (m, r'), s) := by
  have hn : ∀ rest : Bytes, rest.head? = some 0x7D → NoWs rest := by
    intro rest hr b hb
    rw [hr] at hb; cases hb; decide
  cases h with
  | none =>
    refine ⟨none, rfl, fun s rest i _ hr hi => ⟨i, hi, ?_⟩⟩
    unfold pFilterOpt
    refine TParser.opt_none (TParser.preceded_none (TParser.lift_none (ws_none' ?_)))
    rw [hi, List.nil_append]
    exact byte_none_of_head (by rw [hr]; simp)
  | @some w u _ hw hu =>
    obtain ⟨n1, n2, m, hm, h1⟩ := subBody_run rx hu
    refine ⟨some m, hm, fun s rest i hs hr hi => ?_⟩
    obtain ⟨r', e1, e2⟩ := h1 s rest hs (.inr (.inr hr))
    refine ⟨r', e1, TParser.opt_run (TParser.preceded_run (a := 0x7C) (TParser.lift_run ?_) e2)⟩
    have : dws i = 0x7C :: (w ++ (u ++ rest)) := by rw [hi, ← bs_bar]; simp
    rw [wsByte_dws this, dws_append_noWs hw (Solid.noWs ⟨n1, n2⟩ rest)]

theorem filterBody_head {E : Env} {o : Opts} {tf v} (h : FilterBody rx E o tf v) (r : Bytes) :
    (tf ++ 0x7D :: r).head? = some 0x7D ∨ (tf ++ 0x7D :: r).head? = some 0x7C := by
  cases h with
  | none => exact .inl rfl
  | some _ _ => rw [← bs_bar]; exact .inr rfl

/-! ## Paths -/

/-- the result of reading a path: the meaning of the text -/
def PathMeans (E : Env) (o : Opts) (sel : Field → Prop) (v : Den (List Subfield)) (css : List Bytes) (p : Path) : Prop :=
  selOf p.tag p.occ = sel ∧ subDen E o p.sub = v ∧ All2 SameCodes p.codes css

/-- a path is read up to the white space behind it -/
theorem pathBody_run {E : Env} {o : Opts} {t sel v css} (h : PathBody rx E o t sel v css) {s : Levels} (hs : s.sub = 0) :
    NoWs t ∧ t ≠ [] ∧ ∀ w, Ws w → ∀ rest, ∃ p, PathMeans E o sel v css p ∧ pPath rx s (w ++ t ++ rest) = (some (p, dws rest), s) := by
  cases h with
  | @dot t to _ c cs w hsel hc hw =>
    obtain ⟨m, om, hm, ho, rfl⟩ := hsel
    obtain ⟨cs', hcs, hS⟩ := pCodes_complete hc
    have hn := fun r => tagText_noWs hm r
    have hdot : bs "." = [0x2E] := bs_dot.symm
    refine ⟨by simpa [List.append_assoc] using (hn (to ++ bs "." ++ c ++ w)).1, by simp [(hn []).2], fun w' hw' rest => ?_⟩
    have hp : ws (seq pTagMatcher (seq pOccMatcher (preceded (byte 0x2E) pCodes)))
        (w' ++ (t ++ to ++ bs "." ++ c ++ w) ++ rest) = some ((m, om, cs'), dws rest) := by
      rw [← dws_append hw]
      refine ws_run' ?_
      have e : w' ++ (t ++ to ++ bs "." ++ c ++ w) ++ rest = w' ++ (t ++ (to ++ (0x2E :: (c ++ (w ++ rest))))) := by
        rw [hdot]; simp
      rw [e, dws_append_noWs hw' (hn _).1]
      exact seq_run (pTagMatcher_follow hm) (seq_run (pOccMatcher_follow ho (.cons (by decide)))
        (preceded_run (byte_cons_self _ _) (hcs _)))
    have hlen := withTaken_eq_some.2 ⟨hp, rfl⟩
    refine ⟨_, ?_, TParser.alt_left (TParser.lift_run (map_run hlen))⟩
    exact ⟨rfl, rfl, .cons hS .nil⟩
  | @braces t to _ w0 w1 tc _ tf _ w2 hsel h0 h1 hc hf h2 =>
    obtain ⟨m, om, hm, ho, rfl⟩ := hsel
    obtain ⟨mf, e1, e2⟩ := filterBody_run' rx hf
    obtain ⟨css', hS, hsol, e3⟩ := codesBody_run hc
    have hn := fun r => tagText_noWs hm r
    refine ⟨by simpa [List.append_assoc] using (hn (to ++ w0 ++ bs "{" ++ w1 ++ tc ++ tf ++ bs "}" ++ w2)).1,
      by simp [(hn []).2], fun w' hw' rest => ?_⟩
    have e : w' ++ (t ++ to ++ w0 ++ bs "{" ++ w1 ++ tc ++ tf ++ bs "}" ++ w2) ++ rest =
        w' ++ (t ++ (to ++ (w0 ++ (0x7B :: (w1 ++ (tc ++ (tf ++ (0x7D :: (w2 ++ rest))))))))) := by
      rw [← bs_lbrace, ← bs_rbrace]; simp
    have hopen : Pica.ws (byte 0x7B) (w0 ++ (0x7B :: (w1 ++ (tc ++ (tf ++ (0x7D :: (w2 ++ rest))))))) =
        some (0x7B, tc ++ (tf ++ (0x7D :: (w2 ++ rest)))) := by
      rw [wsByte_dws (dws_append_noWs h0 (noWs_cons.2 (by decide))), dws_append_noWs h1 (hsol.noWs _)]
    have hocc : ∀ Y, pOccMatcher (to ++ (w0 ++ (0x7B :: Y))) = some (om, w0 ++ (0x7B :: Y)) := fun Y =>
      pOccMatcher_follow ho (occStop_ws h0 (OccStop.cons (by decide)))
    have hfh := filterBody_head rx hf (w2 ++ rest)
    obtain ⟨r1, e4, e5⟩ := e3 (tf ++ (0x7D :: (w2 ++ rest)))
      (by intro b hb; rcases hfh with h | h <;> (rw [h] at hb; cases hb; decide))
      (by rcases hfh with h | h <;> rw [h] <;> simp)
    obtain ⟨r2, e6, e7⟩ := e2 s (0x7D :: (w2 ++ rest)) r1 hs rfl e4
    have hclose : Pica.ws (byte 0x7D) r2 = some (0x7D, dws rest) := by
      rw [wsByte_dws e6, dws_append h2]
    have hsimple : pPathSimple (w' ++ (t ++ to ++ w0 ++ bs "{" ++ w1 ++ tc ++ tf ++ bs "}" ++ w2) ++ rest) = none := by
      unfold pPathSimple
      refine map_none (withTaken_none (ws_none' ?_))
      rw [e, dws_append_noWs hw' (hn _).1]
      refine seq_none' (pTagMatcher_follow hm) (seq_none' (hocc _) (preceded_none ?_))
      refine byte_none_of_head ?_
      cases w0 with
      | nil => simp
      | cons b w0 =>
        have := h0 b (by simp)
        simp only [List.cons_append, List.head?_cons, ne_eq, Option.some.injEq]
        rintro rfl
        revert this
        rw [← isMultispace_iff]
        decide
    have hbody : TParser.seq (TParser.lift pTagMatcher) (TParser.seq (TParser.lift pOccMatcher)
        (TParser.delimited (TParser.lift (Pica.ws (byte 0x7B))) (TParser.seq (TParser.lift pPathCodes) (pFilterOpt rx))
          (TParser.lift (Pica.ws (byte 0x7D))))) s (t ++ (to ++ (w0 ++ (0x7B :: (w1 ++ (tc ++ (tf ++ (0x7D :: (w2 ++ rest))))))))) =
        (some ((m, om, css', mf), dws rest), s) :=
      TParser.seq_run (TParser.lift_run (pTagMatcher_follow hm)) (TParser.seq_run (TParser.lift_run (hocc _))
        (TParser.delimited_run (TParser.lift_run hopen) (TParser.seq_run (TParser.lift_run e5) e7) (TParser.lift_run hclose)))
    have htws := tws_run (i := w' ++ (t ++ to ++ w0 ++ bs "{" ++ w1 ++ tc ++ tf ++ bs "}" ++ w2) ++ rest)
      (by rw [e, dws_append_noWs hw' (hn _).1]; exact hbody)
    rw [dws_dws] at htws
    have hcurly : ∃ raw, pPathCurly rx s (w' ++ (t ++ to ++ w0 ++ bs "{" ++ w1 ++ tc ++ tf ++ bs "}" ++ w2) ++ rest) =
        (some (⟨m, om, mf, css', raw⟩, dws rest), s) := by
      have : ∃ raw, TParser.withTaken (Pica.tws (TParser.seq (TParser.lift pTagMatcher) (TParser.seq (TParser.lift pOccMatcher)
          (TParser.delimited (TParser.lift (Pica.ws (byte 0x7B))) (TParser.seq (TParser.lift pPathCodes) (pFilterOpt rx))
            (TParser.lift (Pica.ws (byte 0x7D))))))) s (w' ++ (t ++ to ++ w0 ++ bs "{" ++ w1 ++ tc ++ tf ++ bs "}" ++ w2) ++ rest) =
          (some (((m, om, css', mf), raw), dws rest), s) := by
        unfold TParser.withTaken
        rw [htws]
        exact ⟨_, rfl⟩
      obtain ⟨raw, h⟩ := this
      exact ⟨raw, TParser.map_run h⟩
    obtain ⟨raw, hcurly⟩ := hcurly
    refine ⟨⟨m, om, mf, css', raw⟩, ⟨rfl, e1, hS⟩, ?_⟩
    unfold pPath
    rw [TParser.alt_right (TParser.lift_none hsimple)]
    exact hcurly

/-! ## Formats in queries -/

/-- bytes that occur in formats but not in lists of codes -/
def isFmtSign (b : Byte) : Bool := (bs "<?'\".").contains b

/-- no sign, no bar and no closing brace -/
def Quiet (t : Bytes) : Prop := ∀ b ∈ t, isFmtSign b = false ∧ b ≠ 0x7C ∧ b ≠ 0x7D
/-- a sign in front of any bar or closing brace -/
def Loud (t : Bytes) : Prop := ∃ u b r, t = u ++ b :: r ∧ Quiet u ∧ isFmtSign b = true

theorem Quiet.append {t u : Bytes} (h : Quiet t) (h' : Quiet u) : Quiet (t ++ u) := by
  intro b hb
  rcases List.mem_append.1 hb with hb | hb
  · exact h b hb
  · exact h' b hb
theorem Loud.append {t : Bytes} (h : Loud t) (u : Bytes) : Loud (t ++ u) := by
  obtain ⟨v, b, r, rfl, h1, h2⟩ := h
  exact ⟨v, b, r ++ u, by simp, h1, h2⟩
theorem Loud.after {t u : Bytes} (h : Quiet u) (h' : Loud t) : Loud (u ++ t) := by
  obtain ⟨v, b, r, rfl, h1, h2⟩ := h'
  exact ⟨u ++ v, b, r, by simp, h.append h1, h2⟩

/-- every text of a format is one of both -/
def Clear (t : Bytes) : Prop := Quiet t ∨ Loud t
theorem Clear.append {t u : Bytes} (h : Clear t) (h' : Clear u) : Clear (t ++ u) := by
  rcases h with h | h
  · rcases h' with h' | h'
    · exact .inl (h.append h')
    · exact .inr (Loud.after h h')
  · exact .inr (h.append u)
theorem Clear.sign {b : Byte} (r : Bytes) (h : isFmtSign b = true) : Clear (b :: r) := .inr ⟨[], b, r, rfl, by simp [Quiet], h⟩
theorem Clear.nil : Clear [] := .inl (by simp [Quiet])
theorem Clear.ws {w : Bytes} (h : Ws w) : Clear w := by
  refine .inl (fun b hb => ?_)
  have := (isMultispace_iff b).2 (h b hb)
  have hb' : b = 0x20 ∨ b = 0x09 ∨ b = 0x0D ∨ b = 0x0A := by simpa [isMultispace, or_assoc] using this
  rcases hb' with rfl | rfl | rfl | rfl <;> decide +kernel

theorem isCode_quiet {b : Byte} (h : IsCode b) : isFmtSign b = false ∧ b ≠ 0x7C ∧ b ≠ 0x7D := by
  have : ∀ c ∈ allCodes, isFmtSign c = false ∧ c ≠ 0x7C ∧ c ≠ 0x7D := by decide +kernel
  exact this b (by rw [← mem_allCodes] at h; exact h)

theorem codesText_quiet {t S} (h : CodesText t S) : Quiet t := by
  cases h with
  | one c hc =>
    intro b hb
    rw [List.mem_singleton] at hb
    subst hb
    exact isCode_quiet hc
  | list h =>
    refine Quiet.append (Quiet.append ?_ ?_) ?_
    · unfold Quiet; decide +kernel
    · have item : ∀ {u S}, ItemText IsCode u S → Quiet u := by
        intro u S hu
        cases hu with
        | single c hc =>
          intro b hb
          rw [List.mem_singleton] at hb
          subst hb
          exact isCode_quiet hc
        | range c d hc hd _ =>
          intro b hb
          simp only [List.mem_cons, List.not_mem_nil, or_false] at hb
          rcases hb with rfl | rfl | rfl
          · exact isCode_quiet hc
          · decide +kernel
          · exact isCode_quiet hd
      induction h with
      | one h => exact item h
      | more h _ ih => exact (item h).append ih
    · unfold Quiet; decide +kernel
  | all => unfold Quiet; decide +kernel

theorem ws_quiet {w : Bytes} (h : Ws w) : Quiet w := by
  intro b hb
  have := (isMultispace_iff b).2 (h b hb)
  have hb' : b = 0x20 ∨ b = 0x09 ∨ b = 0x0D ∨ b = 0x0A := by simpa [isMultispace, or_assoc] using this
  rcases hb' with rfl | rfl | rfl | rfl <;> decide +kernel

theorem itemsCodes_quiet {t css} (h : ItemsText CodesOf t css) : Quiet t := by
  induction h with
  | one h => exact codesText_quiet h
  | more h hs _ ih =>
    obtain ⟨w, w', rfl, h1, h2⟩ := hs
    refine ((codesText_quiet h).append (((ws_quiet h1).append ?_).append (ws_quiet h2))).append ih
    unfold Quiet; decide +kernel

theorem codeLists_quiet {t css} (h : CodeLists t css) : Quiet t := by
  cases h with
  | bare h => exact itemsCodes_quiet h
  | parens hl h hr =>
    obtain ⟨w1, _, w2, rfl, h1, rfl, h2⟩ := hl
    obtain ⟨w3, _, w4, rfl, h3, rfl, h4⟩ := hr
    refine ((((ws_quiet h1).append ?_).append (ws_quiet h2)).append (itemsCodes_quiet h)).append
      (((ws_quiet h3).append ?_).append (ws_quiet h4))
    · unfold Quiet; decide +kernel
    · unfold Quiet; decide +kernel

/-- a quiet prefix of a loud text ends in front of the sign; what follows is not a
bar and not a closing brace -/
theorem quiet_loud {t r X : Bytes} (hX : Loud X) (h : X = t ++ r) (ht : Quiet t) :
    (dws r).head? ≠ some 0x7C ∧ (dws r).head? ≠ some 0x7D := by
  obtain ⟨u, b, r', rfl, hu, hb⟩ := hX
  have key : ∃ u', r = u' ++ b :: r' ∧ Quiet u' := by
    rcases List.append_eq_append_iff.1 h with ⟨a, rfl, h2⟩ | ⟨a, rfl, h2⟩
    · cases a with
      | nil => exact ⟨[], by simpa using h2.symm, by simp [Quiet]⟩
      | cons c a =>
        simp only [List.cons_append, List.cons.injEq] at h2
        have := (ht b (by rw [← h2.1] at *; simp)).1
        rw [hb] at this
        simp at this
    · exact ⟨a, h2, fun x hx => hu x (by simp [hx])⟩
  obtain ⟨u', rfl, hq⟩ := key
  clear h ht hu
  have hb1 : b ≠ 0x7C := by rintro rfl; revert hb; decide +kernel
  have hb2 : b ≠ 0x7D := by rintro rfl; revert hb; decide +kernel
  have hb3 : isMultispace b = false := by
    cases hm : isMultispace b with
    | false => rfl
    | true =>
      have hb' : b = 0x20 ∨ b = 0x09 ∨ b = 0x0D ∨ b = 0x0A := by simpa [isMultispace, or_assoc] using hm
      revert hb
      rcases hb' with rfl | rfl | rfl | rfl <;> decide +kernel
  induction u' with
  | nil =>
    rw [List.nil_append, dws_cons _ hb3]
    simp [hb1, hb2]
  | cons c u' ih =>
    by_cases hc : isMultispace c = true
    · have : dws (c :: (u' ++ b :: r')) = dws (u' ++ b :: r') := by simp [dws, hc]
      rw [List.cons_append, this]
      exact ih (fun x hx => hq x (by simp [hx]))
    · rw [List.cons_append, dws_cons _ (by simpa using hc)]
      have := hq c (by simp)
      simp [this.2]

theorem clear_cons {b : Byte} (h : isFmtSign b = true ∨ (b ≠ 0x7C ∧ b ≠ 0x7D)) : Clear [b] := by
  by_cases hb : isFmtSign b = true
  · exact Clear.sign [] hb
  · refine .inl (fun c hc => ?_)
    rw [List.mem_singleton] at hc
    subst hc
    have h := h.resolve_left hb
    exact ⟨by simpa using hb, h⟩

theorem clear_string {t s} (h : StringText t s) : Clear t := by
  cases h with
  | mk hq _ _ =>
    rcases hq with rfl | rfl
    · exact Clear.sign _ (by decide +kernel)
    · exact Clear.sign _ (by decide +kernel)

theorem clear_bound {d t n} (h : BoundText d t n) : Clear t := by
  cases h with
  | none => exact Clear.nil
  | «open» => rw [← bs_dotdot]; exact Clear.sign _ (by decide +kernel)
  | num _ _ _ => rw [← bs_dotdot]; exact Clear.sign _ (by decide +kernel)

theorem clear_mod {E t u m} (h : ModFront E t u m) : Clear t := by
  cases h with
  | none => exact Clear.nil
  | some _ _ _ _ => rw [← bs_qm]; exact Clear.sign _ (by decide +kernel)

theorem clear_value {E o x} (h : FmtVal E o x) : Clear x.text := by
  cases h with
  | mk hm hp hc hb hs hw =>
    refine ((((clear_mod hm).append ?_).append (.inl (codesText_quiet hc))).append (clear_bound hb)
      |>.append ?_).append (Clear.ws hw)
    · cases hp with
      | none => exact Clear.nil
      | some h h' => exact (clear_string h).append (Clear.ws h')
    · cases hs with
      | none => exact Clear.nil
      | some h h' => exact (Clear.ws h).append (clear_string h')

theorem clear_seq {A : Type} {f : A → Bytes} {sg : Bytes} (hsg : Clear sg) {a : Seq A}
    (hs : a.signs (· = sg)) (ha : a.all (fun x => Clear (f x))) : Clear (a.text f) := by
  obtain ⟨hd, tl⟩ := a
  unfold Seq.text
  refine Clear.append ha.1 ?_
  have h2 := ha.2
  simp only [Seq.signs] at hs
  clear ha
  dsimp only at *
  induction tl with
  | nil => exact Clear.nil
  | cons x tl ih =>
    rw [List.map_cons, List.flatten_cons]
    refine Clear.append ?_ (ih (fun y hy => hs y (by simp [hy])) (fun y hy => h2 y (by simp [hy])))
    obtain ⟨e, hw⟩ := hs x (by simp)
    rw [e]
    exact hsg.append ((Clear.ws hw).append (h2 x (by simp)))

theorem clear_fmtSeq {P : FPart → Prop} (hP : ∀ x, P x → Clear x.text) {a : FmtSeq} (h : a.ok P) : Clear a.txt := by
  refine clear_seq (sg := bs "<*>") (.inr ⟨[], 0x3C, [0x2A, 0x3E], by decide +kernel, by simp [Quiet], by decide +kernel⟩) h.1 ?_
  have hi : ∀ x : FmtAnd, x.ok P → Clear x.txt := fun x hx =>
    clear_seq (sg := bs "<$>") (.inr ⟨[], 0x3C, [0x24, 0x3E], by decide +kernel, by simp [Quiet], by decide +kernel⟩) hx.1
      ⟨hP _ hx.2.1, fun y hy => hP _ (hx.2.2 y hy)⟩
  exact ⟨hi _ h.2.1, fun y hy => hi _ (h.2.2 y hy)⟩

theorem clear_part {E o} : ∀ (d : Nat) (x : FPart), FmtPart E o d x → Clear x.text := by
  intro d
  induction d with
  | zero => intro x h; exact clear_value h
  | succ d ih =>
    rintro x (h | h)
    · exact ih x h
    · cases h with
      | mk h0 hm hs _ h1 hb h2 =>
        have hl : Clear (bs "(") := by rw [bs_lpar]; exact clear_cons (.inr (by decide))
        have hr : Clear (bs ")") := by rw [bs_rpar]; exact clear_cons (.inr (by decide))
        exact (((((hl.append (Clear.ws h0)).append (clear_mod hm)).append (clear_fmtSeq ih hs)).append hr).append
          (Clear.ws h1) |>.append (clear_bound hb)).append (Clear.ws h2)

theorem loud_of_sign {t : Bytes} (h : Clear t) (hs : ∃ b ∈ t, b ∈ bs "<?'\".") : Loud t := by
  rcases h with h | h
  · obtain ⟨b, hb, hb'⟩ := hs
    have := (h b hb).1
    have h2 : isFmtSign b = true := by unfold isFmtSign; simpa using hb'
    rw [h2] at this
    simp at this
  · exact h

variable (E : FmtEnv) (o : FmtOpts)

/-- a format with a sign is not read as a path -/
theorem format_not_path {t to : Bytes} {m om} (hm : TagMatcher.new t = some m) (ho : OccMatcher.new to = some om)
    {w0 w1 X : Bytes} (h0 : Ws w0) (h1 : Ws w1) (hX : Loud X) (hn : NoWs X) (s : Levels) :
    pPath rx s (t ++ (to ++ (w0 ++ (0x7B :: (w1 ++ X))))) = (none, s) := by
  have hnw := fun r => tagText_noWs hm r
  have hocc : pOccMatcher (to ++ (w0 ++ (0x7B :: (w1 ++ X)))) = some (om, w0 ++ (0x7B :: (w1 ++ X))) :=
    pOccMatcher_follow ho (occStop_ws h0 (OccStop.cons (by decide)))
  have hsimple : pPathSimple (t ++ (to ++ (w0 ++ (0x7B :: (w1 ++ X))))) = none := by
    unfold pPathSimple
    refine map_none (withTaken_none (ws_none' ?_))
    rw [dws_of_noWs (hnw _).1]
    refine seq_none' (pTagMatcher_follow hm) (seq_none' hocc (preceded_none ?_))
    refine byte_none_of_head ?_
    cases w0 with
    | nil => simp
    | cons b w0 =>
      have := h0 b (by simp)
      simp only [List.cons_append, List.head?_cons, ne_eq, Option.some.injEq]
      rintro rfl
      revert this
      rw [← isMultispace_iff]
      decide
  have hopen : Pica.ws (byte 0x7B) (w0 ++ (0x7B :: (w1 ++ X))) = some (0x7B, X) := by
    rw [wsByte_dws (dws_append_noWs h0 (noWs_cons.2 (by decide))), dws_append_noWs h1 hn]
  unfold pPath
  rw [TParser.alt_right (TParser.lift_none hsimple)]
  unfold pPathCurly
  refine TParser.map_none (TParser.withTaken_none (tws_none ?_))
  rw [dws_of_noWs (hnw _).1]
  refine TParser.seq_none' (TParser.lift_run (pTagMatcher_follow hm)) (TParser.seq_none' (TParser.lift_run hocc) ?_)
  refine TParser.preceded_none' (TParser.lift_run hopen) ?_
  cases hc : pPathCodes X with
  | none => exact TParser.terminated_none (TParser.seq_none (TParser.lift_none hc))
  | some x =>
    obtain ⟨css, r⟩ := x
    obtain ⟨u, hu, hl⟩ := pPathCodes_reads _ _ _ hc
    obtain ⟨h2, h3⟩ := quiet_loud hX hu (codeLists_quiet hl)
    have hf : pFilterOpt rx s r = (some (none, r), s) := by
      unfold pFilterOpt
      exact TParser.opt_none (TParser.preceded_none (TParser.lift_none (ws_none' (byte_none_of_head h2))))
    refine TParser.terminated_none' (TParser.seq_run (TParser.lift_run hc) hf) (TParser.lift_none ?_)
    exact ws_none' (byte_none_of_head h3)

/-- a format is read up to the white space behind it -/
theorem format_follow {d : Nat} {t to sel w0 w1 tf v w2} {a : FmtSeq} (h1 : Selects t to sel) (h2 : Ws w0) (h3 : Ws w1)
    (h4 : a.ok (FmtPart E o d)) (h5 : FilterBody rx E.toEnv o.opts tf v) (h6 : Ws w2) {s : Levels}
    (hs : s.fmt + d ≤ 31) (hsub : s.sub = 0) (rest : Bytes) :
    ∃ fm : Format, pFormat rx s (t ++ to ++ w0 ++ bs "{" ++ w1 ++ a.txt ++ tf ++ bs "}" ++ w2 ++ rest) =
      (some (fm, dws rest), s) ∧ selOf fm.tag fm.occ = sel ∧
      subDen E.toEnv o.opts fm.sub = v ∧ RunsTo E o fm.fragments a.den := by
  obtain ⟨m, om, hm, ho, rfl⟩ := h1
  obtain ⟨mf, e1, e2⟩ := filterBody_run rx h5
  have htext : t ++ to ++ w0 ++ bs "{" ++ w1 ++ a.txt ++ tf ++ bs "}" ++ w2 ++ rest =
      t ++ (to ++ (w0 ++ (0x7B :: (w1 ++ (a.txt ++ (tf ++ (0x7D :: (w2 ++ rest)))))))) := by
    rw [← bs_lbrace, ← bs_rbrace]; simp
  have hk : a.txt.length ≤ (t ++ to ++ w0 ++ bs "{" ++ w1 ++ a.txt ++ tf ++ bs "}" ++ w2 ++ rest).length + 1 := by
    simp only [List.length_append]; omega
  obtain ⟨hsol, fr, e3, e4⟩ := fragments_run E o h4 hk hs
  have hend : FmtEnd (tf ++ (0x7D :: (w2 ++ rest))) := by
    cases h5 with
    | none => exact .inr (.inr (.inl rfl))
    | some _ _ => rw [← bs_bar]; exact .inr (.inr (.inr rfl))
  have hopen : Pica.ws (byte 0x7B) (w0 ++ (0x7B :: (w1 ++ (a.txt ++ (tf ++ (0x7D :: (w2 ++ rest))))))) =
      some (0x7B, a.txt ++ (tf ++ (0x7D :: (w2 ++ rest)))) := by
    rw [wsByte_dws (dws_append_noWs h2 (noWs_cons.2 (by decide))), dws_append_noWs h3 (hsol.noWs _)]
  obtain ⟨r', e5, e6⟩ := e2 s (0x7D :: (w2 ++ rest)) hsub rfl
  have hclose : Pica.ws (byte 0x7D) r' = some (0x7D, dws rest) := by
    rw [wsByte_dws e5, dws_append h6]
  have hbody := TParser.seq_run (TParser.lift_run (pTagMatcher_follow hm)) (TParser.seq_run
    (TParser.lift_run (pOccMatcher_follow ho (occStop_ws h2 (OccStop.cons (by decide)))))
    (TParser.delimited_run (TParser.lift_run hopen)
      (TParser.seq_run (e4 _ _ hend (dws_of_noWs (hsol.noWs _))) e6) (TParser.lift_run hclose)))
  rw [← htext] at hbody
  have hw : ∃ raw, TParser.withTaken (TParser.seq (TParser.lift pTagMatcher)
      (TParser.seq (TParser.lift pOccMatcher) (TParser.delimited (TParser.lift (Pica.ws (byte 0x7B)))
        (TParser.seq (pFragments ((t ++ to ++ w0 ++ bs "{" ++ w1 ++ a.txt ++ tf ++ bs "}" ++ w2 ++ rest).length + 1))
          (pFilterOpt rx)) (TParser.lift (Pica.ws (byte 0x7D)))))) s
      (t ++ to ++ w0 ++ bs "{" ++ w1 ++ a.txt ++ tf ++ bs "}" ++ w2 ++ rest) =
      (some (((m, om, fr, mf), raw), dws rest), s) := by
    unfold TParser.withTaken
    rw [hbody]
    exact ⟨_, rfl⟩
  obtain ⟨raw, hw⟩ := hw
  exact ⟨⟨m, om, mf, trimAscii raw, fr⟩, TParser.map_run hw, rfl, e1, e3⟩

/-! ## Meaning -/

theorem sameCodes_hits {css css' : List Bytes} (h : All2 SameCodes css css') {b : Byte} :
    (∃ cs ∈ css, b ∈ cs) ↔ ∃ cs ∈ css', b ∈ cs := by
  constructor
  · rintro ⟨cs, hcs, hb⟩
    obtain ⟨cs', h1, h2⟩ := h.mem_left cs hcs
    exact ⟨cs', h1, (h2 b).1 hb⟩
  · rintro ⟨cs, hcs, hb⟩
    obtain ⟨cs', h1, h2⟩ := h.mem_right cs hcs
    exact ⟨cs', h1, (h2 b).2 hb⟩

theorem sameCodes_addressed {sel v} {css css' : List Bytes} (h : All2 SameCodes css css') (r : Record) :
    addressed sel v css r = addressed sel v css' r := by
  unfold addressed
  congr 1
  apply List.filter_congr
  intro x _
  rw [decide_eq_decide]
  unfold Addressed
  rw [sameCodes_hits h]

theorem sameCodes_column {cs cs' : Bytes} (h : SameCodes cs cs') (f : Field) : columnValues f cs = columnValues f cs' := by
  unfold columnValues
  congr 1
  apply List.filter_congr
  intro x _
  rw [decide_eq_decide]
  exact h x.code

theorem all2_map_eq {α β : Type} {R : α → α → Prop} {f : α → β} (hf : ∀ a b, R a b → f a = f b) {l l' : List α}
    (h : All2 R l l') : l.map f = l'.map f := by
  induction h with
  | nil => rfl
  | cons h _ ih => rw [List.map_cons, List.map_cons, hf _ _ h, ih]

theorem sameCodes_rows {o : QueryOpts} {sel v} {css css' : List Bytes} (h : All2 SameCodes css css') (r : Record) :
    pathRows o sel v css r = pathRows o sel v css' r := by
  unfold pathRows
  rw [all2_map_eq (f := fun _ => ([] : Bytes)) (fun _ _ _ => rfl) h]
  congr 1
  congr 1
  · congr 1
    funext f
    exact all2_map_eq (fun a b hab => by rw [sameCodes_column hab]) h
  · congr 1
    funext f
    congr 1
    exact all2_map_eq (fun a b hab => by unfold cells; rw [sameCodes_column hab]) h

/-- a fragment is read: `m` are its rows -/
def FragRuns (E : FmtEnv) (q : QueryOpts) (s : Levels) (t : Bytes) (n : Nat) (m : Record → List (List Bytes)) : Prop :=
  ∀ rest, ∃ fr r', pQFragment rx s (t ++ rest) = (some (fr, r'), s) ∧ (r' = rest ∨ r' = dws rest) ∧ columns fr = n ∧
    (RegexOk rx E.toEnv q.opts → ∀ r, fr.run E q r = some (m r))

theorem pathFrag_run {q : QueryOpts} {t sel v css} (h : PathBody rx E.toEnv q.opts t sel v css) {s : Levels} (hs : s.sub = 0)
    {w : Bytes} (hw : Ws w) : FragRuns rx E q s (w ++ t) css.length (pathRows q sel v css) := by
  intro rest
  obtain ⟨-, -, h3⟩ := pathBody_run rx h hs
  obtain ⟨p, ⟨rfl, rfl, hp⟩, hrun⟩ := h3 w hw rest
  refine ⟨.path p, dws rest, TParser.alt_left (TParser.map_run hrun), .inr rfl, hp.length, fun hr r => ?_⟩
  obtain ⟨u, _, hu, _⟩ := pPath_sound rx E.toEnv q.opts _ _ _ _ _ hrun
  obtain ⟨m, _, hm⟩ := path_ok rx E q hu
  have h1 := hm hr r
  rw [h1, path_rows_spec (pathText_codes_ne hu) h1, sameCodes_rows hp]

theorem literalFrag_run {q : QueryOpts} {t x} (h : StringText t x) {s : Levels} :
    FragRuns rx E q s t 1 (fun _ => [[x]]) := by
  intro rest
  refine ⟨.literal x, rest, ?_, .inl rfl, rfl, fun _ _ => rfl⟩
  unfold pQFragment
  have hp := pString_complete h rest
  have hno : pPath rx s (t ++ rest) = (none, s) := by
    cases h with
    | @mk qt u _ hq _ _ =>
      have hq' : qt = 0x27 ∨ qt = 0x22 := hq
      have e : [qt] ++ u ++ [qt] ++ rest = qt :: (u ++ [qt] ++ rest) := by simp
      have hws : isMultispace qt = false := by rcases hq' with rfl | rfl <;> rfl
      have hno : pTagMatcher (dws (qt :: (u ++ [qt] ++ rest))) = none := by
        rw [dws_cons _ hws]
        rcases hq' with rfl | rfl <;> rfl
      rw [e]
      unfold pPath
      have h1 : pPathSimple (qt :: (u ++ [qt] ++ rest)) = none := by
        unfold pPathSimple
        exact map_none (withTaken_none (ws_none' (seq_none hno)))
      rw [TParser.alt_right (TParser.lift_none h1)]
      unfold pPathCurly
      exact TParser.map_none (TParser.withTaken_none (tws_none (TParser.seq_none (TParser.lift_none hno))))
  rw [TParser.alt_right (TParser.map_none hno)]
  exact TParser.alt_left (TParser.lift_run (map_run hp))

theorem tag_not_string {t m} (h : TagMatcher.new t = some m) (r : Bytes) : pString (t ++ r) = none := by
  have hh : (t ++ r).head? ≠ some 0x27 ∧ (t ++ r).head? ≠ some 0x22 := by
    have hrun : pTagMatcher (t ++ r) = some (m, r) := pTagMatcher_follow h
    constructor
    · intro hc
      cases hx : t ++ r with
      | nil => rw [hx] at hc; simp at hc
      | cons b y =>
        rw [hx] at hc hrun
        simp only [List.head?_cons, Option.some.injEq] at hc
        subst hc
        have : pTagMatcher (0x27 :: y) = none := rfl
        rw [this] at hrun
        simp at hrun
    · intro hc
      cases hx : t ++ r with
      | nil => rw [hx] at hc; simp at hc
      | cons b y =>
        rw [hx] at hc hrun
        simp only [List.head?_cons, Option.some.injEq] at hc
        subst hc
        have : pTagMatcher (0x22 :: y) = none := rfl
        rw [this] at hrun
        simp at hrun
  unfold pString
  refine verify_none ?_
  rw [alt_right]
  · unfold pQuoted; exact preceded_none (byte_none_of_head hh.2)
  · unfold pQuoted; exact preceded_none (byte_none_of_head hh.1)

theorem fragBody_run {q : QueryOpts} {d : Nat} {t n m} (h : FragBody rx E q d t n m) {s : Levels}
    (hs : s.fmt + d ≤ 31) (hsub : s.sub = 0) : Solid t ∧ FragRuns rx E q s t n m := by
  cases h with
  | path h =>
    obtain ⟨h1, h2, -⟩ := pathBody_run rx h hsub
    exact ⟨⟨h1, h2⟩, pathFrag_run rx E h hsub (w := []) (by simp [Ws])⟩
  | literal h =>
    refine ⟨⟨?_, (stringText_head h []).2⟩, literalFrag_run rx E h⟩
    have := (stringText_head h []).1
    rwa [List.append_nil] at this
  | @format t to sel w0 w1 tf v w2 a h1 h2 h3 h4 hl h5 h6 =>
    constructor
    · obtain ⟨m, om, hm, ho, -⟩ := h1
      have := tagText_noWs hm (to ++ w0 ++ bs "{" ++ w1 ++ a.txt ++ tf ++ bs "}" ++ w2)
      exact ⟨by simpa [List.append_assoc] using this.1, by simp [this.2]⟩
    · intro rest
      obtain ⟨fm, hrun, e1, e2, e3⟩ := format_follow rx E q.fmtOpts h1 h2 h3 h4 h5 h6 hs hsub rest
      obtain ⟨m, om, hm, ho, rfl⟩ := h1
      refine ⟨.format fm, dws rest, ?_, .inr rfl, rfl, fun hr r => ?_⟩
      · have htext : t ++ to ++ w0 ++ bs "{" ++ w1 ++ a.txt ++ tf ++ bs "}" ++ w2 ++ rest =
            t ++ (to ++ (w0 ++ (0x7B :: (w1 ++ (a.txt ++ (tf ++ (0x7D :: (w2 ++ rest)))))))) := by
          rw [← bs_lbrace, ← bs_rbrace]; simp
        have hloud := loud_of_sign (clear_fmtSeq (clear_part d) h4) hl
        have hsol := (fragments_run E q.fmtOpts h4 (Nat.le_refl _) hs).1
        have hno := format_not_path rx hm ho h2 h3 (hloud.append (tf ++ (0x7D :: (w2 ++ rest)))) (hsol.noWs _) s
        unfold pQFragment
        rw [TParser.alt_right (TParser.map_none (by rw [htext]; exact hno))]
        rw [TParser.alt_right (TParser.lift_none (map_none (by rw [htext]; exact tag_not_string hm _)))]
        exact TParser.map_run hrun
      · obtain ⟨u, _, g, hu, _⟩ := pFormat_sound E q.fmtOpts rx _ _ _ _ _ hrun
        simp only [QFragment.run]
        rw [format_run e3 (fun f _ => fieldTest_total.2 (fun _ => formatText_total hr hu _))]
        simp only
        rw [← e1, ← e2]
        unfold stringRows
        by_cases hv : rendered (selOf fm.tag fm.occ) (subDen E.toEnv q.fmtOpts.opts fm.sub) a.den r = []
        · simp only [hv]; rfl
        · rw [if_neg hv, if_neg (by simpa using hv)]

/-- fragments and rows -/
def FragsMean (E : FmtEnv) (q : QueryOpts) (frs : List QFragment) (ms : List (Nat × (Record → List (List Bytes)))) : Prop :=
  All2 (fun fr m => m.1 = columns fr ∧ (RegexOk rx E.toEnv q.opts → ∀ r, fr.run E q r = some (m.2 r))) frs ms

theorem frags_run {q : QueryOpts} {d : Nat} {s : Levels} (hs : s.fmt + d ≤ 31) (hsub : s.sub = 0) :
    ∀ {t ms}, QueryBody rx E q d t ms → Solid t ∧ ∃ n m ms', ms = (n, m) :: ms' ∧
      ∃ t0 t1, t = t0 ++ t1 ∧ FragBody rx E q d t0 n m ∧ ∃ frs, FragsMean rx E q frs ms' ∧
        ∀ k i, i.length ≤ k → (i = t1 ∨ i = dws t1) →
          TParser.separatedAux (pQFragment rx) (Pica.ws (byte 0x2C)) k s i = (some (frs, []), s) := by
  intro t ms h
  induction h with
  | @one t n m h =>
    refine ⟨(fragBody_run rx E h hs hsub).1, n, m, [], rfl, t, [], by simp, h, [], .nil, fun k i _ hi => ?_⟩
    have : i = [] := by rcases hi with rfl | rfl <;> rfl
    subst this
    cases k with
    | zero => rfl
    | succ k => rfl
  | @more t n m sep t' ms h hsep h' ih =>
    obtain ⟨w, w', rfl, hw, hw'⟩ := hsep
    obtain ⟨hsol, n2, m2, ms', rfl, t0, t1, rfl, hf, frs, hfr, hrun⟩ := ih
    obtain ⟨hsol0, hruns⟩ := fragBody_run rx E hf hs hsub
    obtain ⟨fr, r', e1, e2, e3, e4⟩ := hruns t1
    refine ⟨⟨?_, ?_⟩, n, m, _, rfl, t, w ++ [0x2C] ++ w' ++ (t0 ++ t1), by simp, h, fr :: frs,
      .cons ⟨e3.symm, e4⟩ hfr, fun k i hk hi => ?_⟩
    · rw [List.append_assoc]; exact (fragBody_run rx E h hs hsub).1.noWs _
    · have := (fragBody_run rx E h hs hsub).1.2; simp [this]
    · have hd : dws i = 0x2C :: (w' ++ (t0 ++ t1)) := by
        have : dws (w ++ [0x2C] ++ w' ++ (t0 ++ t1)) = 0x2C :: (w' ++ (t0 ++ t1)) := by
          rw [show w ++ [0x2C] ++ w' ++ (t0 ++ t1) = w ++ (0x2C :: (w' ++ (t0 ++ t1))) by simp]
          exact dws_append_noWs hw (noWs_cons.2 (by decide))
        rcases hi with rfl | rfl
        · exact this
        · rw [dws_dws, this]
      have hlen : ∀ x : Bytes, (dws x).length ≤ x.length := fun x => (List.dropWhile_suffix _).length_le
      have hk1 := hlen i
      have hk2 : r'.length ≤ t1.length := by
        rcases e2 with rfl | rfl
        · exact Nat.le_refl _
        · exact hlen t1
      rw [hd] at hk1
      simp only [List.length_append, List.length_cons] at hk1
      obtain ⟨k, rfl⟩ : ∃ k', k = k' + 1 := ⟨k - 1, by omega⟩
      rw [TParser.separatedAux, wsByte_dws hd]
      dsimp only
      rw [dws_append_noWs hw' (hsol0.noWs _), e1]
      dsimp only
      rw [hrun k r' (by omega) e2]

/-- a query is accepted -/
theorem queryBody_run {q : QueryOpts} {d : Nat} {s : Levels} (hs : s.fmt + d ≤ 31) (hsub : s.sub = 0) {t ms}
    (h : QueryBody rx E q d t ms) : ∃ qu, Query.new rx s t = (some qu, s) ∧ FragsMean rx E q qu.fragments ms := by
  obtain ⟨hsol, n, m, ms', rfl, t0, t1, rfl, hf, frs, hfr, hrun⟩ := frags_run rx E hs hsub h
  obtain ⟨fr, r', e1, e2, e3, e4⟩ := (fragBody_run rx E hf hs hsub).2 t1
  refine ⟨⟨fr :: frs, t0 ++ t1⟩, TParser.parseAll_eq_some.2 ?_, .cons ⟨e3.symm, e4⟩ hfr⟩
  unfold pQuery
  refine TParser.map_run (a := (fr :: frs, t0 ++ t1)) (TParser.withTaken_run ?_ (by simp))
  unfold TParser.separated
  rw [e1]
  dsimp only
  rw [hrun _ r' (Nat.le_succ _) e2]
  simp

end Pica
