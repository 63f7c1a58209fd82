import Verif.Lemmas.Compat
import Verif.Lemmas.FieldAlt
import Verif.Lemmas.PathRun
import Verif.Spec.Compat
import Verif.Model.Construct

/-! What the parsers of the feature `compat` do with `$`. -/

namespace Pica
open Parser Spec

theorem code_iff {b : Byte} : isAlnum b = true ↔ IsCode b := by
  unfold isAlnum isDigit isUpper isLower IsCode; simp [or_assoc]

theorem codeOne_run {b : Byte} (h : IsCode b) (r : Bytes) :
    map (fun c => [c]) pSubfieldCode (b :: r) = some ([b], r) :=
  map_run (a := b) (oneOf_eq_some.2 ⟨rfl, code_iff.2 h⟩)

theorem codeOne_none {r : Bytes} (h : CodesEnd r) : map (fun c => [c]) pSubfieldCode r = none := by
  apply map_none
  cases r with
  | nil => rfl
  | cons b y =>
    have : isAlnum b = false := by
      cases e : isAlnum b
      · rfl
      · exact absurd (code_iff.1 e) (h b rfl)
    simp [pSubfieldCode, oneOf, this]

theorem codes_loop {p : Parser Bytes} {r : Bytes} (h0 : p r = none) : ∀ (cs : Bytes) (n : Nat),
    (∀ b y, (b :: y) <:+ cs → p (b :: (y ++ r)) = some ([b], y ++ r)) → cs.length ≤ n →
    repeat0Aux p n (cs ++ r) = some (cs.map (fun c => [c]), r)
  | [], n, _, _ => repeat0Aux_stop h0
  | b :: cs, 0, _, hn => by simp at hn
  | b :: cs, n + 1, h, hn => by
    refine repeat0Aux_step (h b cs (List.suffix_refl _)) (by simp) (codes_loop h0 cs n (fun c y hy =>
      h c y (hy.trans (List.suffix_cons _ _))) (by simpa using hn))

theorem flatten_codes (cs : Bytes) : (cs.map (fun c => [c])).flatten = cs := by
  induction cs with
  | nil => rfl
  | cons b cs ih => simp [ih]

theorem codes_run {p : Parser Bytes} {cs r : Bytes} (hne : cs ≠ []) (h0 : p r = none)
    (h : ∀ b y, (b :: y) <:+ cs → p (b :: (y ++ r)) = some ([b], y ++ r)) :
    map List.flatten (repeat1 p) (cs ++ r) = some (cs, r) := by
  obtain ⟨b, y, rfl⟩ := List.exists_cons_of_ne_nil hne
  have h1 : repeat1 p (b :: y ++ r) = some ((b :: y).map (fun c => [c]), r) := by
    unfold repeat1
    rw [show (b :: y ++ r) = b :: (y ++ r) from rfl, h b y (List.suffix_refl _)]
    have := codes_loop h0 y ((y ++ r).length + 1)
      (fun c z hz => h c z (hz.trans (List.suffix_cons _ _))) (by simp; omega)
    unfold repeat0
    simp only [this]
    rfl
  rw [map_run h1, flatten_codes]

theorem codeRange_none {b : Byte} {r : Bytes} (h : r.head? ≠ some 0x2D) : pCodeRange (b :: r) = none := by
  apply map_none; apply verify_none
  unfold separatedPair
  cases e : isAlnum b with
  | true =>
    exact seq_none' (oneOf_eq_some.2 ⟨rfl, e⟩) (preceded_none (byte_none_of_head h))
  | false => exact seq_none (by simp [pSubfieldCode, oneOf, e])

theorem isCode_noWs {b : Byte} (h : IsCode b) (r : Bytes) : NoWs (b :: r) :=
  codeHead_noWs (.inl h) r

theorem dollarAs_run {u d : Bytes} (h : DollarAs u d) : ∃ cs,
    (∀ r, CodesEnd r → Compat.pCodesCompat (u ++ r) = some (cs, r)) ∧ (∀ r, pCodes (d ++ r) = some (cs, r)) ∧
    (∀ r, NoWs (u ++ r)) ∧ u ≠ [] ∧ ∀ r, NoWs (d ++ r) := by
  cases h with
  | list cs hne hc =>
    refine ⟨_, fun r hr => alt_left (codes_run hne (codeOne_none hr) fun b y hy =>
      codeOne_run (hc b (hy.mem List.mem_cons_self)) _), fun r => alt_left ?_, fun r => ?_, hne, fun r => ?_⟩
    · rw [List.append_assoc, List.append_assoc]
      unfold pCodeList
      refine delimited_run (byte_cons_self _ _) (codes_run (r := [0x5D] ++ r) hne ?_ fun b y hy => ?_)
        (byte_cons_self _ _)
      · rw [alt_right (show pCodeRange ([0x5D] ++ r) = none from map_none (verify_none (by rfl)))]; exact map_none (by rfl)
      · rw [alt_right (codeRange_none ?_)]
        · exact codeOne_run (hc b (hy.mem List.mem_cons_self)) _
        · cases y with
          | nil => simp
          | cons c z =>
            have := hc c (hy.mem (List.mem_cons_of_mem _ List.mem_cons_self))
            simpa using (isCode_not_special this).2.2.2.1
    · obtain ⟨b, y, rfl⟩ := List.exists_cons_of_ne_nil hne
      exact isCode_noWs (hc b List.mem_cons_self) _
    · exact noWs_cons.2 (by decide)
  | all =>
    refine ⟨allCodes, fun r _ => ?_, fun r => ?_, fun r => noWs_cons.2 (by decide), by simp,
      fun r => noWs_cons.2 (by decide)⟩
    · unfold Compat.pCodesCompat Compat.pCodeListCompat
      rw [alt_right (map_none (by rfl))]
      exact value_eq_some.2 ⟨rfl, _, byte_cons_self _ _⟩
    · unfold pCodes
      rw [alt_right (by rfl), alt_right (map_none (by rfl))]
      exact value_eq_some.2 ⟨rfl, _, byte_cons_self _ _⟩

theorem codesEnd_ws {w r : Bytes} (hw : Ws w) (hr : CodesEnd r) : CodesEnd (w ++ r) := by
  cases w with
  | nil => exact hr
  | cons b w =>
    intro c hc
    obtain rfl : b = c := by simpa using hc
    intro h
    have := noWs_cons.1 (isCode_noWs h [])
    rcases hw b List.mem_cons_self with rfl | rfl | rfl | rfl <;> simp [isMultispace] at this

theorem codesEnd_cons {b : Byte} {r : Bytes} (h : isAlnum b = false) : CodesEnd (b :: r) := by
  intro c hc hh
  obtain rfl : b = c := by simpa using hc
  rw [code_iff.2 hh] at h; cases h

theorem pDollar_run {u d : Bytes} (h : DollarAs u d) : ∃ cs,
    (∀ w w' r, Ws w → Ws w' → CodesEnd r → Compat.pDollar true (w ++ 0x24 :: (w' ++ (u ++ r))) = some (cs, dws r)) ∧
    (∀ r, pCodes (d ++ r) = some (cs, r)) ∧ ∀ r, NoWs (d ++ r) := by
  obtain ⟨cs, h1, h2, h3, h4, h5⟩ := dollarAs_run h
  refine ⟨cs, fun w w' r hw hw' hr => ?_, h2, h5⟩
  unfold Compat.pDollar Compat.cfg
  rw [if_pos rfl]
  have e : Pica.ws (byte 0x24) (w ++ 0x24 :: (w' ++ (u ++ r))) = some (0x24, u ++ r) := by
    rw [ws_run' (a := 0x24) (r := w' ++ (u ++ r)), dws_append_noWs hw' (h3 r)]
    rw [dws_append_noWs hw (noWs_cons.2 (by decide))]; exact byte_cons_self _ _
  exact preceded_run e (ws_run' (by rw [dws_of_noWs (h3 r)]; exact h1 r hr))

theorem dollarCodes_none (r : Bytes) : pCodes (0x24 :: r) = none := by
  unfold pCodes
  rw [alt_right (by rfl), alt_right (map_none (by rfl))]
  rfl

/-! ### paths -/

theorem dollarList_run {t e : Bytes} (h : DollarList t e) {X : Bytes} (hX : CodesEnd X)
    (hX' : (dws X).head? ≠ some 0x2C) : ∃ c css,
    (∃ r, Compat.pPathCode true (t ++ X) = some (c, r) ∧ r.length ≤ (t ++ X).length ∧ ∀ n, r.length ≤ n →
      separatedAux (Compat.pPathCode true) (Pica.ws (byte 0x2C)) n r = some (css, dws X)) ∧
    (∃ r, Compat.pPathCode true (e ++ X) = some (c, r) ∧ r.length ≤ (e ++ X).length ∧ ∀ n, r.length ≤ n →
      separatedAux (Compat.pPathCode true) (Pica.ws (byte 0x2C)) n r = some (css, X)) ∧
    NoWs (t ++ X) ∧ NoWs (e ++ X) := by
  have hs : ∀ n Y, dws Y = dws X →
      separatedAux (Compat.pPathCode true) (Pica.ws (byte 0x2C)) n Y = some ([], Y) := by
    intro n Y hY
    cases n with
    | zero => rfl
    | succ n =>
      have : Pica.ws (byte 0x2C) Y = none := ws_none' (byte_none_of_head (by rw [hY]; exact hX'))
      rw [separatedAux]
      simp only [this]
  have hd : ∀ {r x}, Compat.pDollar true (0x24 :: r) = some x → Compat.pPathCode true (0x24 :: r) = some x := by
    intro r x h
    unfold Compat.pPathCode
    rw [alt_right (dollarCodes_none r)]
    exact h
  induction h with
  | @one u d h =>
    obtain ⟨cs, h1, h2, h3⟩ := pDollar_run h
    have hl := dws_length X
    exact ⟨cs, [], ⟨_, hd (h1 [] [] X (by simp [Ws]) (by simp [Ws]) hX), by simp; omega,
        fun n _ => hs n _ (dws_dws X)⟩,
      ⟨X, alt_left (h2 X), by simp, fun n _ => hs n _ rfl⟩, noWs_cons.2 (by decide), h3 X⟩
  | @more u d w w' v v' t e h hw hw' hv hv' ht ih =>
    obtain ⟨cs, h1, h2, h3⟩ := pDollar_run h
    obtain ⟨c, css, ⟨r, g1, g1', g2⟩, ⟨r', g3, g3', g4⟩, g5, g6⟩ := ih
    have aux : ∀ {w' t r css Y Z}, Ws w' → NoWs (t ++ X) → dws Y = 0x2C :: (w' ++ (t ++ X)) →
        Compat.pPathCode true (t ++ X) = some (c, r) → r.length ≤ (t ++ X).length →
        (∀ n, r.length ≤ n →
          separatedAux (Compat.pPathCode true) (Pica.ws (byte 0x2C)) n r = some (css, Z)) →
        ∀ n, Y.length ≤ n →
        separatedAux (Compat.pPathCode true) (Pica.ws (byte 0x2C)) n Y = some (c :: css, Z) := by
      intro w' t r css Y Z hw' hn hY k1 hr k2 n hl
      have hl' := dws_length Y
      rw [hY] at hl'
      simp only [List.length_cons, List.length_append] at hl' hr
      cases n with
      | zero => omega
      | succ n =>
        have e1 : Pica.ws (byte 0x2C) Y = some (0x2C, t ++ X) := by
          rw [ws_run' (a := 0x2C) (r := w' ++ (t ++ X)), dws_append_noWs hw' hn]
          rw [hY]; exact byte_cons_self _ _
        rw [separatedAux]
        simp only [e1, k1, k2 n (by omega)]
    have eY : ∀ {w w' t : Bytes}, Ws w → dws (w ++ 0x2C :: (w' ++ (t ++ X))) = 0x2C :: (w' ++ (t ++ X)) :=
      fun hw => dws_append_noWs hw (noWs_cons.2 (by decide))
    have e1 : 0x24 :: (u ++ (w ++ [0x2C] ++ w' ++ t)) ++ X = [] ++ 0x24 :: ([] ++ (u ++ (w ++ 0x2C :: (w' ++ (t ++ X))))) := by
      simp
    have e2 : d ++ (v ++ [0x2C] ++ v' ++ e) ++ X = d ++ (v ++ 0x2C :: (v' ++ (e ++ X))) := by simp
    rw [e1, e2]
    refine ⟨cs, c :: css, ⟨_, hd (h1 [] [] _ (by simp [Ws]) (by simp [Ws])
        (codesEnd_ws hw (codesEnd_cons (by decide)))), ?_,
          aux hw' g5 ((dws_dws _).trans (eY hw)) g1 g1' g2⟩,
      ⟨_, alt_left (h2 _), by simp, aux hv' g6 (eY hv) g3 g3' g4⟩, noWs_cons.2 (by decide), h3 _⟩
    rw [eY hw]; simp; omega

theorem dollarList_codes {t e : Bytes} (h : DollarList t e) {X : Bytes} (hX : CodesEnd X)
    (hX' : (dws X).head? ≠ some 0x2C) : ∃ css, Compat.pPathCodes true (t ++ X) = some (css, dws X) ∧
      Compat.pPathCodes true (e ++ X) = some (css, X) ∧ NoWs (t ++ X) ∧ NoWs (e ++ X) := by
  obtain ⟨c, css, ⟨r, g1, -, g2⟩, ⟨r', g3, -, g4⟩, g5, g6⟩ := dollarList_run h hX hX'
  refine ⟨c :: css, alt_left ?_, alt_left ?_, g5, g6⟩
  · unfold separated1; simp only [g1, g2 _ (Nat.le_succ _)]
  · unfold separated1; simp only [g3, g4 _ (Nat.le_succ _)]

theorem filterOpt_dws (c : Bool) (rx : Bytes → Bool) (s : Levels) (i : Bytes) {α : Type} (K : Parser α) :
    TParser.terminated (Compat.pFilterOpt c rx) (TParser.lift (Pica.ws K)) s (dws i) =
      TParser.terminated (Compat.pFilterOpt c rx) (TParser.lift (Pica.ws K)) s i := by
  have e : TParser.preceded (TParser.lift (Pica.ws (byte 0x7C))) (Compat.pSubMatcher c rx) s (dws i) =
      TParser.preceded (TParser.lift (Pica.ws (byte 0x7C))) (Compat.pSubMatcher c rx) s i := by
    unfold TParser.preceded TParser.seq TParser.lift TParser.map
    simp only [ws_dws]
  unfold TParser.terminated Compat.pFilterOpt TParser.opt TParser.map TParser.seq
  simp only [e]
  generalize TParser.preceded (TParser.lift (Pica.ws (byte 0x7C))) (Compat.pSubMatcher c rx) s i = y
  obtain ⟨_ | ⟨a, r⟩, s'⟩ := y
  · simp only [TParser.lift, ws_dws]
  · rfl

theorem terminated_lift {α β γ : Type} {p : Parser α} {q : TParser β} {z : TParser γ} {i a j} (h : p i = some (a, j))
    (s : Levels) : TParser.terminated (TParser.seq (TParser.lift p) q) z s i =
      TParser.map (fun b => (a, b)) (TParser.terminated q z) s j := by
  unfold TParser.terminated TParser.map TParser.seq TParser.lift
  simp only [h]
  generalize q s j = y
  obtain ⟨_ | ⟨b, r⟩, s'⟩ := y
  · rfl
  · dsimp only
    generalize z s' r = y
    obtain ⟨_ | ⟨b, r⟩, s'⟩ := y <;> rfl

theorem seq_lift {α β : Type} {p : Parser α} {q : TParser β} {i a j} (h : p i = some (a, j)) (s : Levels) :
    TParser.seq (TParser.lift p) q s i = TParser.map (fun b => (a, b)) q s j := by
  unfold TParser.seq TParser.map TParser.lift
  simp only [h]
  generalize q s j = y
  obtain ⟨_ | ⟨b, r⟩, s'⟩ := y <;> rfl

theorem preceded_lift {α β : Type} {p : Parser α} {q : TParser β} {i a j} (h : p i = some (a, j)) (s : Levels) :
    TParser.preceded (TParser.lift p) q s i = q s j := by
  unfold TParser.preceded
  rw [TParser.map, seq_lift h]
  unfold TParser.map
  generalize q s j = y
  obtain ⟨_ | ⟨b, r⟩, s'⟩ := y <;> rfl

theorem map_congr' {α β : Type} {p : TParser α} {q : TParser α} {f : α → β} {s i j} (h : p s i = q s j) :
    TParser.map f p s i = TParser.map f q s j := by
  unfold TParser.map; rw [h]

theorem map_map' {α β γ : Type} {p : TParser α} {f : α → β} {g : β → γ} (s : Levels) (i : Bytes) :
    TParser.map g (TParser.map f p) s i = TParser.map (fun x => g (f x)) p s i := by
  unfold TParser.map
  generalize p s i = y
  obtain ⟨_ | ⟨b, r⟩, s'⟩ := y <;> rfl

theorem tws_congr {α : Type} {p q : TParser α} {s i j} (h : p s (dws i) = q s (dws j)) : tws p s i = tws q s j := by
  cases e : q s (dws j) with
  | mk a s' =>
    cases a with
    | none => rw [tws_none (h.trans e), tws_none e]
    | some x => rw [tws_run (a := x.1) (r := x.2) (h.trans e), tws_run (a := x.1) (r := x.2) e]

/-- what the two texts of a path in braces have in common -/
theorem braces_same {t0 o0 tm om t e X w} (ht : TagMatcher.new t0 = some tm) (ho : OccMatcher.new o0 = some om)
    (hw : Ws w) (h : DollarList t e) (hX : CodesEnd X) (hX' : (dws X).head? ≠ some 0x2C) (rx : Bytes → Bool)
    (s : Levels) : ∃ css, ∀ y, y = t ∨ y = e →
    (tws (TParser.seq (TParser.lift pTagMatcher) (TParser.seq (TParser.lift pOccMatcher)
      (TParser.delimited (TParser.lift (Pica.ws (byte 0x7B)))
        (TParser.seq (TParser.lift (Compat.pPathCodes true)) (Compat.pFilterOpt true rx))
        (TParser.lift (Pica.ws (byte 0x7D)))))) s (t0 ++ (o0 ++ 0x7B :: (w ++ (y ++ X)))) =
      tws (TParser.map (fun f => (tm, om, css, f))
        (TParser.terminated (Compat.pFilterOpt true rx) (TParser.lift (Pica.ws (byte 0x7D))))) s X) ∧
    Compat.pPathSimple true (t0 ++ (o0 ++ 0x7B :: (w ++ (y ++ X)))) = none := by
  obtain ⟨css, h1, h2, h3, h4⟩ := dollarList_codes h hX hX'
  refine ⟨css, fun y hy => ⟨tws_congr ?_, ?_⟩⟩
  · have hn : NoWs (y ++ X) := by rcases hy with rfl | rfl <;> assumption
    rw [dws_of_noWs (tagText_noWs ht _).1, seq_lift (pTagMatcher_follow ht)]
    have eo := pOccMatcher_follow (r := 0x7B :: (w ++ (y ++ X))) ho (OccStop.cons (by decide))
    rw [map_congr' (seq_lift eo s), map_map']
    have eb : Pica.ws (byte 0x7B) (0x7B :: (w ++ (y ++ X))) = some (0x7B, y ++ X) := by
      rw [ws_run' (a := 0x7B) (r := w ++ (y ++ X)), dws_append_noWs hw hn]
      rw [dws_cons _ (by decide)]; exact byte_cons_self _ _
    unfold TParser.delimited
    rw [map_congr' (preceded_lift eb s)]
    have : ∃ j, dws j = dws X ∧ Compat.pPathCodes true (y ++ X) = some (css, j) := by
      rcases hy with rfl | rfl
      · exact ⟨_, dws_dws X, h1⟩
      · exact ⟨_, rfl, h2⟩
    obtain ⟨j, hj, hc⟩ := this
    rw [map_congr' (terminated_lift hc s), map_map']
    refine map_congr' ?_
    rw [← filterOpt_dws, hj]
  · unfold Compat.pPathSimple
    refine map_none (withTaken_none (ws_none' ?_))
    rw [dws_of_noWs (tagText_noWs ht _).1]
    refine seq_none' (pTagMatcher_follow ht) (seq_none' (pOccMatcher_follow ho (OccStop.cons (by decide))) ?_)
    rw [alt_right (preceded_none (byte_cons_ne (by decide) _))]
    unfold Compat.pDollar Compat.cfg
    rw [if_pos rfl]
    exact preceded_none (ws_none' (by rw [dws_cons _ (by decide)]; exact byte_cons_ne (by decide) _))

/-- the parts of a path except for its text -/
def Path.parts (p : Path) : TagMatcher × OccMatcher × Option SubMatcher × List Bytes :=
  (p.tag, p.occ, p.sub, p.codes)

theorem curly_same {s : Levels} {i j : Bytes}
    {core : TParser (TagMatcher × OccMatcher × List Bytes × Option SubMatcher)} (h : core s i = core s j)
    {q : TParser Path} (hq : q = TParser.map (fun x => ⟨x.1.1, x.1.2.1, x.1.2.2.2, x.1.2.2.1, x.2⟩)
      (TParser.withTaken core)) :
    (TParser.parseAll q s i).2 = (TParser.parseAll q s j).2 ∧
      (TParser.parseAll q s i).1.map Path.parts = (TParser.parseAll q s j).1.map Path.parts := by
  subst hq
  unfold TParser.parseAll TParser.map TParser.withTaken
  simp only [h]
  generalize core s j = y
  obtain ⟨_ | ⟨a, _ | ⟨b, r⟩⟩, s'⟩ := y
  · exact ⟨rfl, rfl⟩
  · exact ⟨rfl, rfl⟩
  · exact ⟨rfl, rfl⟩

/-! ### subfield matchers -/

theorem quant_run' {sp : Bool} {tq q} (hq : QuantText sp tq q) {r : Bytes} (h : NoWs r)
    (hA : r.head? ≠ some 0x41) : pQuant sp (tq ++ r) = some (q, r) := by
  rcases quantText_cases hq with ⟨rfl, rfl⟩ | ⟨w, w', rfl, hw, hw', hs⟩
  · refine map_run (a := none) (opt_none (ws_none' ?_))
    rw [List.nil_append, dws_of_noWs h]
    cases sp
    · exact pQuantifier_noA hA
    · exact terminated_none (pQuantifier_noA hA)
  · rw [pQuant_sign hw hw' hs, dws_of_noWs h]

theorem dollarAs_head {u d : Bytes} (h : DollarAs u d) (r : Bytes) : (d ++ r).head? ≠ some 0x41 := by
  cases h <;> simp

theorem dollar_same {β : Type} {sp : Bool} {tq q u d y} (hq : QuantText sp tq q) (h : DollarAs u d)
    (hy : CodesEnd y) (K : Parser β) :
    seq (pQuant sp) (seq (alt (Pica.ws pCodes) (Compat.pDollar true)) K) (tq ++ 0x24 :: (u ++ y)) =
      seq (pQuant sp) (seq (Pica.ws pCodes) K) (tq ++ (d ++ y)) := by
  obtain ⟨cs, h1, h2, h3⟩ := pDollar_run h
  have e1 := quant_run' hq (r := 0x24 :: (u ++ y)) (noWs_cons.2 (by decide)) (by simp)
  have e2 := quant_run' hq (h3 y) (dollarAs_head h y)
  have e3 : alt (Pica.ws pCodes) (Compat.pDollar true) (0x24 :: (u ++ y)) = some (cs, dws y) := by
    rw [alt_right (ws_none' (by rw [dws_cons _ (by decide)]; exact dollarCodes_none _))]
    exact h1 [] [] y (by simp [Ws]) (by simp [Ws]) hy
  have e4 : Pica.ws pCodes (d ++ y) = some (cs, dws y) := ws_run' (by rw [dws_of_noWs (h3 y)]; exact h2 y)
  unfold seq
  simp only [e1, e2, e3, e4]

theorem withTaken_same {α : Type} {p p' : Parser α} {i i' : Bytes} {f : α × Bytes → SubSingle}
    (hf : ∀ a t t', ∀ E o l, (f (a, t)).eval E o l = (f (a, t')).eval E o l) (h : p' i' = p i) :
    (map f (withTaken p) i = none ∧ map f (withTaken p') i' = none) ∨
    ∃ m m' r, map f (withTaken p) i = some (m, r) ∧ map f (withTaken p') i' = some (m', r) ∧
      ∀ E o l, m'.eval E o l = m.eval E o l := by
  cases e : p i with
  | none => exact .inl ⟨map_none (withTaken_none e), map_none (withTaken_none (h.trans e))⟩
  | some x =>
    refine .inr ⟨_, _, x.2, map_run (withTaken_eq_some.2 ⟨e, rfl⟩),
      map_run (withTaken_eq_some.2 ⟨h.trans e, rfl⟩), fun E o l => hf _ _ _ E o l⟩

theorem relation_same {tq q u d y} (hq : QuantText true tq q) (h : DollarAs u d) (hy : CodesEnd y) :
    (pSubRelation (tq ++ (d ++ y)) = none ∧ Compat.pSubRelation true (tq ++ 0x24 :: (u ++ y)) = none) ∨
    ∃ m m' r, pSubRelation (tq ++ (d ++ y)) = some (m, r) ∧
      Compat.pSubRelation true (tq ++ 0x24 :: (u ++ y)) = some (m', r) ∧ ∀ E o l, m'.eval E o l = m.eval E o l :=
  withTaken_same (fun _ _ _ _ _ _ => rfl) (dollar_same hq h hy _)

theorem contains_same {tq q u d y} (hq : QuantText true tq q) (h : DollarAs u d) (hy : CodesEnd y) :
    (pSubContains (tq ++ (d ++ y)) = none ∧ Compat.pSubContains true (tq ++ 0x24 :: (u ++ y)) = none) ∨
    ∃ m m' r, pSubContains (tq ++ (d ++ y)) = some (m, r) ∧
      Compat.pSubContains true (tq ++ 0x24 :: (u ++ y)) = some (m', r) ∧ ∀ E o l, m'.eval E o l = m.eval E o l :=
  withTaken_same (fun _ _ _ _ _ _ => rfl) (dollar_same (quantText_false hq) h hy _)

theorem dollarKind_none {rx : Bytes → Bool} {tq q y k} (hq : QuantText true tq q) (hk : k ≠ SubKind.relation ∧ k ≠ .contains) :
    SubKind.parser rx k (tq ++ 0x24 :: y) = none := by
  have e0 : Pica.ws pCodes (0x24 :: y) = none := ws_none' (by
    rw [dws_cons _ (by decide)]; exact dollarCodes_none _)
  have e1 := quant_run' (quantText_false hq) (r := 0x24 :: y) (noWs_cons.2 (by decide)) (by simp)
  have e2 : ∀ {β : Type} (K : Parser β), seq (pQuant false) (seq (Pica.ws pCodes) K) (tq ++ 0x24 :: y) = none :=
    fun K => seq_none' e1 (seq_none e0)
  cases k with
  | relation => exact absurd rfl hk.1
  | contains => exact absurd rfl hk.2
  | regex => exact map_none (withTaken_none (e2 _))
  | regexSet => exact map_none (withTaken_none (e2 _))
  | isIn => exact map_none (withTaken_none (e2 _))
  | «exists» =>
    refine map_none (withTaken_none ?_)
    rcases quantText_cases hq with ⟨rfl, rfl⟩ | ⟨w, w', rfl, hw, hw', -⟩
    · exact terminated_none (dollarCodes_none y)
    · cases w with
      | cons b w =>
        have : pCodes (b :: (w ++ (qSign q ++ (w' ++ 0x24 :: y)))) = none := by
          rcases hw b List.mem_cons_self with rfl | rfl | rfl | rfl <;>
          · unfold pCodes
            rw [alt_right (by rfl), alt_right (map_none (by rfl))]
            rfl
        refine terminated_none ?_
        simpa using this
      | nil =>
        have hs : ∃ z, qSign q = 0x41 :: z ∧ z.head? ≠ some 0x3F ∧ z ≠ [] := by
          cases q
          · exact ⟨_, bs_ALL, by simp, by simp⟩
          · exact ⟨_, bs_ANY, by simp, by simp⟩
        obtain ⟨z, e, hz, hz'⟩ := hs
        obtain ⟨c, z, rfl⟩ := List.exists_cons_of_ne_nil hz'
        have : pCodes (0x41 :: (c :: z ++ (w' ++ 0x24 :: y))) = some ([0x41], c :: z ++ (w' ++ 0x24 :: y)) := by
          unfold pCodes
          rw [alt_right (by rfl)]
          exact alt_left (by rfl)
        have e' : ([] : Bytes) ++ qSign q ++ w' ++ 0x24 :: y = 0x41 :: (c :: z ++ (w' ++ 0x24 :: y)) := by
          rw [e]; simp
        rw [e']
        exact terminated_none' this (byte_none_of_head (by simpa using hz))
  | card =>
    refine map_none (withTaken_none (preceded_none (ws_none' (byte_none_of_head ?_))))
    rcases quantText_cases hq with ⟨rfl, rfl⟩ | ⟨w, w', rfl, hw, hw', -⟩
    · rw [List.nil_append, dws_cons _ (by decide)]; simp
    · rw [List.append_assoc, List.append_assoc, dws_append_noWs hw (qSign_noWs _ _)]
      cases q
      · rw [qSign, bs_ALL]; simp
      · rw [qSign, bs_ANY]; simp

/-- with `$` there are only these two kinds -/
theorem dollar_single_inv {rx : Bytes → Bool} {tq q u d y m'} (hq : QuantText true tq q) (h : DollarAs u d)
    (hy : CodesEnd y) (hm : Compat.pSubSingle true rx (tq ++ 0x24 :: (u ++ y)) = some (m', [])) :
    ∃ k m, (k = SubKind.relation ∨ k = .contains) ∧ SubKind.parser rx k (tq ++ (d ++ y)) = some (m, []) ∧
      ∀ E o l, m'.eval E o l = m.eval E o l := by
  unfold Compat.pSubSingle at hm
  rcases relation_same hq h hy with ⟨-, g⟩ | ⟨m0, m1, r, h1, h2, h3⟩
  · rw [alt_right g] at hm
    rcases contains_same hq h hy with ⟨-, g⟩ | ⟨m0, m1, r, h1, h2, h3⟩
    · have hk := fun k hk => dollarKind_none (rx := rx) (y := u ++ y) (k := k) hq hk
      have k1 := hk .isIn (by simp)
      have k2 := hk .exists (by simp)
      have k3 := hk .card (by simp)
      have k4 := hk .regexSet (by simp)
      unfold SubKind.parser at k1 k2 k3 k4
      rw [alt_right g, alt_right k1, alt_right k2, alt_right k3, alt_right k4] at hm
      exact absurd (hm.symm.trans (hk .regex (by simp))) (by simp)
    · obtain ⟨rfl, rfl⟩ := (by simpa using (alt_left h2).symm.trans hm : m1 = m' ∧ r = [])
      exact ⟨.contains, m0, .inr rfl, h1, h3⟩
  · obtain ⟨rfl, rfl⟩ := (by simpa using (alt_left h2).symm.trans hm : m1 = m' ∧ r = [])
    exact ⟨.relation, m0, .inl rfl, h1, h3⟩

/-- a matcher of one of the two kinds, with `$` -/
theorem dollar_single {rx : Bytes → Bool} {tq q u d y k m z} (hq : QuantText true tq q) (h : DollarAs u d)
    (hy : CodesEnd y) (hk : k = SubKind.relation ∨ k = .contains)
    (hm : SubKind.parser rx k (tq ++ (d ++ y)) = some (m, z)) :
    ∃ m', Compat.pSubSingle true rx (tq ++ 0x24 :: (u ++ y)) = some (m', z) ∧
      ∀ E o l, m'.eval E o l = m.eval E o l := by
  rcases hk with rfl | rfl
  · rcases relation_same hq h hy with ⟨h1, -⟩ | ⟨m0, m', r, h1, h2, h3⟩
    · exact absurd (h1.symm.trans hm) (by simp)
    · obtain ⟨rfl, rfl⟩ := (by simpa using h1.symm.trans hm : m0 = m ∧ r = z)
      exact ⟨m', alt_left h2, h3⟩
  · rcases contains_same hq h hy with ⟨h1, -⟩ | ⟨m0, m', r, h1, h2, h3⟩
    · exact absurd (h1.symm.trans hm) (by simp)
    · obtain ⟨rfl, rfl⟩ := (by simpa using h1.symm.trans hm : m0 = m ∧ r = z)
      rcases relation_same hq h hy with ⟨-, g⟩ | ⟨m1, m1', r1, g1, -, -⟩
      · refine ⟨m', ?_, h3⟩
        unfold Compat.pSubSingle
        rw [alt_right g]
        exact alt_left h2
      · have := kinds_exclude (k' := .relation) hm (by decide)
        exact absurd (g1.symm.trans this) (by simp)

theorem compatSub_single {rx : Bytes → Bool} {i m} (s : Levels) (hn : NoWs i) (h1 : i.head? ≠ some 0x28)
    (h : Compat.pSubSingle true rx i = some (m, [])) : Compat.newSub true rx s i = (some (.single m), subReset s) := by
  have hm : Compat.pSubSingleM true rx s i = (some (.single m, []), s) := TParser.lift_run (map_run h)
  have hat : ∀ k, Compat.subAtoms true rx (Compat.pSubGroup true rx k) (Compat.pSubNot true rx k) s (dws i) =
      (some (.single m, []), s) := by
    intro k
    unfold Compat.subAtoms
    rw [dws_of_noWs hn, TParser.alt_right (compatSubGroup_none hn h1)]
    exact TParser.alt_left hm
  have hc : ∀ k, Compat.pSubComposite true rx k s i = (none, s) := fun k => composite_whole
    ⟨by unfold subSyn; rw [bs_and]; rfl, by unfold subSyn; rw [bs_or]; rfl⟩ (hat k)
  refine TParser.parseAll_eq_some.2 ?_
  unfold Compat.pSubMatcher
  dsimp only
  rw [TParser.alt_right (hc _), TParser.alt_left hm]

/-- a matcher in front of a closing brace -/
theorem compatSub_brace {rx : Bytes → Bool} {i m r} (s : Levels) (hn : NoWs i) (h1 : i.head? ≠ some 0x28)
    (h : Compat.pSubSingle true rx i = some (m, 0x7D :: r)) :
    Compat.pSubMatcher true rx s i = (some (.single m, 0x7D :: r), subReset s) := by
  have hm : Compat.pSubSingleM true rx s i = (some (.single m, 0x7D :: r), s) := TParser.lift_run (map_run h)
  have hw : dws (0x7D :: r) = 0x7D :: r := dws_cons _ (by decide)
  have hat : ∀ k, Compat.subAtoms true rx (Compat.pSubGroup true rx k) (Compat.pSubNot true rx k) s i =
      (some (.single m, 0x7D :: r), s) := by
    intro k
    unfold Compat.subAtoms
    rw [TParser.alt_right (compatSubGroup_none hn h1)]
    exact TParser.alt_left hm
  have ho : subSyn.opAnd (0x7D :: r) = none ∧ subSyn.opOr (0x7D :: r) = none ∧ pXorOp (0x7D :: r) = none := by
    have e : bs "^" = [0x5E] ∧ bs "XOR" = [0x58, 0x4F, 0x52] := by decide +kernel
    refine ⟨?_, ?_, ?_⟩
    · unfold subSyn; rw [bs_and]; rfl
    · unfold subSyn; rw [bs_or]; rfl
    · unfold pXorOp; rw [e.1, e.2]; rfl
  have hc : ∀ k, Compat.pSubComposite true rx k s i = (none, s) := by
    intro k
    have ht : ∀ {p : TParser SubMatcher}, p s i = (some (.single m, 0x7D :: r), s) →
        tws p s i = (some (.single m, 0x7D :: r), s) := by
      intro p hp
      have := tws_run (p := p) (i := i) (s := s) (a := .single m) (r := 0x7D :: r) (s' := s)
        (by rw [dws_of_noWs hn]; exact hp)
      rwa [hw] at this
    have ha : andChain subSyn (Compat.subAtoms true rx (Compat.pSubGroup true rx k) (Compat.pSubNot true rx k)) s i =
        (none, s) := chain_none (ht (hat k)) ho.1
    have hx : xorChain subSyn (Compat.subAtoms true rx (Compat.pSubGroup true rx k) (Compat.pSubNot true rx k)) s i =
        (none, s) := chain_none (ht (by rw [TParser.alt_right ha]; exact hat k)) ho.2.2
    unfold Compat.pSubComposite composite
    rw [TParser.alt_right, TParser.alt_right hx]
    · exact ha
    · exact chain_none (ht (by rw [TParser.alt_right ha, TParser.alt_right hx]; exact hat k)) ho.2.1
  unfold Compat.pSubMatcher
  dsimp only
  rw [TParser.alt_right (hc _), TParser.alt_left hm]

theorem dollar_head {sp tq q r} (hq : QuantText sp tq q) (hl : Unled tq) :
    NoWs (tq ++ 0x24 :: r) ∧ (tq ++ 0x24 :: r).head? ≠ some 0x28 := by
  rcases quantText_cases hq with ⟨rfl, rfl⟩ | ⟨w, w', rfl, hw, hw', -⟩
  · exact ⟨noWs_cons.2 (by decide), by simp⟩
  · cases w with
    | nil =>
      refine ⟨?_, ?_⟩
      · rw [List.nil_append, List.append_assoc]; exact qSign_noWs _ _
      · cases q
        · rw [qSign, bs_ALL]; simp
        · rw [qSign, bs_ANY]; simp
    | cons b w =>
      have := unled_noWs hl
      rw [List.cons_append, List.cons_append, noWs_cons, ws_multispace hw b (by simp)] at this
      cases this

/-! ### field matchers -/

theorem compatField_of {rx i m} {s : Levels} (hn : NoWs i)
    (hp : i.head? ≠ some 0x28 ∧ i.head? ≠ some 0x21 ∧ i.head? ≠ some 0x23)
    (hs : Compat.pFieldSingle true rx s i = (some (m, []), s)) :
    Compat.newField true rx s i = (some (.single m), fldReset s) := by
  have hm : Compat.pFieldSingleM true rx s i = (some (.single m, []), s) := TParser.map_run hs
  have hcd : Compat.pFieldCardM true rx s i = (none, s) := TParser.map_none (TParser.map_none (TParser.withTaken_none
    (TParser.preceded_none (TParser.lift_none (wsByte_none hn hp.2.2)))))
  have ha : ∀ k, Compat.fieldAtoms true rx (Compat.pFieldGroup true rx k) (Compat.pFieldNot true rx k) s (dws i) =
      (some (.single m, []), s) := by
    intro k
    unfold Compat.fieldAtoms
    rw [dws_of_noWs hn, TParser.alt_right (compatFieldGroup_none hn hp.1), TParser.alt_right hcd]
    exact TParser.alt_left hm
  have hc : ∀ k, Compat.pFieldComposite true rx k s i = (none, s) := fun k =>
    composite_whole fieldSyn_nil (ha k)
  refine TParser.parseAll_eq_some.2 ?_
  unfold Compat.pFieldMatcher
  dsimp only
  rw [tws_run (a := .single m) (r := []) (s' := s)]
  · rfl
  · rw [dws_of_noWs hn, TParser.alt_right (hc _), TParser.alt_right (compatFieldGroup_none hn hp.1),
      TParser.alt_right (compatFieldNot_none hn hp.2.1)]
    exact TParser.alt_left hm

theorem field_dollar {rx : Bytes → Bool} {tq q t to sel x m} (hq : QuantText false tq q) (hu : Unled tq)
    (h : Selects t to sel) (hx : Compat.pSubSingle true rx x = some (m, [])) (s : Levels) :
    ∃ tm om raw raw', (sel = fun f => fieldSel tm om f = true) ∧
      Compat.newField true rx s (tq ++ (t ++ (to ++ 0x24 :: x))) =
        (some (.single (.subfields q tm om (.single m) raw)), fldReset s) ∧
      Compat.newField true rx s (tq ++ (t ++ (to ++ 0x2E :: x))) =
        (some (.single (.subfields q tm om (.single m) raw')), fldReset s) := by
  obtain ⟨tm, om, h0, h1⟩ := pFieldHead_run hq h
  have stop : ∀ b : Byte, b = 0x24 ∨ b = 0x2E → OccStop (b :: x) := by
    rintro b (rfl | rfl) <;> exact OccStop.cons (by decide)
  have hw : ∀ b : Byte, b = 0x24 ∨ b = 0x2E → dws (b :: x) = b :: x := by
    rintro b (rfl | rfl) <;> exact dws_cons _ (by decide)
  have hex : ∀ b : Byte, b = 0x24 ∨ b = 0x2E → pFieldExists (tq ++ (t ++ (to ++ b :: x))) = none := by
    intro b hb
    refine pFieldExists_none hq hu h (stop b hb) ?_
    rw [hw b hb]
    rcases hb with rfl | rfl <;> simp
  have hh := fun b : Byte => fieldHead_noWs hq hu h (to ++ b :: x)
  have hd := h1 _ (stop 0x24 (.inl rfl))
  have hp := h1 _ (stop 0x2E (.inr rfl))
  refine ⟨tm, om, _, _, h0, compatField_of (hh _).1 ⟨(hh _).2.2.1, (hh _).2.2.2.2, (hh _).2.2.2.1⟩
      ((TParser.alt_right (TParser.lift_none (hex _ (.inl rfl)))).trans
        ((TParser.alt_right (TParser.lift_none (map_none (withTaken_none (seq_none' hd
          (preceded_none (byte_cons_ne (by decide) _))))))).trans
        ((TParser.alt_right (TParser.map_none (TParser.withTaken_none (TParser.seq_none' (TParser.lift_run hd)
          (TParser.preceded_none (TParser.lift_none (ws_none' (by
            rw [hw _ (.inl rfl)]; exact byte_cons_ne (by decide) _)))))))).trans
        (TParser.lift_run (map_run (a := ((_, m), _)) (withTaken_eq_some.2 ⟨seq_run hd
          (preceded_run (byte_cons_self _ _) hx), rfl⟩)))))),
    compatField_of (hh _).1 ⟨(hh _).2.2.1, (hh _).2.2.2.2, (hh _).2.2.2.1⟩
      ((TParser.alt_right (TParser.lift_none (hex _ (.inr rfl)))).trans
        (TParser.alt_left (TParser.lift_run (map_run (a := ((_, m), _)) (withTaken_eq_some.2 ⟨seq_run hp
          (preceded_run (byte_cons_self _ _) hx), rfl⟩)))))⟩

/-- a matcher in braces -/
theorem field_braces {rx : Bytes → Bool} {tq q t to sel x m} (hq : QuantText false tq q) (hu : Unled tq)
    (h : Selects t to sel) (hn : NoWs (x ++ [0x7D])) (h1 : (x ++ [0x7D]).head? ≠ some 0x28)
    (hx : Compat.pSubSingle true rx (x ++ [0x7D]) = some (m, [0x7D])) (s : Levels) (hs : s.sub = 0) :
    ∃ tm om raw, (sel = fun f => fieldSel tm om f = true) ∧
      Compat.newField true rx s (tq ++ (t ++ (to ++ 0x7B :: (x ++ [0x7D])))) =
        (some (.single (.subfields q tm om (.single m) raw)), fldReset s) := by
  obtain ⟨tm, om, h0, hh⟩ := pFieldHead_run hq h
  have stop : OccStop (0x7B :: (x ++ [0x7D])) := OccStop.cons (by decide)
  have hd := hh _ stop
  have hex : pFieldExists (tq ++ (t ++ (to ++ 0x7B :: (x ++ [0x7D])))) = none := by
    refine pFieldExists_none hq hu h stop ?_
    rw [dws_cons _ (by decide)]; simp
  obtain ⟨g1, g2, g3, g4, g5⟩ := fieldHead_noWs hq hu h (to ++ 0x7B :: (x ++ [0x7D]))
  have hs' : subReset s = s := by
    obtain ⟨a, b, c⟩ := s
    have : a = 0 := hs
    subst this; rfl
  have hb : Pica.ws (byte 0x7B) (0x7B :: (x ++ [0x7D])) = some (0x7B, x ++ [0x7D]) := by
    rw [ws_run' (a := 0x7B) (r := x ++ [0x7D]), dws_of_noWs hn]
    rw [dws_cons _ (by decide)]; exact byte_cons_self _ _
  have hm := compatSub_brace s hn h1 hx
  rw [hs'] at hm
  have hcl : Pica.ws (byte 0x7D) [0x7D] = some (0x7D, []) := by rfl
  have hcore : TParser.seq (TParser.lift pFieldHead) (TParser.delimited (TParser.lift (Pica.ws (byte 0x7B)))
      (Compat.pSubMatcher true rx) (TParser.lift (Pica.ws (byte 0x7D)))) s
      (tq ++ (t ++ (to ++ 0x7B :: (x ++ [0x7D])))) = (some (((q, tm, om), .single m), []), s) :=
    TParser.seq_run (TParser.lift_run hd) (TParser.delimited_run (TParser.lift_run hb) hm
      (TParser.lift_run hcl))
  have hbr : Compat.pSubfieldsBracket true rx s (tq ++ (t ++ (to ++ 0x7B :: (x ++ [0x7D])))) =
      (some (.subfields q tm om (.single m) (tq ++ (t ++ (to ++ 0x7B :: (x ++ [0x7D])))), []), s) :=
    TParser.map_run (TParser.withTaken_run (r := []) hcore (by simp))
  exact ⟨tm, om, _, h0, compatField_of g1 ⟨g3, g5, g4⟩
    ((TParser.alt_right (TParser.lift_none hex)).trans
      ((TParser.alt_right (TParser.lift_none (map_none (withTaken_none (seq_none' hd
        (preceded_none (byte_cons_ne (by decide) _))))))).trans
      (TParser.alt_left hbr)))⟩

/-- a path with a filter -/
theorem path_filter {t0 o0 tm om l e w x m} (ht : TagMatcher.new t0 = some tm) (ho : OccMatcher.new o0 = some om)
    (hw : Ws w) (h : DollarList l e) (rx : Bytes → Bool) (s : Levels) (hs : s.sub = 0) (hn : NoWs (x ++ [0x7D]))
    (h1 : (x ++ [0x7D]).head? ≠ some 0x28) (hx : Compat.pSubSingle true rx (x ++ [0x7D]) = some (m, [0x7D])) :
    ∃ css, ∀ y, y = l ∨ y = e → ∃ raw,
      Compat.newPath true rx s (t0 ++ (o0 ++ 0x7B :: (w ++ (y ++ 0x7C :: (x ++ [0x7D]))))) =
        (some ⟨tm, om, some (.single m), css, raw⟩, s) := by
  have hs' : subReset s = s := by
    obtain ⟨a, b, c⟩ := s
    have : a = 0 := hs
    subst this; rfl
  have hm := compatSub_brace s hn h1 hx
  rw [hs'] at hm
  obtain ⟨css, hc⟩ := braces_same ht ho hw h (X := 0x7C :: (x ++ [0x7D])) (codesEnd_cons (by decide))
    (by rw [dws_cons _ (by decide)]; simp) rx s
  refine ⟨css, fun y hy => ⟨t0 ++ (o0 ++ 0x7B :: (w ++ (y ++ 0x7C :: (x ++ [0x7D])))), ?_⟩⟩
  obtain ⟨h2, h3⟩ := hc y hy
  have hb : Pica.ws (byte 0x7C) (0x7C :: (x ++ [0x7D])) = some (0x7C, x ++ [0x7D]) := by
    rw [ws_run' (a := 0x7C) (r := x ++ [0x7D]), dws_of_noWs hn]
    rw [dws_cons _ (by decide)]; exact byte_cons_self _ _
  have hf : Compat.pFilterOpt true rx s (0x7C :: (x ++ [0x7D])) = (some (some (.single m), [0x7D]), s) := by
    unfold Compat.pFilterOpt TParser.opt
    rw [preceded_lift hb, hm]
  have hr : TParser.terminated (Compat.pFilterOpt true rx) (TParser.lift (Pica.ws (byte 0x7D))) s
      (0x7C :: (x ++ [0x7D])) = (some (some (.single m), []), s) :=
    TParser.terminated_run hf (TParser.lift_run (ws_run' (a := 0x7D) (r := []) (by
      rw [dws_cons _ (by decide)]; exact byte_cons_self _ _)))
  have hr' : tws (TParser.map (fun f => (tm, om, css, f)) (TParser.terminated (Compat.pFilterOpt true rx)
      (TParser.lift (Pica.ws (byte 0x7D))))) s (0x7C :: (x ++ [0x7D])) =
        (some ((tm, om, css, some (.single m)), []), s) :=
    tws_run (r := []) (by rw [dws_cons _ (by decide)]; exact TParser.map_run hr)
  replace h2 := h2.trans hr'
  refine TParser.parseAll_eq_some.2 ((TParser.alt_right (TParser.lift_none h3)).trans ?_)
  exact TParser.map_run (TParser.withTaken_run (r := []) h2 (List.append_nil _).symm)

end Pica
