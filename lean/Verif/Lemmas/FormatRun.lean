import Verif.Spec.FormatSeq
import Verif.Lemmas.Format
import Verif.Lemmas.FieldGroup

/-! The formats of `Spec.FormatSeq` are accepted. -/

namespace Pica
open Spec Parser

/-! ## Values -/

/-- what may follow a format: nothing, `)`, `}`, `|` -/
def FmtEnd (r : Bytes) : Prop :=
  r = [] ∨ r.head? = some 0x29 ∨ r.head? = some 0x7D ∨ r.head? = some 0x7C
/-- what may follow an item of `<*>` -/
def FmtEndC (r : Bytes) : Prop := FmtEnd r ∨ ∃ u, r = bs "<*>" ++ u
/-- what may follow a part -/
def FmtEndA (r : Bytes) : Prop := FmtEndC r ∨ ∃ u, r = bs "<$>" ++ u

theorem bs_star : bs "<*>" = [0x3C, 0x2A, 0x3E] := by decide +kernel
theorem bs_dollar : bs "<$>" = [0x3C, 0x24, 0x3E] := by decide +kernel

theorem fmtEndA_head {r : Bytes} (h : FmtEndA r) : ∀ b, r.head? = some b →
    b = 0x29 ∨ b = 0x7D ∨ b = 0x7C ∨ b = 0x3C := by
  intro b hb
  rcases h with ((rfl | h | h | h) | ⟨u, rfl⟩) | ⟨u, rfl⟩
  · simp at hb
  · rw [h] at hb; cases hb; simp
  · rw [h] at hb; cases hb; simp
  · rw [h] at hb; cases hb; simp
  · rw [bs_star] at hb; simp at hb; simp [← hb]
  · rw [bs_dollar] at hb; simp at hb; simp [← hb]

theorem fmtEndA_noWs {r : Bytes} (h : FmtEndA r) : NoWs r := by
  intro b hb
  rcases fmtEndA_head h b hb with rfl | rfl | rfl | rfl <;> decide

theorem isModCode_mem_iff {b : Byte} : b ∈ bs "lutwo" ↔ isModCode b = true := by
  have e : bs "lutwo" = [0x6C, 0x75, 0x74, 0x77, 0x6F] := by decide +kernel
  rw [e]; simp [isModCode, or_assoc]

theorem modLoop_run : ∀ (ls rest : Bytes) n, (∀ b ∈ ls, isModCode b = true) → ls.length ≤ n →
    (∀ b, rest.head? = some b → isModCode b = false) →
    repeat0Aux (oneOf isModCode) (n + 1) (ls ++ rest) = some (ls, rest) := by
  intro ls
  induction ls with
  | nil =>
    intro rest n _ _ hr
    refine repeat0Aux_stop ?_
    rw [List.nil_append]
    cases rest with
    | nil => rfl
    | cons b r => simp [oneOf, hr b rfl]
  | cons b ls ih =>
    intro rest n hb hn hr
    cases n with
    | zero => simp at hn
    | succ n =>
      refine repeat0Aux_step (r := ls ++ rest) (by simp [oneOf, hb b (by simp)]) (by simp) ?_
      exact ih rest n (fun b h => hb b (by simp [h])) (by simpa using hn) hr

section
variable (E : FmtEnv) (o : FmtOpts)

/-- a modifier is read, what remains is `u` up to white space -/
theorem pModifier_run {tm u m} (h : ModFront E tm u m) (hu : u ≠ []) :
    ∃ mo, (Modifier.orDefault mo).modify E = m ∧ ∀ rest, NoWs (u ++ rest) →
      ∃ r', pModifier (tm ++ (u ++ rest)) = some (mo, r') ∧ dws r' = u ++ rest := by
  cases h with
  | none hq =>
    refine ⟨none, funext fun v => modify_default E v, fun rest hn => ⟨u ++ rest, ?_, dws_of_noWs hn⟩⟩
    unfold pModifier
    refine opt_none (preceded_none (byte_none_of_head ?_))
    cases u with
    | nil => exact absurd rfl hu
    | cons b u => simpa using hq
  | @some ls w _ hne hls hw hf =>
    refine ⟨some (modOfCodes ls), funext fun v => modify_modOfCodes E ls v, fun rest hn =>
      ⟨w ++ (u ++ rest), ?_, dws_append_noWs hw hn⟩⟩
    have hl : ∀ b ∈ ls, isModCode b = true := fun b hb => isModCode_mem_iff.1 (hls b hb)
    have hr : ∀ b, (w ++ (u ++ rest)).head? = some b → isModCode b = false := by
      intro b hb
      cases w with
      | nil =>
        cases u with
        | nil => exact absurd rfl hu
        | cons c u =>
          simp only [List.nil_append, List.cons_append, List.head?_cons, Option.some.injEq] at hb
          subst hb
          have := hf rfl c rfl
          rw [isModCode_mem_iff] at this
          simpa using this
      | cons c w =>
        simp only [List.cons_append, List.head?_cons, Option.some.injEq] at hb
        subst hb
        have := hw c (by simp)
        rcases this with rfl | rfl | rfl | rfl <;> decide
    unfold pModifier
    rw [← bs_qm]
    have h1 : repeat1 (oneOf isModCode) (ls ++ (w ++ (u ++ rest))) = some (ls, w ++ (u ++ rest)) := by
      cases ls with
      | nil => exact absurd rfl hne
      | cons b ls =>
        unfold repeat1
        have : oneOf isModCode (b :: ls ++ (w ++ (u ++ rest))) = some (b, ls ++ (w ++ (u ++ rest))) := by
          simp [oneOf, hl b (by simp)]
        rw [this]
        simp only [repeat0]
        rw [modLoop_run ls _ _ (fun x hx => hl x (by simp [hx])) (by simp) hr]
    have := opt_run (preceded_run (byte_cons_self 0x3F _) (map_run (f := modOfCodes) h1))
    simpa using this

theorem wsModifier_run {tm u m} (h : ModFront E tm u m) (hu : u ≠ []) :
    ∃ mo, (Modifier.orDefault mo).modify E = m ∧ ∀ rest, NoWs (u ++ rest) →
      Pica.ws pModifier (tm ++ (u ++ rest)) = some (mo, u ++ rest) := by
  obtain ⟨mo, h3, hh⟩ := pModifier_run E h hu
  refine ⟨mo, h3, fun rest hn => ?_⟩
  obtain ⟨r', h1, h2⟩ := hh rest hn
  have hd : dws (tm ++ (u ++ rest)) = tm ++ (u ++ rest) := by
    cases h with
    | none _ => exact dws_of_noWs hn
    | some _ _ _ _ => rw [← bs_qm]; exact dws_cons _ (by decide)
  have := ws_run' (p := pModifier) (i := tm ++ (u ++ rest)) (by rw [hd]; exact h1)
  rw [this, h2]

theorem quote_noWs {q : Byte} (h : q = 0x27 ∨ q = 0x22) (r : Bytes) : NoWs (q :: r) := by
  rcases h with rfl | rfl <;> exact noWs_cons.2 (by decide)

theorem pString_no {i : Bytes} (h1 : i.head? ≠ some 0x27) (h2 : i.head? ≠ some 0x22) : pString i = none := by
  unfold pString
  refine verify_none ?_
  rw [alt_right]
  · exact preceded_none (byte_none_of_head h2)
  · exact preceded_none (byte_none_of_head h1)

theorem prefix_run {tp pre c S} (h : PrefixText tp pre) (hc : CodesText c S) :
    ∃ x : Option Bytes, x.getD [] = pre ∧ ∀ rest,
      opt (Pica.ws pString) (tp ++ (c ++ rest)) = some (x, c ++ rest) := by
  have hn : ∀ r, NoWs (c ++ r) := by
    intro r'
    obtain ⟨b, r, rfl, hb, -⟩ := codesText_head hc
    exact codeHead_noWs hb _
  cases h with
  | none =>
    refine ⟨none, rfl, fun rest => opt_none (ws_none' ?_)⟩
    rw [List.nil_append, dws_of_noWs (hn _)]
    obtain ⟨b, r, rfl, hb, -⟩ := codesText_head hc
    exact pString_no (by simpa using codes_not hb (by simp)) (by simpa using codes_not hb (by simp))
  | @some t s w ht hw =>
    refine ⟨some pre, rfl, fun rest => opt_run ?_⟩
    have h1 := pString_complete ht (w ++ (c ++ rest))
    obtain ⟨q, r', he, hq⟩ := stringText_quote ht
    have hd : dws (t ++ w ++ (c ++ rest)) = t ++ (w ++ (c ++ rest)) := by
      rw [List.append_assoc, he]; exact dws_of_noWs (quote_noWs hq _)
    have := ws_run' (p := pString) (i := t ++ w ++ (c ++ rest)) (by rw [hd]; exact h1)
    rw [this, dws_append_noWs hw (hn _)]

/-- after a value: neither digits, nor quotes, nor dots -/
def AfterVal (r : Bytes) : Prop := ∀ b, r.head? = some b →
  isDigit b = false ∧ b ≠ 0x27 ∧ b ≠ 0x22 ∧ b ≠ 0x2E

theorem fmtEndA_after {r : Bytes} (h : FmtEndA r) : AfterVal r := by
  intro b hb
  rcases fmtEndA_head h b hb with rfl | rfl | rfl | rfl <;> decide

theorem suffix_run {ts suf w} (h : SuffixText ts suf) (hw : Ws w) :
    ∃ x : Option Bytes, x.getD [] = suf ∧ ∀ rest, NoWs rest → AfterVal rest → ∃ r', dws r' = rest ∧
      opt (Pica.ws pString) (ts ++ (w ++ rest)) = some (x, r') := by
  cases h with
  | none =>
    refine ⟨none, rfl, fun rest hn ha => ⟨w ++ rest, dws_append_noWs hw hn, opt_none (ws_none' ?_)⟩⟩
    rw [List.nil_append, dws_append_noWs hw hn]
    exact pString_no (fun h => (ha _ h).2.1 rfl) (fun h => (ha _ h).2.2.1 rfl)
  | @some w' t s hw' ht =>
    refine ⟨some suf, rfl, fun rest hn ha => ⟨rest, dws_of_noWs hn, opt_run ?_⟩⟩
    have h1 := pString_complete ht (w ++ rest)
    obtain ⟨q, r', he, hq⟩ := stringText_quote ht
    have hd : dws (w' ++ t ++ (w ++ rest)) = t ++ (w ++ rest) := by
      rw [List.append_assoc, dws_append hw', he]; exact dws_of_noWs (quote_noWs hq _)
    have := ws_run' (p := pString) (i := w' ++ t ++ (w ++ rest)) (by rw [hd]; exact h1)
    rw [this, dws_append_noWs hw hn]

theorem pUsize_none {r : Bytes} (h : NoDigit r) : pUsize r = none := by
  cases hp : pUsize r with
  | none => rfl
  | some x =>
    obtain ⟨a, h1, -⟩ := verifyMap_eq_some.1 (show pUsize r = some (x.1, x.2) by rw [hp])
    obtain ⟨h2, -, h3⟩ := takeWhileM_eq_some.1 h1
    cases r with
    | nil => simp at h2; subst h2; simp at h3
    | cons b r => simp [h b rfl] at h2; subst h2; simp at h3

/-- what may follow a bound: no digit and no dot -/
theorem pBound_run {d tb n rest} (h : BoundText d tb n) (h1 : NoDigit rest) (h2 : rest.head? ≠ some 0x2E) :
    pBound d (tb ++ rest) = some (n, rest) := by
  unfold pBound
  rw [← bs_dotdot]
  cases h with
  | none =>
    have : lit [0x2E, 0x2E] ([] ++ rest) = none := lit_none_of_head (by simpa using h2)
    rw [alt_right (preceded_none this), alt_right (p := value usizeMax (lit [0x2E, 0x2E])) (map_none this), List.nil_append]
  | «open» =>
    rw [← bs_dotdot, alt_right, alt_left]
    · exact map_run (lit_run _ _)
    · refine preceded_none' (lit_run _ _) ?_
      exact pUsize_none h1
  | num h3 h4 h5 =>
    rw [← bs_dotdot, List.append_assoc]
    exact alt_left (preceded_run (lit_run _ _) (pUsize_run h3 h4 h5 h1))

theorem fmtVal_ne {x : FPart} (h : FmtVal E o x) : NoWs x.text ∧ x.text ≠ [] ∧ x.text.head? ≠ some 0x28 := by
  rcases h with @⟨tm, m, tp, pre, c, cs, tb, n, ts, suf, w, h1, h2, h3, h4, h5, h6⟩
  have hcode := codesText_head h3
  cases h1 with
  | some _ _ _ _ => rw [← bs_qm]; simp [noWs_cons]; decide
  | none _ =>
    cases h2 with
    | some h _ =>
      obtain ⟨q, r', rfl, hq⟩ := stringText_quote h
      refine ⟨by simpa using quote_noWs hq _, by simp, ?_⟩
      rcases hq with rfl | rfl <;> simp
    | none =>
      obtain ⟨b, r, rfl, hb, -⟩ := hcode
      exact ⟨by simpa using codeHead_noWs hb _, by simp, by simpa using codes_not hb (by simp)⟩

theorem taken_congr {strip : Bool} {cs cs' : Bytes} (h : ∀ b, b ∈ cs' ↔ b ∈ cs) (n : Nat) (pre suf : Bytes)
    (f : Field) : taken strip cs' n pre suf f = taken strip cs n pre suf f := by
  unfold taken
  simp only [h]

/-- a value is read by `parse_value` -/
theorem fmtVal_run {x : FPart} (h : FmtVal E o x) : ∃ v : FmtValue, v.run E o = x.den ∧
    ∀ rest, NoWs rest → AfterVal rest → ∃ r', dws r' = rest ∧ pFmtValue (x.text ++ rest) = some (v, r') := by
  rcases h with @⟨tm, m, tp, pre, c, cs, tb, n, ts, suf, w, h1, h2, h3, h4, h5, h6⟩
  obtain ⟨cs', hcs, hS⟩ := pCodes_complete h3
  have hne : tp ++ c ≠ [] := by
    obtain ⟨b, r, rfl, -⟩ := codesText_head h3
    simp
  have hnw : ∀ r, NoWs (tp ++ c ++ r) := by
    intro r
    cases h2 with
    | some h _ =>
      obtain ⟨q, r', rfl, hq⟩ := stringText_quote h
      simpa using quote_noWs hq _
    | none =>
      obtain ⟨b, r', rfl, hb, -⟩ := codesText_head h3
      simpa using codeHead_noWs hb _
  obtain ⟨mo, em, hm⟩ := wsModifier_run E h1 hne
  obtain ⟨px, ep, hp⟩ := prefix_run h2 h3
  obtain ⟨sx, es, hs⟩ := suffix_run h5 h6
  refine ⟨⟨cs', px, sx, n, Modifier.orDefault mo⟩, ?_, fun rest hn ha => ?_⟩
  · funext f
    rw [value_run]
    simp only [em, ep, es]
    rw [taken_congr hS]
  · obtain ⟨r', hd, hsr⟩ := hs rest hn ha
    refine ⟨r', hd, ?_⟩
    have hb : pBound 1 (tb ++ (ts ++ (w ++ rest))) = some (n, ts ++ (w ++ rest)) := by
      have key : ∀ b, (ts ++ (w ++ rest)).head? = some b → isDigit b = false ∧ b ≠ 0x2E := by
        have hws : ∀ (w' x : Bytes), Ws w' → (∀ b, x.head? = some b → isDigit b = false ∧ b ≠ 0x2E) →
            ∀ b, (w' ++ x).head? = some b → isDigit b = false ∧ b ≠ 0x2E := by
          intro w' x hw' hx b hb
          cases w' with
          | nil => exact hx b hb
          | cons c w' =>
            simp only [List.cons_append, List.head?_cons, Option.some.injEq] at hb
            subst hb
            rcases hw' c (by simp) with rfl | rfl | rfl | rfl <;> decide
        cases h5 with
        | none => rw [List.nil_append]; exact hws _ _ h6 (fun b hb => ⟨(ha b hb).1, (ha b hb).2.2.2⟩)
        | @some w' t s hw' ht =>
          rw [List.append_assoc]
          refine hws _ _ hw' ?_
          obtain ⟨q, r', rfl, hq⟩ := stringText_quote ht
          intro b hb
          simp only [List.cons_append, List.head?_cons, Option.some.injEq] at hb
          subst hb
          rcases hq with rfl | rfl <;> decide
      exact pBound_run h4 (fun b hb => (key b hb).1) (fun h => (key _ h).2 rfl)
    have : tm ++ tp ++ c ++ tb ++ ts ++ w ++ rest = tm ++ (tp ++ c ++ (tb ++ (ts ++ (w ++ rest)))) := by simp
    simp only [this]
    unfold pFmtValue
    refine map_run (a := (mo, px, cs', n, sx)) (seq_run (hm _ (hnw _)) ?_)
    rw [List.append_assoc]
    exact seq_run (hp _) (seq_run (hcs _) (seq_run hb hsr))

/-! ## Lists -/

variable {g : TParser Fragments} {s : Levels}

/-- a group or a value -/
def fmtItem (g : TParser Fragments) : TParser Fragments :=
  TParser.alt g (TParser.lift (map .value pFmtValue))

/-- a text is read by `p` with a result that renders as `d`, whatever follows -/
def Runs (p : TParser Fragments) (s : Levels) (t : Bytes) (d : Field → Bytes) (Fol : Bytes → Prop) : Prop :=
  ∃ fr, RunsTo E o fr d ∧ ∀ rest, Fol rest → ∃ r', dws r' = rest ∧ p s (t ++ rest) = (some (fr, r'), s)

/-- no leading white space, not empty -/
def Solid (t : Bytes) : Prop := NoWs t ∧ t ≠ []

theorem Solid.noWs {t : Bytes} (h : Solid t) (r : Bytes) : NoWs (t ++ r) := by
  obtain ⟨h1, h2⟩ := h
  cases t with
  | nil => exact absurd rfl h2
  | cons b t => exact noWs_cons.2 (noWs_cons.1 h1)

/-- text of the tail of a sequence -/
def tailText {A : Type} (f : A → Bytes) (tl : List (Bytes × Bytes × A)) : Bytes :=
  (tl.map (fun x => x.1 ++ (x.2.1 ++ f x.2.2))).flatten

theorem sepAux_run {A : Type} {p : TParser Fragments} {sg : Bytes} {f : A → Bytes} {d : A → Field → Bytes}
    {Fol Fol' : Bytes → Prop} (hsg : Solid sg) (hF : ∀ r, Fol r → NoWs r) (hF1 : ∀ r, Fol' r → Fol r)
    (hF2 : ∀ r, Fol (sg ++ r)) (hF3 : ∀ r, Fol' r → lit sg r = none) :
    ∀ (tl : List (Bytes × Bytes × A)), (∀ x ∈ tl, (x.1 = sg ∧ Ws x.2.1) ∧ Solid (f x.2.2) ∧ Runs E o p s (f x.2.2) (d x.2.2) Fol) →
    ∃ frs, All2 (RunsTo E o) frs (tl.map (fun x => d x.2.2)) ∧ ∀ n rest i, tl.length < n → Fol' rest →
      dws i = tailText f tl ++ rest → ∃ r', dws r' = rest ∧
        TParser.separatedAux p (Pica.ws (lit sg)) n s i = (some (frs, r'), s) := by
  intro tl
  induction tl with
  | nil =>
    intro _
    refine ⟨[], .nil, fun n rest i hn hr hi => ⟨i, by simpa [tailText] using hi, ?_⟩⟩
    obtain ⟨n, rfl⟩ : ∃ m, n = m + 1 := ⟨n - 1, by omega⟩
    rw [TParser.separatedAux, ws_none']
    rw [hi]; simpa [tailText] using hF3 rest hr
  | cons x tl ih =>
    intro hx
    obtain ⟨frs, h1, h2⟩ := ih (fun y hy => hx y (by simp [hy]))
    obtain ⟨⟨hxs, hxw⟩, hxn, fr, h3, h4⟩ := hx x (by simp)
    refine ⟨fr :: frs, .cons h3 h1, fun n rest i hn hr hi => ?_⟩
    obtain ⟨n, rfl⟩ : ∃ m, n = m + 1 := ⟨n - 1, by omega⟩
    have hi' : dws i = sg ++ (x.2.1 ++ (f x.2.2 ++ (tailText f tl ++ rest))) := by
      rw [hi, ← hxs]; simp [tailText]
    have hs := ws_run' (p := lit sg) (i := i) (by rw [hi']; exact lit_run _ _)
    rw [dws_append_noWs hxw (hxn.noWs _)] at hs
    have hfol : Fol (tailText f tl ++ rest) := by
      cases tl with
      | nil => simpa [tailText] using hF1 rest hr
      | cons y tl =>
        have := ((hx y (by simp)).1).1
        simp only [tailText, List.map_cons, List.flatten_cons, this, List.append_assoc]
        exact hF2 _
    obtain ⟨r1, h5, h6⟩ := h4 _ hfol
    obtain ⟨r2, h7, h8⟩ := h2 n rest r1 (by simpa using hn) hr (by rw [h5])
    refine ⟨r2, h7, ?_⟩
    rw [TParser.separatedAux, hs]
    simp only [h6, h8]

theorem tailText_length {A : Type} {f : A → Bytes} (tl : List (Bytes × Bytes × A))
    (h : ∀ x ∈ tl, f x.2.2 ≠ []) : tl.length ≤ (tailText f tl).length := by
  induction tl with
  | nil => simp
  | cons x tl ih =>
    have h1 := ih (fun y hy => h y (by simp [hy]))
    have h2 := List.length_pos_iff.2 (h x (by simp))
    simp only [tailText, List.map_cons, List.flatten_cons, List.length_cons, List.length_append] at h1 ⊢
    omega

theorem sep_run {A : Type} {p : TParser Fragments} {sg : Bytes} {f : A → Bytes} {d : A → Field → Bytes}
    {Fol Fol' : Bytes → Prop} (hsg : Solid sg) (hF : ∀ r, Fol r → NoWs r) (hF1 : ∀ r, Fol' r → Fol r)
    (hF2 : ∀ r, Fol (sg ++ r)) (hF3 : ∀ r, Fol' r → lit sg r = none) (a : Seq A)
    (hs : a.signs (· = sg)) (ha : a.all (fun x => Solid (f x) ∧ Runs E o p s (f x) (d x) Fol)) :
    ∃ frs, All2 (RunsTo E o) frs (a.items.map d) ∧
      ∀ rest, Fol' rest → (a.many → ∃ r', dws r' = rest ∧
        TParser.separated 2 p (Pica.ws (lit sg)) s (a.text f ++ rest) = (some (frs, r'), s)) ∧
      (¬ a.many → TParser.separated 2 p (Pica.ws (lit sg)) s (a.text f ++ rest) = (none, s)) := by
  obtain ⟨hd, tl⟩ := a
  obtain ⟨⟨h1, fr, h2, h3⟩, h4⟩ := ha
  obtain ⟨frs, h5, h6⟩ := sepAux_run E o (p := p) (s := s) (d := d) hsg hF hF1 hF2 hF3 tl
    (fun x hx => ⟨hs x hx, h4 x hx⟩)
  refine ⟨fr :: frs, ?_, fun rest hr => ?_⟩
  · simp only [Seq.items, List.map_cons, List.map_map]
    exact .cons h2 h5
  · have htxt : (⟨hd, tl⟩ : Seq A).text f ++ rest = f hd ++ (tailText f tl ++ rest) := by
      simp [Seq.text, tailText]
    have hfol : Fol (tailText f tl ++ rest) := by
      cases tl with
      | nil => simpa [tailText] using hF1 rest hr
      | cons y tl =>
        have := (hs y (by simp)).1
        simp only [tailText, List.map_cons, List.flatten_cons, this, List.append_assoc]
        exact hF2 _
    obtain ⟨r1, e1, e2⟩ := h3 _ hfol
    have hlen : tl.length < r1.length + 1 := by
      have := tailText_length (f := f) tl (fun x hx => (h4 x hx).1.2)
      have h' := dws_length r1
      rw [e1, List.length_append] at h'
      omega
    obtain ⟨r2, e3, e4⟩ := h6 _ rest r1 hlen hr e1
    have hlen2 : frs.length = tl.length := by have := h5.length; simpa using this
    constructor
    · intro hm
      refine ⟨r2, e3, ?_⟩
      rw [htxt]
      simp only [TParser.separated, e2, e4]
      rw [if_pos]
      have := List.length_pos_iff.2 (show tl ≠ [] from hm)
      omega
    · intro hm
      have : tl = [] := Classical.byContradiction hm
      subst this
      rw [htxt]
      simp only [TParser.separated, e2, e4]
      rw [if_neg]
      simp at hlen2; simp [hlen2]

/-- a part is read -/
def PartRuns (k : Nat) (s : Levels) (x : FPart) : Prop :=
  Solid x.text ∧ Runs E o (fmtItem (pFmtGroup k)) s x.text x.den FmtEndA

theorem solid_star : Solid (bs "<*>") := by rw [bs_star]; exact ⟨noWs_cons.2 (by decide), by simp⟩
theorem solid_dollar : Solid (bs "<$>") := by rw [bs_dollar]; exact ⟨noWs_cons.2 (by decide), by simp⟩

theorem fmtEnd_not {r : Bytes} (h : FmtEnd r) (sg : Bytes) (hsg : ∃ u, sg = 0x3C :: u) : lit sg r = none := by
  obtain ⟨u, rfl⟩ := hsg
  refine lit_none_of_head ?_
  rcases h with rfl | h | h | h
  · simp
  all_goals simp [h]

theorem fmtEndC_not {r : Bytes} (h : FmtEndC r) : lit (bs "<$>") r = none := by
  rcases h with h | ⟨u, rfl⟩
  · exact fmtEnd_not h _ ⟨_, bs_dollar⟩
  · rw [bs_dollar, bs_star]; rfl

theorem seq_solid {A : Type} {f : A → Bytes} (a : Seq A) (h : Solid (f a.head)) : Solid (a.text f) := by
  refine ⟨?_, ?_⟩
  · exact h.noWs _
  · simp [Seq.text, h.2]

/-- parts with `<$>`: two or more are read by `parse_list_and_then`, one is not -/
theorem fmtAnd_run {k : Nat} {a : FmtAnd} (h : a.ok (PartRuns E o k s)) :
    Solid a.txt ∧ ∃ fr, RunsIn E o fr a.den ∧ ∀ rest, FmtEndC rest →
      (a.many → ∃ r', dws r' = rest ∧ pAndThen (pFmtGroup k) s (a.txt ++ rest) = (some (fr, r'), s)) ∧
      (¬ a.many → pAndThen (pFmtGroup k) s (a.txt ++ rest) = (none, s)) := by
  obtain ⟨h1, h2⟩ := h
  refine ⟨seq_solid a h2.1.1, ?_⟩
  obtain ⟨frs, h3, h4⟩ := sep_run E o (p := fmtItem (pFmtGroup k)) (Fol := FmtEndA) (Fol' := FmtEndC) (d := FPart.den)
    solid_dollar (fun r => fmtEndA_noWs) (fun r h => .inl h) (fun r => .inr ⟨r, rfl⟩) (fun r => fmtEndC_not)
    a h1 h2
  refine ⟨.andThen frs, runsIn_andThen E o h3, fun rest hr => ⟨fun hm => ?_, fun hm => ?_⟩⟩
  · obtain ⟨r', e1, e2⟩ := (h4 rest hr).1 hm
    exact ⟨r', e1, TParser.map_run e2⟩
  · exact TParser.map_none ((h4 rest hr).2 hm)

theorem andThen_single (d : Field → Bytes) : andThen [d] = d := by
  funext f
  by_cases h : d f = [] <;> simp [andThen, h]

theorem concat_single (d : Field → Bytes) : concat [d] = d := by
  funext f; simp [concat]

theorem Spec.FmtAnd.den_single {a : FmtAnd} (h : ¬ a.many) : a.den = a.head.den ∧ a.txt = a.head.text := by
  obtain ⟨hd, tl⟩ := a
  have : tl = [] := Classical.byContradiction h
  subst this
  exact ⟨by simp [FmtAnd.den, Seq.items, andThen_single], by simp [FmtAnd.txt, Seq.text]⟩

theorem Spec.FmtSeq.den_single {a : FmtSeq} (h : ¬ a.many) : a.den = a.head.den ∧ a.txt = a.head.txt := by
  obtain ⟨hd, tl⟩ := a
  have : tl = [] := Classical.byContradiction h
  subst this
  exact ⟨by simp [FmtSeq.den, Seq.items, concat_single], by simp [FmtSeq.txt, Seq.text]⟩

/-- an item of `<*>` -/
theorem fmtConsItem_run {k : Nat} {a : FmtAnd} (h : a.ok (PartRuns E o k s)) :
    Solid a.txt ∧ Runs E o (TParser.alt (pAndThen (pFmtGroup k)) (fmtItem (pFmtGroup k))) s a.txt a.den FmtEndC := by
  obtain ⟨h1, fr, h2, h3⟩ := fmtAnd_run E o h
  refine ⟨h1, ?_⟩
  by_cases hm : a.many
  · refine ⟨fr, h2.1, fun rest hr => ?_⟩
    obtain ⟨r', e1, e2⟩ := (h3 rest hr).1 hm
    exact ⟨r', e1, TParser.alt_left e2⟩
  · obtain ⟨e1, e2⟩ := FmtAnd.den_single hm
    obtain ⟨-, fr', h4, h5⟩ := h.2.1
    refine ⟨fr', by rw [e1]; exact h4, fun rest hr => ?_⟩
    obtain ⟨r', e3, e4⟩ := h5 rest (.inl hr)
    refine ⟨r', e3, ?_⟩
    rw [TParser.alt_right ((h3 rest hr).2 hm), e2]
    exact e4

/-- a sequence of two or more parts is read by `parse_list`, a single part is not -/
theorem fmtList_run {k : Nat} {a : FmtSeq} (h : a.ok (PartRuns E o k s)) :
    Solid a.txt ∧ ∃ fr, RunsIn E o fr a.den ∧ ∀ rest, FmtEnd rest →
      (a.long → ∃ r', dws r' = rest ∧ pFmtList (pFmtGroup k) s (a.txt ++ rest) = (some (fr, r'), s)) ∧
      (¬ a.long → pFmtList (pFmtGroup k) s (a.txt ++ rest) = (none, s)) := by
  obtain ⟨h1, h2⟩ := h
  have h2' : a.all (fun x => Solid (FmtAnd.txt x) ∧ Runs E o (TParser.alt (pAndThen (pFmtGroup k))
      (fmtItem (pFmtGroup k))) s (FmtAnd.txt x) (FmtAnd.den x) FmtEndC) :=
    ⟨fmtConsItem_run E o h2.1, fun x hx => fmtConsItem_run E o (h2.2 x hx)⟩
  obtain ⟨frs, h3, h4⟩ := sep_run E o (p := TParser.alt (pAndThen (pFmtGroup k)) (fmtItem (pFmtGroup k)))
    (Fol := FmtEndC) (Fol' := FmtEnd) (d := FmtAnd.den)
    solid_star (fun r h => fmtEndA_noWs (.inl h)) (fun r h => .inl h) (fun r => .inr ⟨r, rfl⟩)
    (fun r h => fmtEnd_not h _ ⟨_, bs_star⟩) a h1 h2'
  refine ⟨seq_solid a h2'.1.1, ?_⟩
  obtain ⟨-, fr, h5, h6⟩ := fmtAnd_run E o h2.1
  by_cases hm : a.many
  · refine ⟨.cons frs, runsIn_cons E o h3, fun rest hr => ⟨fun _ => ?_, fun hl => absurd (.inl hm) hl⟩⟩
    obtain ⟨r', e1, e2⟩ := (h4 rest hr).1 hm
    exact ⟨r', e1, TParser.alt_left (TParser.map_run e2)⟩
  · obtain ⟨e1, e2⟩ := FmtSeq.den_single hm
    refine ⟨fr, by rw [e1]; exact h5, fun rest hr => ⟨fun hl => ?_, fun hl => ?_⟩⟩
    · have hm' : a.head.many := hl.resolve_left hm
      obtain ⟨r', e3, e4⟩ := (h6 rest (.inl hr)).1 hm'
      refine ⟨r', e3, ?_⟩
      unfold pFmtList
      have hc : pCons (pFmtGroup k) s (a.txt ++ rest) = (none, s) := TParser.map_none ((h4 rest hr).2 hm)
      rw [TParser.alt_right hc, e2]
      exact e4
    · have hm' : ¬ a.head.many := fun h => hl (.inr h)
      unfold pFmtList
      have hc : pCons (pFmtGroup k) s (a.txt ++ rest) = (none, s) := TParser.map_none ((h4 rest hr).2 hm)
      rw [TParser.alt_right hc, e2]
      exact (h6 rest (.inl hr)).2 hm'

/-! ## Groups -/

theorem wsByte_dws {b : Byte} {i r : Bytes} (h : dws i = b :: r) : Pica.ws (byte b) i = some (b, dws r) :=
  ws_run' (by rw [h]; exact byte_cons_self _ _)

theorem after_ws {w rest : Bytes} (hw : Ws w) (ha : AfterVal rest) :
    NoDigit (w ++ rest) ∧ (w ++ rest).head? ≠ some 0x2E := by
  cases w with
  | nil => exact ⟨fun b hb => (ha b hb).1, fun h => (ha _ h).2.2.2 rfl⟩
  | cons c w =>
    have := hw c (by simp)
    refine ⟨fun b hb => ?_, ?_⟩
    · simp only [List.cons_append, List.head?_cons, Option.some.injEq] at hb
      subst hb
      rcases this with rfl | rfl | rfl | rfl <;> decide
    · rcases this with rfl | rfl | rfl | rfl <;> simp

theorem modFront_noWs {tm u m} (h : ModFront E tm u m) (hu : Solid u) (r : Bytes) : NoWs (tm ++ (u ++ r)) := by
  cases h with
  | none _ => exact hu.noWs r
  | some _ _ _ _ => rw [← bs_qm]; exact noWs_cons.2 (by decide)

theorem fmtGroup_run {k : Nat} {x : FPart} {s : Levels} (hs : s.fmt + 1 ≤ 31)
    (h : FmtGroup E o (PartRuns E o k { s with fmt := s.fmt + 1 }) x) :
    Solid x.text ∧ Runs E o (pFmtGroup (k + 1)) s x.text x.den FmtEndA := by
  rcases h with @⟨w0, tm, m, w1, tb, n, w2, a, h1, h2, h3, h4, h5, h6, h7⟩
  obtain ⟨hsol, fr, h8, h9⟩ := fmtList_run E o h3
  refine ⟨⟨by dsimp only; rw [bs_lpar]; exact noWs_cons.2 (by decide), by dsimp only; rw [bs_lpar]; simp⟩, ?_⟩
  obtain ⟨mo, em, hm⟩ := pModifier_run E h2 hsol.2
  -- the content
  have hin : ∃ fr', RunsIn E o fr' a.den ∧ ∀ rest i, FmtEnd rest → dws i = a.txt ++ rest →
      TParser.alt (tws (pFmtList (pFmtGroup k))) (TParser.lift (Pica.ws (map .value pFmtValue)))
        { s with fmt := s.fmt + 1 } i = (some (fr', rest), { s with fmt := s.fmt + 1 }) := by
    by_cases hl : a.long
    · refine ⟨fr, h8, fun rest i hr hi => ?_⟩
      obtain ⟨r', e1, e2⟩ := (h9 rest hr).1 hl
      have := tws_run (p := pFmtList (pFmtGroup k)) (i := i) (by rw [hi]; exact e2)
      rw [e1] at this
      exact TParser.alt_left this
    · have hv : FmtVal E o a.head.head := h4.resolve_left hl
      have hl1 : ¬ a.many := fun h => hl (.inl h)
      have hl2 : ¬ a.head.many := fun h => hl (.inr h)
      obtain ⟨d1, t1⟩ := FmtSeq.den_single hl1
      obtain ⟨d2, t2⟩ := FmtAnd.den_single hl2
      obtain ⟨v, hv1, hv2⟩ := fmtVal_run E o hv
      refine ⟨.value v, ?_, fun rest i hr hi => ?_⟩
      · rw [d1, d2, ← hv1]; exact runsIn_value E o v
      · have hr' : FmtEndA rest := .inl (.inl hr)
        obtain ⟨r', e1, e2⟩ := hv2 rest (fmtEndA_noWs hr') (fmtEndA_after hr')
        rw [TParser.alt_right (tws_none (by rw [hi]; exact (h9 rest hr).2 hl))]
        refine TParser.lift_run ?_
        have := ws_run' (p := map Fragments.value pFmtValue) (i := i) (a := .value v) (r := r')
          (by rw [hi, t1, t2]; exact map_run e2)
        rw [this, e1]
  obtain ⟨fr', h10, h11⟩ := hin
  refine ⟨.group fr' n (Modifier.orDefault mo), ?_, fun rest hr => ?_⟩
  · have := h10.2 n (Modifier.orDefault mo)
    rw [em] at this
    exact this
  · have htxt : bs "(" ++ w0 ++ tm ++ a.txt ++ bs ")" ++ w1 ++ tb ++ w2 ++ rest =
        0x28 :: (w0 ++ (tm ++ (a.txt ++ (0x29 :: (w1 ++ (tb ++ (w2 ++ rest))))))) := by
      rw [bs_lpar, bs_rpar]; simp
    simp only [htxt]
    rw [pFmtGroup]
    obtain ⟨X, x1, x2, x3, x4⟩ : ∃ X, dws X = rest ∧ dws (w1 ++ (tb ++ (w2 ++ rest))) = tb ++ X ∧
        NoDigit X ∧ X.head? ≠ some 0x2E := by
      rw [dws_append h5]
      obtain ⟨a1, a2⟩ := after_ws h7 (fmtEndA_after hr)
      obtain ⟨a3, a4⟩ := after_ws (w := []) (by simp [Ws]) (fmtEndA_after hr)
      have hn := fmtEndA_noWs hr
      cases h6 with
      | none => exact ⟨rest, dws_of_noWs hn, by simp [dws_append_noWs h7 hn], a3, a4⟩
      | «open» =>
        exact ⟨w2 ++ rest, dws_append_noWs h7 hn, by rw [← bs_dotdot]; exact dws_cons _ (by decide), a1, a2⟩
      | num _ _ _ =>
        exact ⟨w2 ++ rest, dws_append_noWs h7 hn, by rw [← bs_dotdot]; exact dws_cons _ (by decide), a1, a2⟩
    refine ⟨X, x1, ?_⟩
    obtain ⟨r1, e1, e2⟩ := hm (0x29 :: (w1 ++ (tb ++ (w2 ++ rest)))) (hsol.noWs _)
    have hb : pBound usizeMax (tb ++ X) = some (n, X) := pBound_run h6 x3 x4
    have hopen : Pica.ws (byte 0x28) (0x28 :: (w0 ++ (tm ++ (a.txt ++ (0x29 :: (w1 ++ (tb ++ (w2 ++ rest)))))))) =
        some (0x28, tm ++ (a.txt ++ (0x29 :: (w1 ++ (tb ++ (w2 ++ rest)))))) := by
      rw [wsByte_dws (dws_cons _ (by decide)), dws_append_noWs h1 (modFront_noWs E h2 hsol _)]
    have hinc : fmtInc s (tm ++ (a.txt ++ (0x29 :: (w1 ++ (tb ++ (w2 ++ rest)))))) =
        (some ((), tm ++ (a.txt ++ (0x29 :: (w1 ++ (tb ++ (w2 ++ rest)))))), { s with fmt := s.fmt + 1 }) := by
      unfold fmtInc
      simp only
      rw [if_neg (by omega)]
    have hclose : Pica.ws (byte 0x29) (0x29 :: (w1 ++ (tb ++ (w2 ++ rest)))) = some (0x29, tb ++ X) := by
      rw [wsByte_dws (dws_cons _ (by decide)), x2]
    have hdec : TParser.update fmtDec { s with fmt := s.fmt + 1 } (tb ++ X) = (some ((), tb ++ X), s) := by
      simp [TParser.update, fmtDec]
    exact TParser.map_run (a := (mo, fr', n)) (TParser.preceded_run
      (TParser.terminated_run (TParser.lift_run hopen) hinc)
      (TParser.seq_run (TParser.lift_run e1) (TParser.seq_run (h11 _ _ (.inr (.inl rfl)) e2)
        (TParser.preceded_run (TParser.terminated_run (TParser.lift_run hclose) hdec) (TParser.lift_run hb)))))

theorem Spec.Seq.all_imp {A : Type} {f : A → Bytes} {P Q : A → Prop} {a : Seq A} (h : a.all P)
    (hPQ : ∀ y, (f y).length ≤ (a.text f).length → P y → Q y) : a.all Q := by
  refine ⟨hPQ _ (by simp [Seq.text]) h.1, fun x hx => hPQ _ ?_ (h.2 x hx)⟩
  obtain ⟨l1, l2, e⟩ := List.append_of_mem hx
  simp only [Seq.text, e, List.map_append, List.map_cons, List.flatten_append, List.flatten_cons,
    List.length_append]
  omega

theorem Spec.FmtGroup.mono {P Q : FPart → Prop} {x : FPart} (h : FmtGroup E o P x)
    (hPQ : ∀ y, y.text.length < x.text.length → P y → Q y) : FmtGroup E o Q x := by
  rcases h with @⟨w0, tm, m, w1, tb, n, w2, a, h1, h2, h3, h4, h5, h6, h7⟩
  refine .mk h1 h2 ?_ h4 h5 h6 h7
  have hlen : a.txt.length < (bs "(" ++ w0 ++ tm ++ a.txt ++ bs ")" ++ w1 ++ tb ++ w2).length := by
    rw [bs_lpar]
    simp only [List.length_append, List.length_cons]
    omega
  refine ⟨h3.1, Seq.all_imp (f := FmtAnd.txt) h3.2 (fun b hb h =>
    ⟨h.1, Seq.all_imp (f := FPart.text) h.2 (fun y hy => ?_)⟩)⟩
  refine hPQ y (Nat.lt_of_le_of_lt (Nat.le_trans hy hb) hlen)

/-- parts nested at most `d` deep are read if there are `d` levels left -/
theorem fmtPart_run : ∀ (d k : Nat) (x : FPart) (s : Levels), FmtPart E o d x → x.text.length ≤ k →
    s.fmt + d ≤ 31 → PartRuns E o k s x := by
  have hval : ∀ (k : Nat) (x : FPart) (s : Levels), FmtVal E o x → PartRuns E o k s x := by
    intro k x s h
    obtain ⟨n1, n2, n3⟩ := fmtVal_ne E o h
    obtain ⟨v, hv1, hv2⟩ := fmtVal_run E o h
    refine ⟨⟨n1, n2⟩, .value v, by rw [← hv1]; exact (runsIn_value E o v).1, fun rest hr => ?_⟩
    obtain ⟨r', e1, e2⟩ := hv2 rest (fmtEndA_noWs hr) (fmtEndA_after hr)
    refine ⟨r', e1, ?_⟩
    have hg : pFmtGroup k s (x.text ++ rest) = (none, s) := by
      cases k with
      | zero => rfl
      | succ k =>
        rw [pFmtGroup]
        refine TParser.map_none (TParser.preceded_none (TParser.terminated_none (TParser.lift_none (ws_none' ?_))))
        rw [dws_of_noWs (Solid.noWs ⟨n1, n2⟩ rest)]
        refine byte_none_of_head ?_
        cases hx : x.text with
        | nil => exact absurd hx n2
        | cons b t => rw [hx] at n3; simpa using n3
    unfold fmtItem
    rw [TParser.alt_right hg]
    exact TParser.lift_run (map_run e2)
  intro d
  induction d with
  | zero => intro k x s h _ _; exact hval k x s h
  | succ d ih =>
    intro k x s h hk hs
    rcases h with h | h
    · exact ih k x s h hk (by omega)
    · obtain ⟨k, rfl⟩ : ∃ j, k = j + 1 := ⟨k - 1, by
        have : 0 < x.text.length := by
          cases h with
          | mk _ _ _ _ _ _ _ => dsimp only; rw [bs_lpar]; simp
        omega⟩
      have h' := h.mono (E := E) (o := o) (Q := PartRuns E o k { s with fmt := s.fmt + 1 })
        (fun y hy hp => ih k y _ hp (by omega) (by simp only; omega))
      obtain ⟨h1, fr, h2, h3⟩ := fmtGroup_run E o (by omega) h'
      refine ⟨h1, fr, h2, fun rest hr => ?_⟩
      obtain ⟨r', e1, e2⟩ := h3 rest hr
      exact ⟨r', e1, TParser.alt_left e2⟩

/-! ## Formats -/

/-- a sequence of parts is read by `parse_fragments` -/
theorem fragments_run {d k : Nat} {s : Levels} {a : FmtSeq} (h : a.ok (FmtPart E o d)) (hk : a.txt.length ≤ k)
    (hs : s.fmt + d ≤ 31) : Solid a.txt ∧ ∃ fr, RunsTo E o fr a.den ∧ ∀ rest i, FmtEnd rest →
      dws i = a.txt ++ rest → pFragments k s i = (some (fr, rest), s) := by
  have h' : a.ok (PartRuns E o k s) :=
    ⟨h.1, Seq.all_imp (f := FmtAnd.txt) h.2 (fun b hb h => ⟨h.1, Seq.all_imp (f := FPart.text) h.2
      (fun y hy hp => fmtPart_run E o d k y s hp (Nat.le_trans (Nat.le_trans hy hb) hk) hs)⟩)⟩
  obtain ⟨h1, fr, h2, h3⟩ := fmtList_run E o h'
  refine ⟨h1, ?_⟩
  by_cases hl : a.long
  · refine ⟨fr, h2.1, fun rest i hr hi => ?_⟩
    obtain ⟨r', e1, e2⟩ := (h3 rest hr).1 hl
    have := tws_run (p := pFmtList (pFmtGroup k)) (i := i) (by rw [hi]; exact e2)
    rw [e1] at this
    exact TParser.alt_left this
  · have hl1 : ¬ a.many := fun h => hl (.inl h)
    have hl2 : ¬ a.head.many := fun h => hl (.inr h)
    obtain ⟨d1, t1⟩ := FmtSeq.den_single hl1
    obtain ⟨d2, t2⟩ := FmtAnd.den_single hl2
    obtain ⟨-, fr', h4, h5⟩ := h'.2.1.2.1
    refine ⟨fr', by rw [d1, d2]; exact h4, fun rest i hr hi => ?_⟩
    obtain ⟨r', e1, e2⟩ := h5 rest (.inl (.inl hr))
    unfold pFragments
    rw [TParser.alt_right (tws_none (by rw [hi]; exact (h3 rest hr).2 hl))]
    rw [t1, t2] at hi
    unfold fmtItem at e2
    cases hg : pFmtGroup k s (a.head.head.text ++ rest) with
    | mk x s1 =>
      cases x with
      | some y =>
        rw [TParser.alt_left hg] at e2
        have := tws_run (p := pFmtGroup k) (i := i) (by rw [hi]; exact hg.trans e2)
        rw [e1] at this
        exact TParser.alt_left this
      | none =>
        rw [TParser.alt_right hg] at e2
        rw [TParser.alt_right (tws_none (by rw [hi]; exact hg))]
        simp only [TParser.lift, Prod.mk.injEq] at e2
        obtain ⟨e3, rfl⟩ := e2
        refine TParser.lift_run ?_
        have := ws_run' (p := map Fragments.value pFmtValue) (i := i) (by rw [hi]; exact e3)
        rw [this, e1]

variable (rx : Bytes → Bool)

/-- a filter is read -/
theorem filterBody_run {E : Env} {o : Opts} {tf v} (h : FilterBody rx E o tf v) :
    ∃ m : Option SubMatcher, subDen E o m = v ∧ ∀ (s : Levels) rest, s.sub = 0 → rest.head? = some 0x7D →
      ∃ r', dws r' = rest ∧ pFilterOpt rx s (tf ++ rest) = (some (m, r'), s) := by
  have hn : ∀ rest : Bytes, rest.head? = some 0x7D → NoWs rest := by
    intro rest hr b hb
    rw [hr] at hb; cases hb; decide
  cases h with
  | none =>
    refine ⟨none, rfl, fun s rest _ hr => ⟨rest, dws_of_noWs (hn rest hr), ?_⟩⟩
    unfold pFilterOpt
    refine TParser.opt_none (TParser.preceded_none (TParser.lift_none (ws_none' ?_)))
    rw [List.nil_append, dws_of_noWs (hn rest hr)]
    exact byte_none_of_head (by rw [hr]; simp)
  | @some w u _ hw hu =>
    obtain ⟨n1, n2, m, hm, h1⟩ := subBody_run rx hu
    refine ⟨some m, hm, fun s rest hs hr => ?_⟩
    obtain ⟨r', e1, e2⟩ := h1 s rest hs (.inr (.inr hr))
    refine ⟨r', e1, TParser.opt_run (TParser.preceded_run (a := 0x7C) (TParser.lift_run ?_) e2)⟩
    have : bs "|" ++ w ++ u ++ rest = 0x7C :: (w ++ (u ++ rest)) := by rw [← bs_bar]; simp
    rw [this, wsByte_dws (dws_cons _ (by decide)), dws_append_noWs hw (Solid.noWs ⟨n1, n2⟩ rest)]

theorem TParser.withTaken_all {α : Type} {p : TParser α} {s s' : Levels} {i : Bytes} {a : α}
    (h : p s i = (some (a, []), s')) : TParser.withTaken p s i = (some ((a, i), []), s') := by
  simp [TParser.withTaken, h]

/-- a format is accepted -/
theorem formatBody_run {d : Nat} {t sel v g} (h : FormatBody rx E o d t sel v g) {s : Levels}
    (hs : s.fmt + d ≤ 31) (hsub : s.sub = 0) :
    ∃ fm : Format, Format.new rx s t = (some fm, s) ∧ selOf fm.tag fm.occ = sel ∧
      subDen E.toEnv o.opts fm.sub = v ∧ RunsTo E o fm.fragments g := by
  rcases h with @⟨t, to, sel, w0, w1, tf, v, w2, a, h1, h2, h3, h4, h5, h6⟩
  obtain ⟨m, om, hm, ho, rfl⟩ := h1
  obtain ⟨mf, e1, e2⟩ := filterBody_run rx h5
  have htext : t ++ to ++ w0 ++ bs "{" ++ w1 ++ a.txt ++ tf ++ bs "}" ++ w2 =
      t ++ (to ++ (w0 ++ (0x7B :: (w1 ++ (a.txt ++ (tf ++ (0x7D :: w2))))))) := by
    rw [← bs_lbrace, ← bs_rbrace]; simp
  have hk : a.txt.length ≤ (t ++ to ++ w0 ++ bs "{" ++ w1 ++ a.txt ++ tf ++ bs "}" ++ w2).length + 1 := by
    simp only [List.length_append]; omega
  obtain ⟨hsol, fr, e3, e4⟩ := fragments_run E o h4 hk hs
  refine ⟨⟨m, om, mf, trimAscii (t ++ to ++ w0 ++ bs "{" ++ w1 ++ a.txt ++ tf ++ bs "}" ++ w2), fr⟩,
    TParser.parseAll_eq_some.2 ?_, rfl, e1, e3⟩
  have hend : FmtEnd (tf ++ (0x7D :: w2)) := by
    cases h5 with
    | none => exact .inr (.inr (.inl rfl))
    | some _ _ => rw [← bs_bar]; exact .inr (.inr (.inr rfl))
  have hopen : Pica.ws (byte 0x7B) (w0 ++ (0x7B :: (w1 ++ (a.txt ++ (tf ++ (0x7D :: w2)))))) =
      some (0x7B, a.txt ++ (tf ++ (0x7D :: w2))) := by
    rw [wsByte_dws (dws_append_noWs h2 (noWs_cons.2 (by decide))), dws_append_noWs h3 (hsol.noWs _)]
  obtain ⟨r', e5, e6⟩ := e2 s (0x7D :: w2) hsub rfl
  have hclose : Pica.ws (byte 0x7D) r' = some (0x7D, []) := by
    rw [wsByte_dws e5]
    have := dws_append_noWs h6 noWs_nil
    rw [List.append_nil] at this
    rw [this]
  unfold pFormat
  refine TParser.map_run (a := ((m, om, fr, mf), t ++ to ++ w0 ++ bs "{" ++ w1 ++ a.txt ++ tf ++ bs "}" ++ w2)) ?_
  refine TParser.withTaken_all ?_
  generalize (t ++ to ++ w0 ++ bs "{" ++ w1 ++ a.txt ++ tf ++ bs "}" ++ w2).length + 1 = k at e4
  rw [htext]
  exact TParser.seq_run (TParser.lift_run (pTagMatcher_follow hm)) (TParser.seq_run
    (TParser.lift_run (pOccMatcher_follow ho (occStop_ws h2 (OccStop.cons (by decide)))))
    (TParser.delimited_run (TParser.lift_run hopen)
      (TParser.seq_run (e4 _ _ hend (dws_of_noWs (hsol.noWs _))) e6) (TParser.lift_run hclose)))

end
end Pica
