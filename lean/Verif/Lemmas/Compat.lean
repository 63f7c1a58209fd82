import Verif.Lemmas.Lex
import Verif.Lemmas.Operand
import Verif.Model.Compat

/-! The parsers with the feature `compat` and those without it agree on inputs in which no token
begins with `$`. -/

namespace Pica
open Parser Spec

/-- A property of inputs that is kept when tokens are removed and excludes a `$` in front.  In both
uses below it says that there is no `$` outside of strings and operators. -/
structure NoDollar (c : Bool) (G : Bytes → Prop) : Prop where
  lex : ∀ i j, Lex i j → G i → G j
  head : c = true → ∀ r, ¬ G (0x24 :: r)

/-- the input is a sequence of tokens -/
theorem noDollar_tokens (c : Bool) : NoDollar c (fun i => Lex i []) where
  lex _ _ h h' := h.rest h'
  head _ r h := by
    cases h with
    | step h _ => simp [lexStep, isOp2] at h

/-- there is no `$` at all -/
theorem noDollar_none (c : Bool) : NoDollar c (fun i => (0x24 : Byte) ∉ i) where
  lex i j h h' := by
    obtain ⟨t, rfl⟩ := h.suffix
    exact fun hj => h' (by simp [hj])
  head _ r h := h (by simp)

/-- without the feature nothing is excluded -/
theorem noDollar_from (i : Bytes) : NoDollar false (fun j => Lex i j) where
  lex _ _ h h' := h'.trans h
  head h := by cases h

section
variable {α β γ M : Type} {c : Bool} {G : Bytes → Prop}

/-- the parsers have the same result on inputs with `G`, and what remains has `G` -/
def PSame (G : Bytes → Prop) (p p' : Parser α) : Prop :=
  ∀ i, G i → p i = p' i ∧ ∀ a r, p i = some (a, r) → G r

/-- the same for parsers with state -/
def CSame (G : Bytes → Prop) (p p' : TParser α) : Prop :=
  ∀ i, G i → ∀ s, p s i = p' s i ∧ ∀ a r, (p s i).1 = some (a, r) → G r

theorem Lexes.same {p : Parser α} (h : Lexes p) (hG : NoDollar c G) : PSame G p p :=
  fun i hi => ⟨rfl, fun a r hp => hG.lex _ _ (h i a r hp) hi⟩

theorem PSame.map {p p' : Parser α} (h : PSame G p p') (f : α → β) : PSame G (map f p) (map f p') := by
  intro i hi
  obtain ⟨h1, h2⟩ := h i hi
  refine ⟨by simp only [Parser.map, h1], fun b r hb => ?_⟩
  obtain ⟨a, ha, -⟩ := map_eq_some.1 hb
  exact h2 a r ha

theorem PSame.withTaken {p p' : Parser α} (h : PSame G p p') : PSame G (withTaken p) (withTaken p') := by
  intro i hi
  obtain ⟨h1, h2⟩ := h i hi
  refine ⟨by simp only [Parser.withTaken, h1], fun b r hb => ?_⟩
  obtain ⟨b, t⟩ := b
  exact h2 _ r (withTaken_eq_some.1 hb).1

theorem PSame.seq {p p' : Parser α} {q q' : Parser β} (h : PSame G p p') (h' : PSame G q q') :
    PSame G (seq p q) (seq p' q') := by
  intro i hi
  obtain ⟨h1, h2⟩ := h i hi
  refine ⟨?_, fun b r hb => ?_⟩
  · simp only [Parser.seq, ← h1]
    cases hp : p i with
    | none => rfl
    | some x => simp only [(h' x.2 (h2 x.1 x.2 hp)).1]
  · obtain ⟨r1, hp, hq⟩ := seq_eq_some.1 hb
    exact (h' _ (h2 _ _ hp)).2 _ _ hq

theorem PSame.preceded {p p' : Parser α} {q q' : Parser β} (h : PSame G p p') (h' : PSame G q q') :
    PSame G (preceded p q) (preceded p' q') := (h.seq h').map _
theorem PSame.terminated {p p' : Parser α} {q q' : Parser β} (h : PSame G p p') (h' : PSame G q q') :
    PSame G (terminated p q) (terminated p' q') := (h.seq h').map _
theorem PSame.delimited {p p' : Parser α} {q q' : Parser β} {t t' : Parser γ} (h : PSame G p p')
    (h' : PSame G q q') (h'' : PSame G t t') : PSame G (delimited p q t) (delimited p' q' t') :=
  h.preceded (h'.terminated h'')
theorem PSame.ws {p p' : Parser α} (hG : NoDollar c G) (h : PSame G p p') : PSame G (ws p) (ws p') :=
  (steps_space0.same hG).delimited h (steps_space0.same hG)

theorem PSame.alt {p p' q q' : Parser α} (h : PSame G p p') (h' : PSame G q q') :
    PSame G (alt p q) (alt p' q') := by
  intro i hi
  obtain ⟨h1, h2⟩ := h i hi
  obtain ⟨h3, h4⟩ := h' i hi
  refine ⟨by simp only [Parser.alt, h1, h3], fun a r hp => ?_⟩
  rcases alt_eq_some.1 hp with hp | ⟨-, hp⟩
  · exact h2 _ _ hp
  · exact h4 _ _ hp

/-- an alternative that fails on all inputs with `G` -/
theorem PSame.altNone {p p' q : Parser α} (h : PSame G p p') (h' : ∀ i, G i → q i = none) :
    PSame G p (Parser.alt p' q) := by
  intro i hi
  obtain ⟨h1, h2⟩ := h i hi
  refine ⟨?_, h2⟩
  simp only [Parser.alt, ← h1, h' i hi]
  cases p i <;> rfl

theorem PSame.separatedAux {p p' : Parser α} {q : Parser β} (hG : NoDollar c G) (h : PSame G p p')
    (h' : Lexes q) : ∀ n, PSame G (Pica.separatedAux p q n) (Pica.separatedAux p' q n)
  | 0 => fun i hi => ⟨rfl, fun a r hp => by simp only [Pica.separatedAux] at hp; cases hp; exact hi⟩
  | n + 1 => by
    intro i hi
    have ih := PSame.separatedAux hG h h' n
    simp only [Pica.separatedAux]
    cases hq : q i with
    | none => exact ⟨rfl, fun a r hp => by cases hp; exact hi⟩
    | some x =>
      obtain ⟨_, r⟩ := x
      obtain ⟨h1, h2⟩ := h r (hG.lex _ _ (h' _ _ _ hq) hi)
      simp only [← h1]
      cases hp : p r with
      | none => exact ⟨rfl, fun a r hp => by cases hp; exact hi⟩
      | some y =>
        obtain ⟨h3, h4⟩ := ih y.2 (h2 _ _ hp)
        simp only [← h3]
        refine ⟨trivial, fun a r hs => ?_⟩
        cases hz : Pica.separatedAux p q n y.2 with
        | none => rw [hz] at hs; cases hs
        | some z => rw [hz] at hs; cases hs; exact h4 _ _ hz

theorem PSame.separated1 {p p' : Parser α} {q : Parser β} (hG : NoDollar c G) (h : PSame G p p')
    (h' : Lexes q) : PSame G (Pica.separated1 p q) (Pica.separated1 p' q) := by
  intro i hi
  obtain ⟨h1, h2⟩ := h i hi
  simp only [Pica.separated1, ← h1]
  cases hp : p i with
  | none => exact ⟨rfl, fun a r hp => by cases hp⟩
  | some y =>
    obtain ⟨h3, h4⟩ := PSame.separatedAux hG h h' (y.2.length + 1) y.2 (h2 _ _ hp)
    simp only [← h3]
    refine ⟨trivial, fun a r hs => ?_⟩
    cases hz : Pica.separatedAux p q (y.2.length + 1) y.2 with
    | none => rw [hz] at hs; cases hs
    | some z => rw [hz] at hs; cases hs; exact h4 _ _ hz

/-! ### parsers with state -/

theorem PSame.lift {p p' : Parser α} (h : PSame G p p') : CSame G (TParser.lift p) (TParser.lift p') :=
  fun i hi s => ⟨by simp only [TParser.lift, (h i hi).1], fun a r hp => (h i hi).2 a r hp⟩

theorem Lexes.tsame {p : Parser α} (h : Lexes p) (hG : NoDollar c G) : CSame G (TParser.lift p) (TParser.lift p) :=
  (h.same hG).lift

theorem CSame.map {p p' : TParser α} (h : CSame G p p') (f : α → β) :
    CSame G (TParser.map f p) (TParser.map f p') := by
  intro i hi s
  obtain ⟨h1, h2⟩ := h i hi s
  simp only [TParser.map, ← h1]
  refine ⟨trivial, fun a r hp => ?_⟩
  cases hx : p s i with | mk o t =>
  rw [hx] at hp h2
  cases o with
  | none => cases hp
  | some y => cases hp; exact h2 _ _ rfl

theorem CSame.withTaken {p p' : TParser α} (h : CSame G p p') :
    CSame G (TParser.withTaken p) (TParser.withTaken p') := by
  intro i hi s
  obtain ⟨h1, h2⟩ := h i hi s
  simp only [TParser.withTaken, ← h1]
  refine ⟨trivial, fun a r hp => ?_⟩
  cases hx : p s i with | mk o t =>
  rw [hx] at hp h2
  cases o with
  | none => cases hp
  | some y => cases hp; exact h2 _ _ rfl

theorem CSame.seq {p p' : TParser α} {q q' : TParser β} (h : CSame G p p') (h' : CSame G q q') :
    CSame G (TParser.seq p q) (TParser.seq p' q') := by
  intro i hi s
  obtain ⟨h1, h2⟩ := h i hi s
  simp only [TParser.seq, ← h1]
  cases hx : p s i with | mk o t =>
  rw [hx] at h2
  cases o with
  | none => exact ⟨rfl, fun a r hp => by cases hp⟩
  | some y =>
    obtain ⟨h3, h4⟩ := h' y.2 (h2 _ _ rfl) t
    simp only [← h3]
    refine ⟨trivial, fun a r hp => ?_⟩
    cases hz : q t y.2 with | mk o' t' =>
    rw [hz] at hp h4
    cases o' with
    | none => cases hp
    | some z => cases hp; exact h4 _ _ rfl

theorem CSame.preceded {p p' : TParser α} {q q' : TParser β} (h : CSame G p p') (h' : CSame G q q') :
    CSame G (TParser.preceded p q) (TParser.preceded p' q') := (h.seq h').map _
theorem CSame.terminated {p p' : TParser α} {q q' : TParser β} (h : CSame G p p') (h' : CSame G q q') :
    CSame G (TParser.terminated p q) (TParser.terminated p' q') := (h.seq h').map _
theorem CSame.delimited {p p' : TParser α} {q q' : TParser β} {t t' : TParser γ} (h : CSame G p p')
    (h' : CSame G q q') (h'' : CSame G t t') : CSame G (TParser.delimited p q t) (TParser.delimited p' q' t') :=
  h.preceded (h'.terminated h'')
theorem CSame.tws {p p' : TParser α} (hG : NoDollar c G) (h : CSame G p p') : CSame G (tws p) (tws p') :=
  (steps_space0.tsame hG).delimited h (steps_space0.tsame hG)

theorem CSame.alt {p p' q q' : TParser α} (h : CSame G p p') (h' : CSame G q q') :
    CSame G (TParser.alt p q) (TParser.alt p' q') := by
  intro i hi s
  obtain ⟨h1, h2⟩ := h i hi s
  simp only [TParser.alt, ← h1]
  cases hx : p s i with | mk o t =>
  rw [hx] at h2
  cases o with
  | none => exact h' i hi t
  | some y => exact ⟨rfl, h2⟩

theorem CSame.fail : CSame G (TParser.fail : TParser α) TParser.fail :=
  fun _ _ _ => ⟨rfl, fun a r hp => by cases hp⟩

theorem CSame.opt {p p' : TParser α} (h : CSame G p p') : CSame G (TParser.opt p) (TParser.opt p') := by
  intro i hi s
  obtain ⟨h1, h2⟩ := h i hi s
  simp only [TParser.opt, ← h1]
  refine ⟨trivial, fun a r hp => ?_⟩
  cases hx : p s i with | mk o t =>
  rw [hx] at hp h2
  cases o with
  | none => cases hp; exact hi
  | some y => cases hp; exact h2 _ _ rfl

/-- a parser that only changes the counters -/
theorem CSame.state {p : TParser α} (h : ∀ s i a r, (p s i).1 = some (a, r) → r = i) : CSame G p p :=
  fun i hi s => ⟨rfl, fun a r hp => h s i a r hp ▸ hi⟩

theorem CSame.repeat0Aux {p p' : TParser α} (h : CSame G p p') :
    ∀ n, CSame G (TParser.repeat0Aux p n) (TParser.repeat0Aux p' n)
  | 0 => fun i hi s => ⟨rfl, fun a r hp => by simp only [TParser.repeat0Aux] at hp; cases hp; exact hi⟩
  | n + 1 => by
    intro i hi s
    have ih := CSame.repeat0Aux h n
    obtain ⟨h1, h2⟩ := h i hi s
    simp only [TParser.repeat0Aux, ← h1]
    cases hx : p s i with | mk o t =>
    rw [hx] at h2
    cases o with
    | none => exact ⟨rfl, fun a r hp => by cases hp; exact hi⟩
    | some y =>
      obtain ⟨h3, h4⟩ := ih y.2 (h2 _ _ rfl) t
      simp only [← h3]
      refine ⟨trivial, fun a r hp => ?_⟩
      split at hp
      · cases hz : TParser.repeat0Aux p n t y.2 with | mk o' t' =>
        rw [hz] at hp h4
        cases o' with
        | none => cases hp
        | some z => cases hp; exact h4 _ _ rfl
      · cases hp

theorem CSame.repeat1 {p p' : TParser α} (h : CSame G p p') :
    CSame G (TParser.repeat1 p) (TParser.repeat1 p') := by
  intro i hi s
  obtain ⟨h1, h2⟩ := h i hi s
  simp only [TParser.repeat1, ← h1]
  cases hx : p s i with | mk o t =>
  rw [hx] at h2
  cases o with
  | none => exact ⟨rfl, fun a r hp => by cases hp⟩
  | some y =>
    obtain ⟨h3, h4⟩ := CSame.repeat0Aux h (y.2.length + 1) y.2 (h2 _ _ rfl) t
    simp only [TParser.repeat0, ← h3]
    refine ⟨trivial, fun a r hp => ?_⟩
    cases hz : TParser.repeat0Aux p (y.2.length + 1) t y.2 with | mk o' t' =>
    rw [hz] at hp h4
    cases o' with
    | none => cases hp
    | some z => cases hp; exact h4 _ _ rfl

theorem CSame.separatedAux {p p' : TParser α} {q : Parser β} (hG : NoDollar c G) (h : CSame G p p')
    (h' : Lexes q) : ∀ n, CSame G (TParser.separatedAux p q n) (TParser.separatedAux p' q n)
  | 0 => fun i hi s => ⟨rfl, fun a r hp => by simp only [TParser.separatedAux] at hp; cases hp; exact hi⟩
  | n + 1 => by
    intro i hi s
    have ih := CSame.separatedAux hG h h' n
    simp only [TParser.separatedAux]
    cases hq : q i with
    | none => exact ⟨rfl, fun a r hp => by cases hp; exact hi⟩
    | some x =>
      obtain ⟨_, r⟩ := x
      obtain ⟨h1, h2⟩ := h r (hG.lex _ _ (h' _ _ _ hq) hi) s
      simp only [← h1]
      cases hx : p s r with | mk o t =>
      rw [hx] at h2
      cases o with
      | none => exact ⟨rfl, fun a r hp => by cases hp; exact hi⟩
      | some y =>
        obtain ⟨h3, h4⟩ := ih y.2 (h2 _ _ rfl) t
        simp only [← h3]
        refine ⟨trivial, fun a r hp => ?_⟩
        cases hz : TParser.separatedAux p q n t y.2 with | mk o' t' =>
        rw [hz] at hp h4
        cases o' with
        | none => cases hp
        | some z => cases hp; exact h4 _ _ rfl

theorem CSame.separated {p p' : TParser α} {q : Parser β} (hG : NoDollar c G) (m : Nat) (h : CSame G p p')
    (h' : Lexes q) : CSame G (TParser.separated m p q) (TParser.separated m p' q) := by
  intro i hi s
  obtain ⟨h1, h2⟩ := h i hi s
  simp only [TParser.separated, ← h1]
  cases hx : p s i with | mk o t =>
  rw [hx] at h2
  cases o with
  | none => exact ⟨rfl, fun a r hp => by cases hp⟩
  | some y =>
    obtain ⟨h3, h4⟩ := CSame.separatedAux hG h h' (y.2.length + 1) y.2 (h2 _ _ rfl) t
    simp only [← h3]
    refine ⟨trivial, fun a r hp => ?_⟩
    cases hz : TParser.separatedAux p q (y.2.length + 1) t y.2 with | mk o' t' =>
    rw [hz] at hp h4
    cases o' with
    | none => cases hp
    | some z =>
      simp only at hp
      split at hp
      · cases hp; exact h4 _ _ rfl
      · cases hp

/-! ### chains of operators -/

theorem CSame.chain {op : Parser Unit} {a a' : TParser M} (hG : NoDollar c G) (hop : Lexes op) (h : CSame G a a')
    (f : M → M → M) : CSame G (chain op a f) (chain op a' f) :=
  (h.seq (((hop.tsame hG).preceded h).repeat1)).map _

theorem lexes_xor : Lexes pXorOp := (Lexes.lit (by decide +kernel)).alt (Lexes.lit (by decide +kernel))

theorem CSame.composite {S : Syn M} (hG : NoDollar c G) (h1 : Lexes S.opAnd) (h2 : Lexes S.opOr)
    {a a' : TParser M} (h : CSame G a a') : CSame G (composite S a) (composite S a') := by
  have hand : CSame G (andChain S a) (andChain S a') := (h.tws hG).chain hG h1 _
  have hxor : CSame G (xorChain S a) (xorChain S a') := ((hand.alt h).tws hG).chain hG lexes_xor _
  have hor : CSame G (orChain S a) (orChain S a') := ((hand.alt (hxor.alt h)).tws hG).chain hG h2 _
  exact hor.alt (hxor.alt hand)

end

/-! ### negations

`!` is not a token in front of `=`, `^`, `$` and `~`; there no operand of a negation begins. -/

/-- one of the four bytes -/
def AfterBang (b : Byte) : Prop := b = 0x3D ∨ b = 0x5E ∨ b = 0x24 ∨ b = 0x7E

theorem lexStep_bang {r : Bytes} (h : ∀ b r', r = b :: r' → ¬ AfterBang b) : lexStep (0x21 :: r) = some r := by
  cases r with
  | nil => rfl
  | cons b r =>
    have := h b r rfl
    unfold AfterBang at this
    simp only [not_or] at this
    obtain ⟨h1, h2, h3, h4⟩ := this
    simp [lexStep, isOp2, h1, h2, h3, h4]

theorem CSame.bang {α : Type} {c : Bool} {G : Bytes → Prop} (hG : NoDollar c G) {q q' : TParser α} (h : CSame G q q')
    (h1 : ∀ b r s, AfterBang b → q s (b :: r) = (none, s))
    (h2 : ∀ b r s, AfterBang b → q' s (b :: r) = (none, s)) :
    CSame G (TParser.preceded (TParser.lift (ws (byte 0x21))) q)
      (TParser.preceded (TParser.lift (ws (byte 0x21))) q') := by
  intro i hi s
  cases hb : ws (byte 0x21) i with
  | none =>
    simp only [TParser.preceded, TParser.map, TParser.seq, TParser.lift, hb]
    exact ⟨trivial, fun a r hp => by cases hp⟩
  | some x =>
    obtain ⟨x, r⟩ := x
    simp only [TParser.preceded, TParser.map, TParser.seq, TParser.lift, hb]
    by_cases hr : ∃ b r', r = b :: r' ∧ AfterBang b
    · obtain ⟨b, r', rfl, hr⟩ := hr
      rw [h1 b r' s hr, h2 b r' s hr]
      exact ⟨rfl, fun a r hp => by cases hp⟩
    · have hl : Lex i r := by
        obtain ⟨_, i1, w, i2, k1, k2, k3⟩ := delimited_eq_some.1 hb
        refine (steps_space0 _ _ _ k1).trans (Lex.trans (.one (j := i2) ?_) (steps_space0 _ _ _ k3))
        obtain ⟨t, rfl, rfl, rfl⟩ := Reads.byte _ _ _ _ k2
        refine lexStep_bang fun b r' e => ?_
        subst e
        obtain ⟨e, hw⟩ := multispace0_sound k3
        cases w with
        | nil => exact fun hb => hr ⟨b, r', e.symm, hb⟩
        | cons c w =>
          cases e
          have := hw b (by simp)
          rintro (rfl | rfl | rfl | rfl) <;> revert this <;> decide
      obtain ⟨h3, h4⟩ := h r (hG.lex _ _ hl hi) s
      simp only [← h3]
      refine ⟨trivial, fun a j hp => ?_⟩
      cases hx : q s r with | mk o t =>
      rw [hx] at hp h4
      cases o with
      | none => cases hp
      | some y => cases hp; exact h4 _ _ rfl

/-! ### the parsers -/

section
variable {c : Bool} {G : Bytes → Prop} (hG : NoDollar c G)
include hG

omit hG in
theorem cfg_none {α : Type} {p : Parser α} {i : Bytes} (h : c = true → p i = none) : Compat.cfg c p i = none := by
  unfold Compat.cfg
  split
  · exact h ‹_›
  · rfl

theorem dollar_none {i : Bytes} (hc : c = true) (hi : G i) : ws (byte 0x24) i = none := by
  cases h : ws (byte 0x24) i with
  | none => rfl
  | some x =>
    obtain ⟨_, i1, _, i2, k1, k2, -⟩ := delimited_eq_some.1 h
    have h1 := hG.lex _ _ (steps_space0 _ _ _ k1) hi
    obtain ⟨t, rfl, -, rfl⟩ := Reads.byte _ _ _ _ k2
    exact absurd h1 (hG.head hc _)

theorem byteDollar_none {i : Bytes} (hc : c = true) (hi : G i) : byte 0x24 i = none := by
  cases h : byte 0x24 i with
  | none => rfl
  | some x =>
    obtain ⟨t, rfl, -, rfl⟩ := Reads.byte _ _ _ _ h
    exact absurd hi (hG.head hc _)

theorem pDollar_none {i : Bytes} (hi : G i) : (Compat.pDollar c) i = none :=
  cfg_none fun hc => preceded_none (dollar_none hG hc hi)

theorem same_relation : PSame G pSubRelation (Compat.pSubRelation c) :=
  ((steps_quantSp.same hG).seq (((steps_codes.ws.same hG).altNone fun _ => pDollar_none hG).seq
    ((steps_strOp.seq steps_string.ws).same hG))).withTaken.map _

theorem same_contains : PSame G pSubContains (Compat.pSubContains c) :=
  ((steps_quant.same hG).seq (((steps_codes.ws.same hG).altNone fun _ => pDollar_none hG).seq
    ((steps_containsOp.ws.seq ((steps_bracketList steps_string).alt (steps_string.ws.map _))).same
      hG))).withTaken.map _

theorem same_subSingle (rx : Bytes → Bool) : PSame G (pSubSingle rx) (Compat.pSubSingle c rx) :=
  (same_relation hG).alt ((same_contains hG).alt ((steps_subIn.alt (steps_subExists.alt
    (steps_subCard.alt ((steps_subRegexSet rx).alt (steps_subRegex rx))))).same hG))

theorem same_subSingleM (rx : Bytes → Bool) : CSame G (pSubSingleM rx) (Compat.pSubSingleM c rx) :=
  ((same_subSingle hG rx).map _).lift

theorem same_subInc : CSame G subInc subInc := CSame.state fun s i a r h => by
  simp only [subInc] at h
  split at h
  · cases h
  · cases h; rfl

theorem same_fldInc : CSame G fldInc fldInc := CSame.state fun s i a r h => by
  simp only [fldInc] at h
  split at h
  · cases h
  · cases h; rfl

theorem same_update (f : Levels → Levels) : CSame G (TParser.update f) (TParser.update f) :=
  CSame.state fun s i a r h => by cases h; rfl

omit hG in
theorem afterBang_noWs {b : Byte} (h : AfterBang b) (r : Bytes) : NoWs (b :: r) :=
  noWs_cons.2 (by rcases h with rfl | rfl | rfl | rfl <;> decide)

omit hG in
theorem afterBang_subExists {b : Byte} (h : AfterBang b) (r : Bytes) : pSubExists (b :: r) = none := by
  have : pCodes (b :: r) = none := by
    rcases h with rfl | rfl | rfl | rfl <;> rfl
  exact map_none (withTaken_none (terminated_none this))

omit hG in
theorem compatSubGroup_none {c : Bool} {rx : Bytes → Bool} {k s} {i : Bytes} (h : NoWs i)
    (h' : i.head? ≠ some 0x28) : Compat.pSubGroup c rx k s i = (none, s) := by
  cases k with
  | zero => simp [Compat.pSubGroup, TParser.fail]
  | succ k =>
    rw [Compat.pSubGroup]
    exact TParser.map_none (TParser.preceded_none (TParser.terminated_none
      (TParser.lift_none (wsByte_none h h'))))

omit hG in
theorem compatSubNot_none {c : Bool} {rx : Bytes → Bool} {k s} {i : Bytes} (h : NoWs i)
    (h' : i.head? ≠ some 0x21) : Compat.pSubNot c rx k s i = (none, s) := by
  cases k with
  | zero => simp [Compat.pSubNot, TParser.fail]
  | succ k =>
    rw [Compat.pSubNot]
    exact TParser.map_none (TParser.preceded_none (TParser.lift_none (wsByte_none h h')))

omit hG in
theorem afterBang_ne {b : Byte} (h : AfterBang b) (r : Bytes) :
    (b :: r).head? ≠ some 0x28 ∧ (b :: r).head? ≠ some 0x21 := by
  rcases h with rfl | rfl | rfl | rfl <;> simp

theorem lexes_subAnd : Lexes subSyn.opAnd := Lexes.lit (by decide +kernel)
theorem lexes_subOr : Lexes subSyn.opOr := Lexes.lit (by decide +kernel)
theorem lexes_fieldAnd : Lexes fieldSyn.opAnd := (Lexes.lit (by decide +kernel)).ws
theorem lexes_fieldOr : Lexes fieldSyn.opOr := (Lexes.lit (by decide +kernel)).ws

theorem same_subGroup_not (rx : Bytes → Bool) : ∀ k,
    CSame G (pSubGroup rx k) (Compat.pSubGroup c rx k) ∧ CSame G (pSubNot rx k) (Compat.pSubNot c rx k)
  | 0 => by
    simp only [pSubGroup, pSubNot, Compat.pSubGroup, Compat.pSubNot]
    exact ⟨CSame.fail, CSame.fail⟩
  | k + 1 => by
    obtain ⟨hg, hn⟩ := same_subGroup_not rx k
    have hs := same_subSingleM hG rx
    have ha : CSame G (subAtoms rx (pSubGroup rx k) (pSubNot rx k))
        (Compat.subAtoms c rx (Compat.pSubGroup c rx k) (Compat.pSubNot c rx k)) := hg.alt (hs.alt hn)
    simp only [pSubGroup, pSubNot, Compat.pSubGroup, Compat.pSubNot]
    constructor
    · exact ((((Lexes.byte (by decide)).ws.tsame hG).terminated (same_subInc hG)).delimited
        ((ha.composite hG (lexes_subAnd hG) (lexes_subOr hG)).alt (hs.alt (hn.alt hg)))
        ((Lexes.byte (by decide)).ws.tsame hG)).map _
    · refine CSame.map (CSame.bang hG (hg.alt (((steps_subExists.map _).tsame hG).alt hn)) ?_ ?_) _
      · intro b r s hb
        obtain ⟨h1, h2⟩ := afterBang_ne hb r
        rw [TParser.alt_right (pSubGroup_none (afterBang_noWs hb r) h1),
          TParser.alt_right (TParser.lift_none (map_none (afterBang_subExists hb r)))]
        exact pSubNot_none (afterBang_noWs hb r) h2
      · intro b r s hb
        obtain ⟨h1, h2⟩ := afterBang_ne hb r
        rw [TParser.alt_right (compatSubGroup_none (afterBang_noWs hb r) h1),
          TParser.alt_right (TParser.lift_none (map_none (afterBang_subExists hb r)))]
        exact compatSubNot_none (afterBang_noWs hb r) h2

theorem same_subMatcher (rx : Bytes → Bool) : CSame G (pSubMatcher rx) (Compat.pSubMatcher c rx) := by
  have h : ∀ k, CSame G (TParser.alt (pSubComposite rx k)
        (TParser.alt (pSubSingleM rx) (TParser.alt (pSubGroup rx k) (pSubNot rx k))))
      (TParser.alt (Compat.pSubComposite c rx k)
        (TParser.alt (Compat.pSubSingleM c rx) (TParser.alt (Compat.pSubGroup c rx k) (Compat.pSubNot c rx k)))) := by
    intro k
    obtain ⟨hg, hn⟩ := same_subGroup_not hG rx k
    have hs := same_subSingleM hG rx
    have ha : CSame G (subAtoms rx (pSubGroup rx k) (pSubNot rx k))
        (Compat.subAtoms c rx (Compat.pSubGroup c rx k) (Compat.pSubNot c rx k)) := hg.alt (hs.alt hn)
    exact (ha.composite hG (lexes_subAnd hG) (lexes_subOr hG)).alt (hs.alt (hg.alt hn))
  intro i hi s
  obtain ⟨h1, h2⟩ := h (i.length + 1) i hi s
  unfold pSubMatcher Compat.pSubMatcher
  simp only [← h1]
  generalize TParser.alt (pSubComposite rx (i.length + 1)) (TParser.alt (pSubSingleM rx)
    (TParser.alt (pSubGroup rx (i.length + 1)) (pSubNot rx (i.length + 1)))) s i = x at h2
  obtain ⟨o, t⟩ := x
  cases o with
  | none => exact ⟨rfl, fun a r hp => by cases hp⟩
  | some y => exact ⟨rfl, fun a r hp => h2 _ _ hp⟩

/-! ### fields -/

omit hG in
theorem CSame.altNone {α : Type} {p p' : TParser α} {q : Parser α} (h : CSame G p p')
    (h' : ∀ i, G i → q i = none) : CSame G p (TParser.alt p' (TParser.lift q)) := by
  intro i hi s
  obtain ⟨h1, h2⟩ := h i hi s
  refine ⟨?_, h2⟩
  simp only [TParser.alt, ← h1, TParser.lift, h' i hi]
  rcases p s i with ⟨_ | _, _⟩ <;> rfl

theorem same_dot (rx : Bytes → Bool) : PSame G (pSubfieldsDot rx) (Compat.pSubfieldsDot c rx) :=
  ((steps_fieldHead.same hG).seq (((Lexes.byte (by decide)).same hG).preceded
    (same_subSingle hG rx))).withTaken.map _

theorem fieldDollar_none (rx : Bytes → Bool) {i : Bytes} (hi : G i) :
    Compat.cfg c (Compat.pSubfieldsDollar c rx) i = none := by
  refine cfg_none fun hc => ?_
  refine map_none (withTaken_none ?_)
  cases h : pFieldHead i with
  | none => exact seq_none h
  | some x => exact seq_none' h (preceded_none (byteDollar_none hG hc (hG.lex _ _ (steps_fieldHead _ _ _ h) hi)))

theorem same_braces (rx : Bytes → Bool) :
    CSame G (TParser.delimited (TParser.lift (ws (byte 0x7B))) (pSubMatcher rx) (TParser.lift (ws (byte 0x7D))))
      (TParser.delimited (TParser.lift (ws (byte 0x7B))) (Compat.pSubMatcher c rx)
        (TParser.lift (ws (byte 0x7D)))) :=
  ((Lexes.byte (by decide)).ws.tsame hG).delimited (same_subMatcher hG rx)
    ((Lexes.byte (by decide)).ws.tsame hG)

theorem same_bracket (rx : Bytes → Bool) : CSame G (pSubfieldsBracket rx) (Compat.pSubfieldsBracket c rx) :=
  ((steps_fieldHead.tsame hG).seq (same_braces hG rx)).withTaken.map _

theorem same_fieldSingle (rx : Bytes → Bool) : CSame G (pFieldSingle rx) (Compat.pFieldSingle c rx) :=
  (steps_fieldExists.tsame hG).alt ((same_dot hG rx).lift.alt
    (CSame.altNone (same_bracket hG rx) fun _ => fieldDollar_none hG rx))

theorem same_fieldCard (rx : Bytes → Bool) : CSame G (pFieldCard rx) (Compat.pFieldCard c rx) :=
  (((Lexes.byte (by decide)).ws.tsame hG).preceded ((steps_tag.ws.tsame hG).seq ((steps_occ.ws.tsame hG).seq
    ((same_braces hG rx).opt.seq (steps_usizeOp.tsame hG))))).withTaken.map _

theorem same_fieldExistsM : PSame G pFieldExistsM (Compat.pFieldExistsM c) := by
  refine ((steps_fieldExists.map _).same hG).alt (PSame.map (PSame.withTaken (((steps_quantifier.opt.map
    _).same hG).seq ((steps_tag.same hG).seq ((steps_occ.same hG).seq ?_)))) _)
  exact (((Lexes.byte (by decide)).ws.preceded steps_subExists).same hG).altNone
    fun _ hi => cfg_none fun hc => preceded_none (dollar_none hG hc hi)

omit hG in
theorem afterBang_tag {b : Byte} (h : AfterBang b) (r : Bytes) : pTagMatcher (b :: r) = none := by
  rcases h with rfl | rfl | rfl | rfl <;> rfl

omit hG in
theorem afterBang_quant {b : Byte} (h : AfterBang b) (r : Bytes) : pQuantifier (b :: r) = none := by
  have e1 : bs "ALL" = [0x41, 0x4C, 0x4C] := by decide +kernel
  have e2 : bs "ANY" = [0x41, 0x4E, 0x59] := by decide +kernel
  unfold pQuantifier
  rw [e1, e2]
  rcases h with rfl | rfl | rfl | rfl <;> rfl

omit hG in
theorem afterBang_head {b : Byte} (h : AfterBang b) (r : Bytes) : pFieldHead (b :: r) = none := by
  have h1 : ws pQuantifier (b :: r) = none :=
    ws_none' (by rw [dws_of_noWs (afterBang_noWs h r)]; exact afterBang_quant h r)
  exact seq_none' (map_run (opt_none h1)) (seq_none (afterBang_tag h r))

omit hG in
theorem afterBang_fieldExists {b : Byte} (h : AfterBang b) (r : Bytes) : pFieldExists (b :: r) = none :=
  map_none (terminated_none (ws_none' (by
    rw [dws_of_noWs (afterBang_noWs h r)]; exact seq_none (afterBang_tag h r))))

omit hG in
theorem afterBang_existsM {c : Bool} {b : Byte} (h : AfterBang b) (r : Bytes) :
    pFieldExistsM (b :: r) = none ∧ (Compat.pFieldExistsM c) (b :: r) = none := by
  constructor <;> exact alt_eq_none.2 ⟨map_none (afterBang_fieldExists h r), map_none (withTaken_none
    (seq_none' (map_run (opt_none (afterBang_quant h r))) (seq_none (afterBang_tag h r))))⟩

omit hG in
theorem afterBang_bracket {c : Bool} {b : Byte} (h : AfterBang b) (r : Bytes) (rx : Bytes → Bool) (s : Levels) :
    pSubfieldsBracket rx s (b :: r) = (none, s) ∧ Compat.pSubfieldsBracket c rx s (b :: r) = (none, s) := by
  constructor <;> exact TParser.map_none (TParser.withTaken_none (TParser.seq_none
    (TParser.lift_none (afterBang_head h r))))

omit hG in
theorem compatFieldGroup_none {c : Bool} {rx : Bytes → Bool} {k s} {i : Bytes} (h : NoWs i)
    (h' : i.head? ≠ some 0x28) : Compat.pFieldGroup c rx k s i = (none, s) := by
  cases k with
  | zero => simp [Compat.pFieldGroup, TParser.fail]
  | succ k =>
    rw [Compat.pFieldGroup]
    exact TParser.map_none (TParser.preceded_none (TParser.terminated_none
      (TParser.lift_none (wsByte_none h h'))))

omit hG in
theorem compatFieldNot_none {c : Bool} {rx : Bytes → Bool} {k s} {i : Bytes} (h : NoWs i)
    (h' : i.head? ≠ some 0x21) : Compat.pFieldNot c rx k s i = (none, s) := by
  cases k with
  | zero => simp [Compat.pFieldNot, TParser.fail]
  | succ k =>
    rw [Compat.pFieldNot]
    exact TParser.map_none (TParser.preceded_none (TParser.lift_none (wsByte_none h h')))

theorem same_fieldGroup_not (rx : Bytes → Bool) : ∀ k,
    CSame G (pFieldGroup rx k) (Compat.pFieldGroup c rx k) ∧ CSame G (pFieldNot rx k) (Compat.pFieldNot c rx k)
  | 0 => by
    simp only [pFieldGroup, pFieldNot, Compat.pFieldGroup, Compat.pFieldNot]
    exact ⟨CSame.fail, CSame.fail⟩
  | k + 1 => by
    obtain ⟨hg, hn⟩ := same_fieldGroup_not rx k
    have hs : CSame G (pFieldSingleM rx) (Compat.pFieldSingleM c rx) := (same_fieldSingle hG rx).map _
    have hc : CSame G (pFieldCardM rx) (Compat.pFieldCardM c rx) := (same_fieldCard hG rx).map _
    have ha : CSame G (fieldAtoms rx (pFieldGroup rx k) (pFieldNot rx k))
        (Compat.fieldAtoms c rx (Compat.pFieldGroup c rx k) (Compat.pFieldNot c rx k)) :=
      hg.alt (hc.alt (hs.alt (hn.alt (same_fieldExistsM hG).lift)))
    simp only [pFieldGroup, pFieldNot, Compat.pFieldGroup, Compat.pFieldNot]
    constructor
    · exact ((((Lexes.byte (by decide)).ws.tsame hG).terminated (same_fldInc hG)).delimited
        ((ha.composite hG (lexes_fieldAnd hG) (lexes_fieldOr hG)).alt (hs.alt (hn.alt (hc.alt hg))))
        (((Lexes.byte (by decide)).ws.tsame hG).terminated (same_update hG _))).map _
    · refine CSame.map (CSame.bang hG (hg.alt (((same_bracket hG rx).map _).alt
        ((same_fieldExistsM hG).lift.alt hn))) ?_ ?_) _
      · intro b r s hb
        obtain ⟨h1, h2⟩ := afterBang_ne hb r
        rw [TParser.alt_right (pFieldGroup_none (afterBang_noWs hb r) h1),
          TParser.alt_right (TParser.map_none (afterBang_bracket (c := c) hb r rx s).1),
          TParser.alt_right (TParser.lift_none (afterBang_existsM (c := c) hb r).1)]
        exact pFieldNot_none (afterBang_noWs hb r) h2
      · intro b r s hb
        obtain ⟨h1, h2⟩ := afterBang_ne hb r
        rw [TParser.alt_right (compatFieldGroup_none (afterBang_noWs hb r) h1),
          TParser.alt_right (TParser.map_none (afterBang_bracket (c := c) hb r rx s).2),
          TParser.alt_right (TParser.lift_none (afterBang_existsM (c := c) hb r).2)]
        exact compatFieldNot_none (afterBang_noWs hb r) h2

theorem same_fieldMatcher (rx : Bytes → Bool) : CSame G (pFieldMatcher rx) (Compat.pFieldMatcher c rx) := by
  have h : ∀ k, CSame G (tws (TParser.alt (pFieldComposite rx k) (TParser.alt (pFieldGroup rx k)
        (TParser.alt (pFieldNot rx k) (TParser.alt (pFieldSingleM rx) (pFieldCardM rx))))))
      (tws (TParser.alt (Compat.pFieldComposite c rx k) (TParser.alt (Compat.pFieldGroup c rx k)
        (TParser.alt (Compat.pFieldNot c rx k) (TParser.alt (Compat.pFieldSingleM c rx)
          (Compat.pFieldCardM c rx)))))) := by
    intro k
    obtain ⟨hg, hn⟩ := same_fieldGroup_not hG rx k
    have hs : CSame G (pFieldSingleM rx) (Compat.pFieldSingleM c rx) := (same_fieldSingle hG rx).map _
    have hc : CSame G (pFieldCardM rx) (Compat.pFieldCardM c rx) := (same_fieldCard hG rx).map _
    have ha : CSame G (fieldAtoms rx (pFieldGroup rx k) (pFieldNot rx k))
        (Compat.fieldAtoms c rx (Compat.pFieldGroup c rx k) (Compat.pFieldNot c rx k)) :=
      hg.alt (hc.alt (hs.alt (hn.alt (same_fieldExistsM hG).lift)))
    exact ((ha.composite hG (lexes_fieldAnd hG) (lexes_fieldOr hG)).alt (hg.alt (hn.alt (hs.alt hc)))).tws hG
  intro i hi s
  obtain ⟨h1, h2⟩ := h (i.length + 1) i hi s
  unfold pFieldMatcher Compat.pFieldMatcher
  simp only [← h1]
  generalize tws (TParser.alt (pFieldComposite rx (i.length + 1)) (TParser.alt (pFieldGroup rx (i.length + 1))
    (TParser.alt (pFieldNot rx (i.length + 1)) (TParser.alt (pFieldSingleM rx) (pFieldCardM rx))))) s i = x at h2
  obtain ⟨o, t⟩ := x
  cases o with
  | none => exact ⟨rfl, fun a r hp => by cases hp⟩
  | some y => exact ⟨rfl, fun a r hp => h2 _ _ hp⟩

/-! ### paths, formats, queries -/

theorem same_pathSimple : PSame G pPathSimple (Compat.pPathSimple c) :=
  (((steps_tag.same hG).seq ((steps_occ.same hG).seq
    ((((Lexes.byte (by decide)).preceded steps_codes).same hG).altNone
      fun _ => pDollar_none hG))).ws hG).withTaken.map _

theorem same_pathCodes : PSame G pPathCodes (Compat.pPathCodes c) := by
  have h : PSame G pCodes (Compat.pPathCode c) := (steps_codes.same hG).altNone fun _ => pDollar_none hG
  have h' := PSame.separated1 hG h (Lexes.byte (b := 0x2C) (by decide)).ws
  exact h'.alt (((Lexes.byte (by decide)).ws.same hG).delimited h' ((Lexes.byte (by decide)).ws.same hG))

theorem same_filterOpt (rx : Bytes → Bool) : CSame G (pFilterOpt rx) (Compat.pFilterOpt c rx) :=
  (((Lexes.byte (by decide)).ws.tsame hG).preceded (same_subMatcher hG rx)).opt

theorem same_path (rx : Bytes → Bool) : CSame G (pPath rx) (Compat.pPath c rx) :=
  (same_pathSimple hG).lift.alt ((CSame.tws hG ((steps_tag.tsame hG).seq ((steps_occ.tsame hG).seq
    (((Lexes.byte (by decide)).ws.tsame hG).delimited ((same_pathCodes hG).lift.seq (same_filterOpt hG rx))
      ((Lexes.byte (by decide)).ws.tsame hG))))).withTaken.map _)

theorem same_fmtList {g : TParser Fragments} (h : CSame G g g) : CSame G (pFmtList g) (pFmtList g) := by
  have hv : CSame G (TParser.lift (map Fragments.value pFmtValue)) (TParser.lift (map Fragments.value pFmtValue)) :=
    (steps_fmtValue.map _).tsame hG
  have h1 : CSame G (pAndThen g) (pAndThen g) := (CSame.separated hG 2 (h.alt hv) steps_andThen.ws).map _
  exact ((CSame.separated hG 2 (h1.alt (h.alt hv)) steps_cons.ws).map _).alt h1

theorem same_fmtGroup : ∀ k, CSame G (pFmtGroup k) (pFmtGroup k)
  | 0 => CSame.fail
  | k + 1 => by
    have h := same_fmtList hG (same_fmtGroup k)
    have hi : CSame G fmtInc fmtInc := CSame.state fun s i a r h => by
      simp only [fmtInc] at h
      split at h
      · cases h
      · cases h; rfl
    rw [pFmtGroup]
    exact ((((Lexes.byte (by decide)).ws.tsame hG).terminated hi).preceded ((steps_modifier.tsame hG).seq
      (((h.tws hG).alt ((steps_fmtValue.map _).ws.tsame hG)).seq
        ((((Lexes.byte (by decide)).ws.tsame hG).terminated (same_update hG _)).preceded
          ((steps_bound _).tsame hG))))).map _

theorem same_format (rx : Bytes → Bool) : CSame G (pFormat rx) (Compat.pFormat c rx) := by
  intro i hi s
  have hg := same_fmtGroup hG (i.length + 1)
  have hf : CSame G (pFragments (i.length + 1)) (pFragments (i.length + 1)) :=
    ((same_fmtList hG hg).tws hG).alt ((hg.tws hG).alt ((steps_fmtValue.map _).ws.tsame hG))
  exact CSame.map (CSame.withTaken ((steps_tag.tsame hG).seq ((steps_occ.tsame hG).seq
    (((Lexes.byte (by decide)).ws.tsame hG).delimited (hf.seq (same_filterOpt hG rx))
      ((Lexes.byte (by decide)).ws.tsame hG))))) _ i hi s

theorem same_query (rx : Bytes → Bool) : CSame G (pQuery rx) (Compat.pQuery c rx) :=
  (CSame.separated hG 1 (((same_path hG rx).map _).alt (((steps_string.map _).tsame hG).alt
    ((same_format hG rx).map _))) (Lexes.byte (by decide)).ws).withTaken.map _

end

/-- what holds of the parsers on whole texts -/
theorem CSame.parseAll {α : Type} {G : Bytes → Prop} {p p' : TParser α} (h : CSame G p p') {i : Bytes} (hi : G i)
    (s : Levels) : TParser.parseAll p' s i = TParser.parseAll p s i := by
  simp only [TParser.parseAll, (h i hi s).1]

end Pica
