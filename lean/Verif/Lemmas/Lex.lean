import Verif.Lemmas.ExprSound
import Verif.Lemmas.UniqueText
import Verif.Model.Format

/-! The parsers of matchers, paths and formats cut their input into tokens, and there is only one way
to do that.  `lexStep` reads a token: a string in quotes, an operator, or a single byte. -/

namespace Pica
open Parser Spec

/-- the operators of two bytes: `== != =^ !^ =$ !$ =* >= <= =? =~ !~` -/
def isOp2 (b c : Byte) : Bool :=
  (b == 0x3D && (c == 0x3D || c == 0x5E || c == 0x24 || c == 0x2A || c == 0x3F || c == 0x7E)) ||
  (b == 0x21 && (c == 0x3D || c == 0x5E || c == 0x24 || c == 0x7E)) ||
  ((b == 0x3E || b == 0x3C) && c == 0x3D)

/-- removes one token; `$` and `=` are tokens only within operators (`<$>` is one, `<*>` as well) -/
def lexStep : Bytes → Option Bytes
  | [] => none
  | b :: r =>
    if b == 0x27 || b == 0x22 then (pString (b :: r)).map Prod.snd
    else if isOp2 b (r.headD 0) then some r.tail
    else if b == 0x3C && (r.take 2 == [0x24, 0x3E] || r.take 2 == [0x2A, 0x3E]) then some (r.drop 2)
    else if b == 0x24 || b == 0x3D then none
    else some r

/-- the second text remains when some tokens of the first are removed -/
inductive Lex : Bytes → Bytes → Prop where
  | refl (i) : Lex i i
  | step {i j k} (h : lexStep i = some j) (h' : Lex j k) : Lex i k

theorem Lex.one {i j} (h : lexStep i = some j) : Lex i j := .step h (.refl j)

theorem Lex.trans {i j k} (h : Lex i j) (h' : Lex j k) : Lex i k := by
  induction h with
  | refl => exact h'
  | step h _ ih => exact .step h (ih h')

/-- tokens are read from left to right in only one way -/
theorem Lex.rest {i j} (h : Lex i j) (h' : Lex i []) : Lex j [] := by
  induction h with
  | refl => exact h'
  | step h _ ih =>
    cases h' with
    | refl => cases h
    | step h1 h2 => rw [h] at h1; cases h1; exact ih h2

/-- a byte that is a token wherever it stands outside of strings -/
def Plain (b : Byte) : Prop :=
  b ≠ 0x27 ∧ b ≠ 0x22 ∧ b ≠ 0x3D ∧ b ≠ 0x21 ∧ b ≠ 0x3E ∧ b ≠ 0x3C ∧ b ≠ 0x24

instance (b : Byte) : Decidable (Plain b) := by unfold Plain; infer_instance

theorem lexStep_plain {b : Byte} (h : Plain b) (r : Bytes) : lexStep (b :: r) = some r := by
  obtain ⟨h1, h2, h3, h4, h5, h6, h7⟩ := h
  simp [lexStep, isOp2, h1, h2, h3, h4, h5, h6, h7]

theorem Lex.plain : ∀ {t : Bytes} (r : Bytes), (∀ b ∈ t, Plain b) → Lex (t ++ r) r
  | [], r, _ => .refl r
  | b :: t, r, h => .step (lexStep_plain (h b (by simp)) _) (Lex.plain r fun c hc => h c (by simp [hc]))

theorem lexStep_suffix {i j : Bytes} (h : lexStep i = some j) : ∃ t, i = t ++ j := by
  cases i with
  | nil => cases h
  | cons b r =>
    simp only [lexStep] at h
    split at h
    · obtain ⟨⟨v, k⟩, hp, rfl⟩ := Option.map_eq_some_iff.1 h
      obtain ⟨t, e, -⟩ := pString_reads _ _ _ hp
      exact ⟨t, e⟩
    · split at h
      · cases h
        cases r with
        | nil => exact ⟨[b], rfl⟩
        | cons c r => exact ⟨[b, c], rfl⟩
      · split at h
        · cases h
          exact ⟨b :: r.take 2, by simp⟩
        · split at h
          · cases h
          · cases h; exact ⟨[b], rfl⟩

theorem Lex.suffix {i j : Bytes} (h : Lex i j) : ∃ t, i = t ++ j := by
  induction h with
  | refl i => exact ⟨[], rfl⟩
  | step h _ ih =>
    obtain ⟨t, rfl⟩ := ih
    obtain ⟨u, rfl⟩ := lexStep_suffix h
    exact ⟨u ++ t, by simp⟩

/-! ### parsers that consume tokens -/

section
variable {α β γ : Type}

/-- whatever the parser consumes are tokens -/
def Lexes (p : Parser α) : Prop := ∀ i a r, p i = some (a, r) → Lex i r

theorem Lexes.map {p : Parser α} (h : Lexes p) (f : α → β) : Lexes (map f p) := fun i b r hp => by
  obtain ⟨a, ha, -⟩ := map_eq_some.1 hp
  exact h i a r ha

theorem Lexes.seq {p : Parser α} {q : Parser β} (h : Lexes p) (h' : Lexes q) : Lexes (seq p q) :=
  fun i x r hp => by
  obtain ⟨r1, h1, h2⟩ := seq_eq_some.1 hp
  exact (h _ _ _ h1).trans (h' _ _ _ h2)

theorem Lexes.preceded {p : Parser α} {q : Parser β} (h : Lexes p) (h' : Lexes q) :
    Lexes (preceded p q) := (h.seq h').map _
theorem Lexes.terminated {p : Parser α} {q : Parser β} (h : Lexes p) (h' : Lexes q) :
    Lexes (terminated p q) := (h.seq h').map _
theorem Lexes.delimited {p : Parser α} {q : Parser β} {q' : Parser γ} (h : Lexes p) (h' : Lexes q)
    (h'' : Lexes q') : Lexes (delimited p q q') := h.preceded (h'.terminated h'')

theorem Lexes.alt {p q : Parser α} (h : Lexes p) (h' : Lexes q) : Lexes (alt p q) := fun i a r hp => by
  rcases alt_eq_some.1 hp with hp | ⟨-, hp⟩
  · exact h _ _ _ hp
  · exact h' _ _ _ hp

theorem Lexes.opt {p : Parser α} (h : Lexes p) : Lexes (opt p) := fun i a r hp => by
  unfold Parser.opt at hp
  split at hp
  · rename_i hp'; cases hp; exact h _ _ _ hp'
  · cases hp; exact .refl _

theorem Lexes.verify {p : Parser α} (h : Lexes p) (f : α → Bool) : Lexes (verify f p) :=
  fun i a r hp => h _ _ _ (verify_eq_some.1 hp).1

theorem Lexes.verifyMap {p : Parser α} (h : Lexes p) (f : α → Option β) : Lexes (verifyMap f p) :=
  fun i a r hp => by
  obtain ⟨_, hp, -⟩ := verifyMap_eq_some.1 hp
  exact h _ _ _ hp

theorem Lexes.value {p : Parser α} (h : Lexes p) (v : β) : Lexes (value v p) := h.map _

theorem Lexes.withTaken {p : Parser α} (h : Lexes p) : Lexes (withTaken p) := fun i a r hp => by
  obtain ⟨a, t⟩ := a
  exact h _ _ _ (withTaken_eq_some.1 hp).1

theorem Lexes.of_reads {Q : α → Bytes → Prop} {p : Parser α} (h : Reads p Q)
    (hQ : ∀ a t, Q a t → ∀ b ∈ t, Plain b) : Lexes p := fun i a r hp => by
  obtain ⟨t, rfl, ht⟩ := h i a r hp
  exact Lex.plain r (hQ a t ht)

theorem Lexes.oneOf {f : Byte → Bool} (h : ∀ b, f b = true → Plain b) : Lexes (oneOf f) :=
  .of_reads (Reads.oneOf f) (by rintro a t ⟨ha, rfl⟩; simpa using h a ha)

theorem Lexes.byte {b : Byte} (h : Plain b) : Lexes (byte b) :=
  .of_reads (Reads.byte b) (by rintro a t ⟨-, rfl⟩; simpa using h)

theorem Lexes.lit {x : Bytes} (h : ∀ b ∈ x, Plain b) : Lexes (lit x) :=
  .of_reads (Reads.lit x) (by rintro a t rfl; exact h)

theorem Lexes.takeWhileM (m : Nat) {f : Byte → Bool} (h : ∀ b, f b = true → Plain b) :
    Lexes (takeWhileM m f) := fun i t r hp => by
  obtain ⟨t, rfl, ht⟩ := Reads.takeWhileM m f i t r hp
  exact Lex.plain r fun b hb => h b (ht.2.2 b hb)

theorem Lexes.empty (a : α) : Lexes (fun i => some (a, i)) := fun i b r hp => by
  cases hp; exact .refl _

theorem plain_space {b : Byte} (h : isMultispace b = true) : Plain b := by
  rcases (isMultispace_iff b).1 h with rfl | rfl | rfl | rfl <;> decide

theorem steps_space0 : Lexes multispace0 := fun i a r hp => by
  obtain ⟨rfl, h⟩ := multispace0_sound hp
  exact Lex.plain r fun b hb => plain_space ((isMultispace_iff b).2 (h b hb))

theorem steps_space1 : Lexes multispace1 := Lexes.takeWhileM 1 fun _ => plain_space

theorem Lexes.ws {p : Parser α} (h : Lexes p) : Lexes (ws p) := steps_space0.delimited h steps_space0

theorem Lexes.repeat0Aux {p : Parser α} (h : Lexes p) : ∀ n, Lexes (Parser.repeat0Aux p n)
  | 0 => fun i a r hp => by simp only [Parser.repeat0Aux] at hp; cases hp; exact .refl _
  | n + 1 => fun i a r hp => by
    simp only [Parser.repeat0Aux] at hp
    split at hp
    · cases hp; exact .refl _
    · rename_i b j hj
      split at hp
      · split at hp
        · rename_i as r' hr
          cases hp
          exact (h _ _ _ hj).trans (Lexes.repeat0Aux h n _ _ _ hr)
        · cases hp
      · cases hp

theorem Lexes.repeat0 {p : Parser α} (h : Lexes p) : Lexes (Parser.repeat0 p) :=
  fun i => Lexes.repeat0Aux h (i.length + 1) i

theorem Lexes.repeat1 {p : Parser α} (h : Lexes p) : Lexes (Parser.repeat1 p) := fun i a r hp => by
  unfold Parser.repeat1 at hp
  split at hp
  · cases hp
  · rename_i b j hj
    split at hp
    · rename_i as r' hr
      cases hp
      exact (h _ _ _ hj).trans (h.repeat0 _ _ _ hr)
    · cases hp

theorem Lexes.separatedAux {p : Parser α} {q : Parser β} (h : Lexes p) (h' : Lexes q) :
    ∀ n, Lexes (Pica.separatedAux p q n)
  | 0 => fun i a r hp => by simp only [Pica.separatedAux] at hp; cases hp; exact .refl _
  | n + 1 => fun i a r hp => by
    simp only [Pica.separatedAux] at hp
    split at hp
    · cases hp; exact .refl _
    · rename_i hq
      split at hp
      · cases hp; exact .refl _
      · rename_i hr
        split at hp
        · rename_i hs
          cases hp
          exact ((h' _ _ _ hq).trans (h _ _ _ hr)).trans (Lexes.separatedAux h h' n _ _ _ hs)
        · cases hp

theorem Lexes.separated1 {p : Parser α} {q : Parser β} (h : Lexes p) (h' : Lexes q) :
    Lexes (Pica.separated1 p q) := fun i a r hp => by
  unfold Pica.separated1 at hp
  split at hp
  · cases hp
  · rename_i hj
    split at hp
    · rename_i hr
      cases hp
      exact (h _ _ _ hj).trans (h.separatedAux h' _ _ _ _ hr)
    · cases hp

end

/-! ### the lexical parsers -/

theorem plain_alnum {b : Byte} (h : isAlnum b = true) : Plain b := by
  refine ⟨?_, ?_, ?_, ?_, ?_, ?_, ?_⟩ <;> rintro rfl <;> revert h <;> decide

theorem plain_digit {b : Byte} (h : isDigit b = true) : Plain b :=
  plain_alnum (by simp [isAlnum, h])

theorem steps_code : Lexes pSubfieldCode := Lexes.oneOf fun _ => plain_alnum

theorem steps_codeRange : Lexes pCodeRange :=
  ((steps_code.seq ((Lexes.byte (b := 0x2D) (by decide)).preceded steps_code)).verify _).map _

theorem steps_codeList : Lexes pCodeList :=
  (Lexes.byte (by decide)).delimited ((steps_codeRange.alt (steps_code.map _)).repeat1.map _)
    (Lexes.byte (by decide))

theorem steps_codeAll : Lexes pCodeAll := (Lexes.byte (by decide)).value _

theorem steps_codes : Lexes pCodes := steps_codeList.alt ((steps_code.map _).alt steps_codeAll)

theorem steps_string : Lexes pString := fun i a r hp => by
  refine .one ?_
  obtain ⟨h1, -⟩ := verify_eq_some.1 hp
  cases i with
  | nil => cases (show (none : Option (Bytes × Bytes)) = _ from h1)
  | cons b i =>
    have hb : b = 0x27 ∨ b = 0x22 := by
      rcases alt_eq_some.1 h1 with h | ⟨-, h⟩
      · obtain ⟨_, _, _, _, h, -⟩ := delimited_eq_some.1 h
        exact .inl (by have := byte_eq_some.1 h; simp_all)
      · obtain ⟨_, _, _, _, h, -⟩ := delimited_eq_some.1 h
        exact .inr (by have := byte_eq_some.1 h; simp_all)
    rw [lexStep, if_pos (by rcases hb with rfl | rfl <;> rfl), hp]
    rfl

theorem steps_quantifier : Lexes pQuantifier :=
  ((Lexes.lit (by decide +kernel)).value _).alt ((Lexes.lit (by decide +kernel)).value _)

theorem steps_usize : Lexes pUsize := (Lexes.takeWhileM 1 fun _ => plain_digit).verifyMap _

theorem steps_occurrence : Lexes pOccurrence := fun i t r hp => by
  unfold pOccurrence takeWhileMN at hp
  simp only at hp
  split at hp
  · cases hp
    have h1 : ∀ b ∈ (i.take 3).takeWhile isDigit, Plain b := fun b hb => plain_digit (mem_takeWhile hb)
    have h2 : i = (i.take 3).takeWhile isDigit ++ i.drop ((i.take 3).takeWhile isDigit).length := by
      have h3 : (i.take 3).takeWhile isDigit <+: i :=
        (List.takeWhile_prefix _).trans (List.take_prefix _ _)
      exact (List.prefix_iff_eq_append.1 h3).symm
    have h4 := Lex.plain (i.drop ((i.take 3).takeWhile isDigit).length) h1
    rwa [← h2] at h4
  · cases hp

theorem steps_occ : Lexes pOccMatcher :=
  ((Lexes.byte (by decide)).preceded
    ((((steps_occurrence.seq ((Lexes.byte (b := 0x2D) (by decide)).preceded steps_occurrence)).verify
      _).map _).alt (((steps_occurrence.verify _).map _).alt
        (((Lexes.lit (by decide)).value _).alt ((Lexes.lit (by decide)).value _))))).alt (Lexes.empty _)

theorem steps_fragment {a : Bytes} (h : ∀ b ∈ a, Plain b) : Lexes (pTagFragment a) := by
  have h1 : Lexes (oneOf (a.contains ·)) := Lexes.oneOf fun b hb => h b (by simpa using hb)
  refine (h1.map _).alt (((Lexes.byte (by decide)).value _).alt
    ((Lexes.byte (by decide)).delimited (Lexes.map (Lexes.repeat1 ?_) _) (Lexes.byte (by decide))))
  exact (((h1.seq ((Lexes.byte (b := 0x2D) (by decide)).preceded h1)).verify _).map _).alt (h1.map _)

theorem steps_tag : Lexes pTagMatcher := by
  have h0 : ∀ b, isTag0 b = true → Plain b := by
    intro b h
    refine ⟨?_, ?_, ?_, ?_, ?_, ?_, ?_⟩ <;> rintro rfl <;> revert h <;> decide
  have h3 : ∀ b, isTag3 b = true → Plain b := by
    intro b h
    refine ⟨?_, ?_, ?_, ?_, ?_, ?_, ?_⟩ <;> rintro rfl <;> revert h <;> decide
  refine Lexes.alt (Lexes.map (Lexes.map (Lexes.withTaken ((Lexes.oneOf h0).seq
    ((Lexes.oneOf fun _ => plain_digit).seq ((Lexes.oneOf fun _ => plain_digit).seq (Lexes.oneOf h3))))) _) _) ?_
  exact ((steps_fragment (by decide)).seq ((steps_fragment (by decide)).seq
    ((steps_fragment (by decide)).seq (steps_fragment (by decide))))).withTaken.map _

theorem steps_two {x : Bytes} {b c : Byte} (hx : x = [b, c]) (hb : isOp2 b c = true) (h1 : b ≠ 0x27)
    (h2 : b ≠ 0x22) : Lexes (lit x) := fun i a r hp => by
  rw [lit_eq_some.1 hp, hx]
  refine .one ?_
  rw [List.cons_append, List.cons_append, List.nil_append, lexStep, if_neg (by simp [h1, h2]),
    if_pos (by simpa using hb)]
  rfl

/-- the only operator that may be cut short is `<`, in front of `$>` or `*>` -/
theorem steps_relOp {i r : Bytes} {op : RelOp} (h : pRelOp i = some (op, r)) :
    Lex i r ∨ (op = .lt ∧ i = 0x3C :: r) := by
  have two : ∀ (x : Bytes) (v : RelOp) (b c : Byte), x = [b, c] → isOp2 b c = true → b ≠ 0x27 → b ≠ 0x22 →
      Lexes (value v (lit x)) := fun _ _ _ _ hx hb h1 h2 => (steps_two hx hb h1 h2).value _
  unfold pRelOp at h
  rcases alt_eq_some.1 h with h | ⟨-, h⟩
  · exact .inl (two _ _ 0x3D 0x3D (by decide +kernel) (by decide) (by decide) (by decide) _ _ _ h)
  rcases alt_eq_some.1 h with h | ⟨-, h⟩
  · exact .inl (two _ _ 0x21 0x3D (by decide +kernel) (by decide) (by decide) (by decide) _ _ _ h)
  rcases alt_eq_some.1 h with h | ⟨-, h⟩
  · exact .inl (two _ _ 0x3D 0x5E (by decide +kernel) (by decide) (by decide) (by decide) _ _ _ h)
  rcases alt_eq_some.1 h with h | ⟨-, h⟩
  · exact .inl (two _ _ 0x21 0x5E (by decide +kernel) (by decide) (by decide) (by decide) _ _ _ h)
  rcases alt_eq_some.1 h with h | ⟨-, h⟩
  · exact .inl (two _ _ 0x3D 0x24 (by decide +kernel) (by decide) (by decide) (by decide) _ _ _ h)
  rcases alt_eq_some.1 h with h | ⟨-, h⟩
  · exact .inl (two _ _ 0x21 0x24 (by decide +kernel) (by decide) (by decide) (by decide) _ _ _ h)
  rcases alt_eq_some.1 h with h | ⟨-, h⟩
  · exact .inl (two _ _ 0x3D 0x2A (by decide +kernel) (by decide) (by decide) (by decide) _ _ _ h)
  rcases alt_eq_some.1 h with h | ⟨hge, h⟩
  · exact .inl (two _ _ 0x3E 0x3D (by decide +kernel) (by decide) (by decide) (by decide) _ _ _ h)
  rcases alt_eq_some.1 h with h | ⟨-, h⟩
  · refine .inl (.one ?_)
    obtain ⟨-, u, hp⟩ := value_eq_some.1 h
    have e := lit_eq_some.1 hp
    rw [show bs ">" = [0x3E] by decide +kernel] at e
    subst e
    have hr : r.headD 0 ≠ 0x3D := by
      intro hr
      cases r with
      | nil => revert hr; decide
      | cons c r =>
        obtain rfl : c = 0x3D := hr
        rw [show bs ">=" = [0x3E, 0x3D] by decide +kernel] at hge
        simp [value, Parser.map, Parser.lit] at hge
    simp only [List.cons_append, List.nil_append, lexStep]
    rw [if_neg (by decide), if_neg (by simpa [isOp2] using hr), if_neg (by simp), if_neg (by decide)]
  rcases alt_eq_some.1 h with h | ⟨-, h⟩
  · exact .inl (two _ _ 0x3C 0x3D (by decide +kernel) (by decide) (by decide) (by decide) _ _ _ h)
  · obtain ⟨rfl, u, hp⟩ := value_eq_some.1 h
    refine .inr ⟨rfl, ?_⟩
    rw [lit_eq_some.1 hp, show bs "<" = [0x3C] by decide +kernel]
    rfl

theorem steps_strOp : Lexes (verify RelOp.strOk (ws pRelOp)) := fun i a r hp => by
  obtain ⟨hp, ha⟩ := verify_eq_some.1 hp
  obtain ⟨_, r1, _, r2, h1, h2, h3⟩ := delimited_eq_some.1 hp
  rcases steps_relOp h2 with h | ⟨rfl, -⟩
  · exact (steps_space0 _ _ _ h1).trans (h.trans (steps_space0 _ _ _ h3))
  · cases ha

theorem steps_usizeOp : Lexes (seq (verify RelOp.usizeOk (ws pRelOp)) pUsize) := fun i a r hp => by
  obtain ⟨i1, hp, h4⟩ := seq_eq_some.1 hp
  obtain ⟨hp, -⟩ := verify_eq_some.1 hp
  obtain ⟨_, r1, _, r2, h1, h2, h3⟩ := delimited_eq_some.1 hp
  refine (steps_space0 _ _ _ h1).trans (Lex.trans ?_ ((steps_space0 _ _ _ h3).trans (steps_usize _ _ _ h4)))
  rcases steps_relOp h2 with h | ⟨-, rfl⟩
  · exact h
  · refine .one ?_
    have hr : ∃ b r', r2 = b :: r' ∧ b ≠ 0x2A ∧ Plain b := by
      obtain ⟨rfl, hw⟩ := multispace0_sound h3
      rename_i w
      cases w with
      | cons b w =>
        have hb := (isMultispace_iff b).2 (hw b (by simp))
        exact ⟨b, w ++ i1, rfl, by rintro rfl; revert hb; decide, plain_space hb⟩
      | nil =>
        obtain ⟨ds, h5, -⟩ := verifyMap_eq_some.1 h4
        obtain ⟨t, rfl, -, ht, hd⟩ := Reads.takeWhileM 1 isDigit _ _ _ h5
        cases t with
        | nil => simp at ht
        | cons b t =>
          have hb := hd b (by simp)
          exact ⟨b, t ++ r, rfl, by rintro rfl; revert hb; decide, plain_digit hb⟩
    obtain ⟨b, r', rfl, hs, -, -, hb, -, -, -, hd⟩ := hr
    rw [lexStep, if_neg (by decide), if_neg (by simp [isOp2, hb]), if_neg (by simp [hd, hs]), if_neg (by decide)]

theorem steps_quant : Lexes (map Quantifier.orDefault (opt (ws pQuantifier))) :=
  steps_quantifier.ws.opt.map _

theorem steps_quantSp :
    Lexes (map Quantifier.orDefault (opt (ws (terminated pQuantifier multispace1)))) :=
  (steps_quantifier.terminated steps_space1).ws.opt.map _

theorem steps_bracketList {α : Type} {p : Parser α} (h : Lexes p) : Lexes (pBracketList p) :=
  (Lexes.byte (by decide)).ws.delimited
    ((h.separated1 (Lexes.byte (by decide)).ws).terminated (Lexes.byte (by decide)).ws.opt)
    (Lexes.byte (by decide)).ws

theorem steps_regexOp : Lexes pRegexOp :=
  ((steps_two (b := 0x3D) (c := 0x7E) (by decide +kernel) (by decide) (by decide) (by decide)).value _).alt
    ((steps_two (b := 0x21) (c := 0x7E) (by decide +kernel) (by decide) (by decide) (by decide)).value _)

theorem steps_containsOp : Lexes (lit (bs "=?")) :=
  steps_two (b := 0x3D) (c := 0x3F) (by decide +kernel) (by decide) (by decide) (by decide)

theorem steps_subExists : Lexes pSubExists := (steps_codes.terminated (Lexes.byte (by decide))).withTaken.map _

theorem steps_subRegex (rx : Bytes → Bool) : Lexes (pSubRegex rx) :=
  (steps_quant.seq (steps_codes.ws.seq (steps_regexOp.ws.seq (steps_string.verify _)))).withTaken.map _

theorem steps_subRegexSet (rx : Bytes → Bool) : Lexes (pSubRegexSet rx) :=
  (steps_quant.seq (steps_codes.ws.seq (steps_regexOp.ws.seq
    (steps_bracketList (steps_string.verify _))))).withTaken.map _

theorem steps_subIn : Lexes pSubIn :=
  (steps_quant.seq (steps_codes.ws.seq (((Lexes.lit (by decide +kernel)).ws.opt.map _).seq
    ((Lexes.lit (by decide +kernel)).ws.preceded
      ((steps_bracketList steps_string).alt (steps_string.verifyMap _)))))).withTaken.map _

theorem steps_subCard : Lexes pSubCard :=
  ((Lexes.byte (by decide)).ws.preceded (steps_codes.ws.seq steps_usizeOp)).withTaken.map _

theorem steps_fieldHead : Lexes pFieldHead := steps_quant.seq (steps_tag.seq steps_occ)

theorem steps_fieldExists : Lexes pFieldExists :=
  ((steps_tag.seq steps_occ).ws.terminated (Lexes.byte (by decide))).map _

/-! ### formats -/

theorem steps_bound (d : Nat) : Lexes (pBound d) :=
  ((Lexes.lit (by decide +kernel)).preceded steps_usize).alt
    (((Lexes.lit (by decide +kernel)).value _).alt (Lexes.empty _))

theorem steps_modifier : Lexes pModifier := by
  refine Lexes.opt ((Lexes.byte (by decide)).preceded (Lexes.map (Lexes.repeat1 (Lexes.oneOf ?_)) _))
  intro b h
  refine ⟨?_, ?_, ?_, ?_, ?_, ?_, ?_⟩ <;> rintro rfl <;> revert h <;> decide

theorem steps_fmtValue : Lexes pFmtValue :=
  (steps_modifier.ws.seq (steps_string.ws.opt.seq (steps_codes.seq ((steps_bound 1).seq
    steps_string.ws.opt)))).map _

/-- `<$>` is a token -/
theorem steps_andThen : Lexes (lit (bs "<$>")) := fun i a r hp => by
  rw [lit_eq_some.1 hp, show bs "<$>" = [0x3C, 0x24, 0x3E] by decide +kernel]
  exact .one (by simp [lexStep, isOp2])

/-- `<*>` is a token -/
theorem steps_cons : Lexes (lit (bs "<*>")) := fun i a r hp => by
  rw [lit_eq_some.1 hp, show bs "<*>" = [0x3C, 0x2A, 0x3E] by decide +kernel]
  exact .one (by simp [lexStep, isOp2])

end Pica
