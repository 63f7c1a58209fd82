import Verif.Lemmas.Unique
import Verif.Lemmas.FieldAlt

/-!
Subfield and field expressions have one meaning each.
-/

namespace Pica
open Parser Spec

theorem ws_nil' : Ws [] := by simp [Ws]

theorem take_dws (r : Bytes) : ∃ w, Ws w ∧ r = w ++ dws r := by
  refine ⟨r.takeWhile isMultispace, ?_, (List.takeWhile_append_dropWhile ..).symm⟩
  intro b hb
  have := List.all_takeWhile (p := isMultispace) (l := r)
  exact (isMultispace_iff b).1 (List.all_eq_true.1 this b hb)

section sub
variable {rx : Bytes → Bool} {E : Env} {o : Opts}

theorem subText_det : Det Follow (SubText rx E o) := by
  intro t v t' v' r r' h h' hr hr' e
  obtain ⟨w, hw, hw2⟩ := take_dws r
  obtain ⟨w', hw', hw2'⟩ := take_dws r'
  obtain ⟨m, rfl, h1⟩ := subText_run rx h hw
  obtain ⟨m', rfl, h1'⟩ := subText_run rx h' hw'
  obtain ⟨x, h2, h3⟩ := h1 _ hr.1 hr.2
  obtain ⟨x', h2', h3'⟩ := h1' _ hr'.1 hr'.2
  rw [List.append_assoc, ← hw2] at h2
  rw [List.append_assoc, ← hw2', ← e, h2] at h2'
  cases h2'
  exact ⟨rfl, h3.symm.trans h3'⟩

theorem padded_strip {P : Bytes → Prop} {t : Bytes} (h : Padded P t) (hn : ∀ u, P u → NoWs u ∧ u ≠ []) :
    ∃ w t', t = w ++ t' ∧ Ws w ∧ Padded P t' ∧ NoWs t' ∧ t' ≠ [] := by
  obtain ⟨w, u, w', rfl, h1, h2, h3⟩ := h
  obtain ⟨h4, h5⟩ := hn u h2
  refine ⟨w, u ++ w', by simp, h1, ⟨[], u, w', by simp, ws_nil', h2, h3⟩, noWs_append h5 h4, by simp [h5]⟩

theorem quantText_strip {sp tq q} (h : QuantText sp tq q) : (tq = [] ∧ q = .any) ∨
    ∃ w t', tq = w ++ t' ∧ Ws w ∧ QuantText sp t' q ∧ t' ≠ [] ∧ NoWs t' := by
  cases h with
  | none => exact .inl ⟨rfl, rfl⟩
  | @any w w' h1 h2 h3 =>
    refine .inr ⟨w, bs "ANY" ++ w', by simp, h1, ?_, by rw [bs_ANY]; simp, noWs_any _⟩
    have := QuantText.any (sp := sp) ws_nil' h2 h3
    simpa using this
  | @all w w' h1 h2 h3 =>
    refine .inr ⟨w, bs "ALL" ++ w', by simp, h1, ?_, by rw [bs_ALL]; simp, noWs_all _⟩
    have := QuantText.all (sp := sp) ws_nil' h2 h3
    simpa using this

/-- a quantifier and codes: white space in front can be left out -/
theorem quantCodes_strip {sp tq q c S} (hq : QuantText sp tq q) (hc : Padded (CodesText · S) c) :
    ∃ w tq' c', tq ++ c = w ++ (tq' ++ c') ∧ Ws w ∧ QuantText sp tq' q ∧ Padded (CodesText · S) c' ∧
      ∀ r, NoWs (tq' ++ c' ++ r) := by
  rcases quantText_strip hq with ⟨rfl, rfl⟩ | ⟨w, t', rfl, h1, h2, h3, h4⟩
  · obtain ⟨w, c', rfl, h1, h2, h3, h4⟩ := padded_strip hc (fun u hu => codesText_noWs hu)
    exact ⟨w, [], c', by simp, h1, .none, h2, fun r => by
      rw [List.nil_append]; exact noWs_append h4 h3⟩
  · exact ⟨w, t', c, by simp, h1, h2, hc, fun r => by
      rw [List.append_assoc]; exact noWs_append h3 h4⟩

theorem subText_strip {t v} (h : SubText rx E o t v) :
    ∃ w t', t = w ++ t' ∧ Ws w ∧ SubText rx E o t' v ∧ NoWs t' := by
  cases h with
  | «exists» hc =>
    obtain ⟨h1, h2⟩ := codesText_noWs hc
    exact ⟨[], _, rfl, ws_nil', .exists hc, noWs_append h2 h1⟩
  | @relation tq q c S to op ts x h1 h2 h3 h4 h5 =>
    obtain ⟨w, tq', c', e, hw, h1', h2', hn⟩ := quantCodes_strip h1 h2
    exact ⟨w, tq' ++ c' ++ to ++ ts, by rw [e]; simp, hw, .relation h1' h2' h3 h4 h5, by
      rw [List.append_assoc]; exact hn _⟩
  | @contains tq q c S to ts xs h1 h2 h3 h4 =>
    obtain ⟨w, tq', c', e, hw, h1', h2', hn⟩ := quantCodes_strip h1 h2
    exact ⟨w, tq' ++ c' ++ to ++ ts, by rw [e]; simp, hw, .contains h1' h2' h3 h4, by
      rw [List.append_assoc]; exact hn _⟩
  | @isIn tq q c S tn inv ti ts xs h1 h2 h3 h4 h5 =>
    obtain ⟨w, tq', c', e, hw, h1', h2', hn⟩ := quantCodes_strip h1 h2
    exact ⟨w, tq' ++ c' ++ tn ++ ti ++ ts, by rw [e]; simp, hw, .isIn h1' h2' h3 h4 h5, by
      rw [List.append_assoc, List.append_assoc]; exact hn _⟩
  | @regex tq q c S to inv ts x h1 h2 h3 h4 =>
    obtain ⟨w, tq', c', e, hw, h1', h2', hn⟩ := quantCodes_strip h1 h2
    exact ⟨w, tq' ++ c' ++ to ++ ts, by rw [e]; simp, hw, .regex h1' h2' h3 h4, by
      rw [List.append_assoc]; exact hn _⟩
  | @regexSet tq q c S to inv ts xs h1 h2 h3 h4 =>
    obtain ⟨w, tq', c', e, hw, h1', h2', hn⟩ := quantCodes_strip h1 h2
    exact ⟨w, tq' ++ c' ++ to ++ ts, by rw [e]; simp, hw, .regexSet h1' h2' h3 h4, by
      rw [List.append_assoc]; exact hn _⟩
  | @card th c S to op ds h1 h2 h3 h4 h5 h6 h7 =>
    obtain ⟨w, th', rfl, hw, h1', h8, h9⟩ := padded_strip h1 (by rintro u rfl; rw [← bs_hash]; exact ⟨noWs_cons.2 (by decide), by simp⟩)
    exact ⟨w, th' ++ c ++ to ++ ds, by simp, hw, .card h1' h2 h3 h4 h5 h6 h7, by
      rw [List.append_assoc, List.append_assoc]; exact noWs_append h9 h8⟩

/-- the first byte of a text without white space in front -/
theorem head_of {t r : Bytes} (h : NoWs t) (hne : t ≠ []) (h1 : t.head? ≠ some 0x28) (h2 : t.head? ≠ some 0x21) :
    ∃ b z, dws (t ++ r) = b :: z ∧ b ≠ 0x28 ∧ b ≠ 0x21 := by
  cases t with
  | nil => exact absurd rfl hne
  | cons b t =>
    refine ⟨b, t ++ r, cons_noWs_dws (noWs_cons.1 h), ?_, ?_⟩
    · rintro rfl; exact h1 rfl
    · rintro rfl; exact h2 rfl

theorem leaf_of {X : Type} {R : Bytes → Den X → Prop} (hd : Det FAnd R)
    (hs : ∀ t v, R t v → ∃ w t', t = w ++ t' ∧ Ws w ∧ R t' v ∧ NoWs t')
    (hh : ∀ t v, R t v → NoWs t → t ≠ [] ∧ t.head? ≠ some 0x28 ∧ t.head? ≠ some 0x21) : Leaf R := by
  refine ⟨hd, fun t v r h => ?_, hs⟩
  obtain ⟨w, t', rfl, hw, h', hn⟩ := hs t v h
  rw [List.append_assoc, dws_append hw]
  obtain ⟨h1, h2, h3⟩ := hh t' v h' hn
  exact head_of hn h1 h2 h3

theorem subText_leaf : Leaf (SubText rx E o) := by
  refine leaf_of (subText_det.mono (fun r h => fAnd_follow h)) (fun t v h => subText_strip h) (fun t v h hn => ?_)
  obtain ⟨m, -, h1⟩ := subText_run rx h ws_nil'
  obtain ⟨x, h2, -⟩ := h1 [] follow_nil.1 follow_nil.2
  have := single_head h2
  rw [List.append_nil, List.append_nil, dws_of_noWs hn] at this
  exact ⟨subText_ne h, this⟩

theorem existsText_sub {t v} (h : ExistsText t v) : SubText rx E o t v := by
  obtain ⟨h⟩ := h; exact .exists h

theorem existsText_leaf : Leaf ExistsText := by
  refine leaf_of ((subText_det (rx := fun _ => true) (E := anyEnv) (o := anyOpts)).mono (fun r h => fAnd_follow h) |>.sub
    (fun t v h => existsText_sub h)) (fun t v h => ?_) (fun t v h hn => ?_)
  · exact ⟨[], t, rfl, ws_nil', h, by have := (existsText_noWs h []).1; rwa [List.append_nil] at this⟩
  · have := existsText_noWs h []
    rw [List.append_nil] at this
    exact ⟨subText_ne (existsText_sub (rx := fun _ => true) (E := anyEnv) (o := anyOpts) h), this.2⟩

theorem subExpr_det : Det Stop (SubExprText rx E o) := orT_det subText_leaf existsText_leaf

end sub

section lead
variable {X : Type} {Single Neg : Bytes → Den X → Prop}

theorem atomT_lead {w t : Bytes} {v : Den X} (hw : Ws w) (h : AtomT Single Neg t v) : AtomT Single Neg (w ++ t) v := by
  cases h with
  | @single t v w1 w' h1 h2 h3 =>
    have := AtomT.single (Neg := Neg) (ws_append hw h1) h2 h3
    simpa using this
  | @group t v w1 w' h1 h2 h3 =>
    have := AtomT.group (ws_append hw h1) h2 h3
    simpa using this
  | @not t v w1 w' h1 h2 h3 =>
    have := AtomT.not (ws_append hw h1) h2 h3
    simpa using this

theorem andT_lead {w t : Bytes} {v : Den X} (hw : Ws w) : AndT Single Neg t v → AndT Single Neg (w ++ t) v
  | .one h => .one (atomT_lead hw h)
  | .and h h' => by
    have := AndT.and (andT_lead hw h) h'
    simpa using this

theorem xorT_lead {w t : Bytes} {v : Den X} (hw : Ws w) : XorT Single Neg t v → XorT Single Neg (w ++ t) v
  | .one h => .one (andT_lead hw h)
  | .xor h hs h' => by
    have := XorT.xor (xorT_lead hw h) hs h'
    simpa using this

/-- white space in front of an expression -/
theorem orT_lead {w t : Bytes} {v : Den X} (hw : Ws w) : OrT Single Neg t v → OrT Single Neg (w ++ t) v
  | .one h => .one (xorT_lead hw h)
  | .or h h' => by
    have := OrT.or (orT_lead hw h) h'
    simpa using this

variable {Neg' : Bytes → Den X → Prop}

mutual
theorem atomT_neg (hN : ∀ t v, Neg t v → Neg' t v) {t : Bytes} {v : Den X} :
    AtomT Single Neg t v → AtomT Single Neg' t v
  | .single h1 h2 h3 => .single h1 h2 h3
  | .group h1 h2 h3 => .group h1 (orT_neg hN h2) h3
  | .not h1 h2 h3 => .not h1 (negT_neg hN h2) h3
theorem negT_neg (hN : ∀ t v, Neg t v → Neg' t v) {t : Bytes} {v : Den X} :
    NegT Single Neg t v → NegT Single Neg' t v
  | .leaf h1 h2 h3 => .leaf h1 (hN _ _ h2) h3
  | .group h1 h2 h3 => .group h1 (orT_neg hN h2) h3
  | .not h1 h2 h3 => .not h1 (negT_neg hN h2) h3
theorem andT_neg (hN : ∀ t v, Neg t v → Neg' t v) {t : Bytes} {v : Den X} :
    AndT Single Neg t v → AndT Single Neg' t v
  | .one h => .one (atomT_neg hN h)
  | .and h h' => .and (andT_neg hN h) (atomT_neg hN h')
theorem xorT_neg (hN : ∀ t v, Neg t v → Neg' t v) {t : Bytes} {v : Den X} :
    XorT Single Neg t v → XorT Single Neg' t v
  | .one h => .one (andT_neg hN h)
  | .xor h hs h' => .xor (xorT_neg hN h) hs (andT_neg hN h')
/-- more texts after `!` -/
theorem orT_neg (hN : ∀ t v, Neg t v → Neg' t v) {t : Bytes} {v : Den X} :
    OrT Single Neg t v → OrT Single Neg' t v
  | .one h => .one (xorT_neg hN h)
  | .or h h' => .or (orT_neg hN h) (xorT_neg hN h')
end

end lead

section fld
variable {rx : Bytes → Bool} {E : Env} {o : Opts}

/-- tag and occurrence after `#`, with white space around them -/
def cardSel : Parser (TagMatcher × OccMatcher) :=
  seq (fun i => pTagMatcher (dws i)) (fun i => pOccMatcher (dws i))

/-- operator and number -/
abbrev cardNum : Parser (RelOp × Nat) := seq (verify RelOp.usizeOk (Pica.ws pRelOp)) pUsize

/-- the kinds of field matchers, told apart step by step -/
inductive FKind (rx : Bytes → Bool) (E : Env) (o : Opts) : Bytes → Bytes → Den (List Field) → Prop
  | ex {i m om Y r} : pFieldHead i = some ((.any, m, om), Y) → dws Y = 0x3F :: r →
      FKind rx E o i (dws r) (fun fs => truth (∃ f ∈ fs, fieldSel m om f = true))
  | dot {i q m om Y Z ts v r} : pFieldHead i = some ((q, m, om), Y) → dws Y = 0x2E :: Z →
      SubText rx E o ts v → dws Z = ts ++ r → FAnd (dws r) →
      FKind rx E o i (dws r) (FQuant q (fun f => fieldSel m om f = true) v)
  | braces {i q m om Y ts v Z r} : pFieldHead i = some ((q, m, om), Y) → dws Y = 0x7B :: (ts ++ Z) →
      SubExprText rx E o ts v → dws Z = 0x7D :: r →
      FKind rx E o i (dws r) (FQuant q (fun f => fieldSel m om f = true) v)
  | card {i j m om Y op n r} : i = 0x23 :: j → cardSel j = some ((m, om), Y) →
      (dws Y).head? ≠ some 0x7B → cardNum (dws Y) = some ((op, n), r) →
      FKind rx E o i (dws r) (fun fs =>
        (FCount (fun f => fieldSel m om f = true) (fun _ => some true) fs).bind (fun k => truth (NumHolds op k n)))
  | cardSub {i j m om Y ts v Z W op n r} : i = 0x23 :: j → cardSel j = some ((m, om), Y) →
      dws Y = 0x7B :: (ts ++ Z) → SubExprText rx E o ts v → dws Z = 0x7D :: W →
      cardNum (dws W) = some ((op, n), r) →
      FKind rx E o i (dws r) (fun fs =>
        (FCount (fun f => fieldSel m om f = true) v fs).bind (fun k => truth (NumHolds op k n)))

theorem fieldHead_hash {j x} : pFieldHead (0x23 :: j) ≠ some x := by
  obtain ⟨x, r⟩ := x
  intro h
  have := (fieldHead_cases h).2.2 0x23 (by simp)
  rw [cons_noWs_dws (by decide)] at this
  exact this rfl

theorem stop_of_rbrace {Z r : Bytes} (h : dws Z = 0x7D :: r) : Stop (dws Z) := by
  rw [h]; exact .inr (.inr rfl)

theorem FKind.det {i e e' : Bytes} {v v' : Den (List Field)} (h : FKind rx E o i e v)
    (h' : FKind rx E o i e' v') : v = v' ∧ e = e' := by
  cases h with
  | ex h1 h2 =>
    cases h' with
    | ex g1 g2 => rw [h1] at g1; cases g1; rw [h2] at g2; cases g2; exact ⟨rfl, rfl⟩
    | dot g1 g2 => rw [h1] at g1; cases g1; rw [h2] at g2; cases g2
    | braces g1 g2 => rw [h1] at g1; cases g1; rw [h2] at g2; cases g2
    | card g1 => rw [g1] at h1; exact absurd h1 fieldHead_hash
    | cardSub g1 => rw [g1] at h1; exact absurd h1 fieldHead_hash
  | dot h1 h2 h3 h4 h5 =>
    cases h' with
    | ex g1 g2 => rw [h1] at g1; cases g1; rw [h2] at g2; cases g2
    | dot g1 g2 g3 g4 g5 =>
      rw [h1] at g1; cases g1; rw [h2] at g2; cases g2
      obtain ⟨e1, e2⟩ := subText_det _ _ _ _ _ _ h3 g3 (fAnd_follow h5) (fAnd_follow g5) (h4.symm.trans g4)
      exact ⟨by rw [e1], e2⟩
    | braces g1 g2 => rw [h1] at g1; cases g1; rw [h2] at g2; cases g2
    | card g1 => rw [g1] at h1; exact absurd h1 fieldHead_hash
    | cardSub g1 => rw [g1] at h1; exact absurd h1 fieldHead_hash
  | braces h1 h2 h3 h4 =>
    cases h' with
    | ex g1 g2 => rw [h1] at g1; cases g1; rw [h2] at g2; cases g2
    | dot g1 g2 => rw [h1] at g1; cases g1; rw [h2] at g2; cases g2
    | braces g1 g2 g3 g4 =>
      rw [h1] at g1; cases g1; rw [h2] at g2
      obtain ⟨e1, e2⟩ := subExpr_det _ _ _ _ _ _ h3 g3 (stop_of_rbrace h4) (stop_of_rbrace g4) (List.cons.inj g2).2
      rw [h4, g4] at e2
      exact ⟨by rw [e1], by rw [(List.cons.inj e2).2]⟩
    | card g1 => rw [g1] at h1; exact absurd h1 fieldHead_hash
    | cardSub g1 => rw [g1] at h1; exact absurd h1 fieldHead_hash
  | card h1 h2 h3 h4 =>
    cases h' with
    | ex g1 => rw [h1] at g1; exact absurd g1 fieldHead_hash
    | dot g1 => rw [h1] at g1; exact absurd g1 fieldHead_hash
    | braces g1 => rw [h1] at g1; exact absurd g1 fieldHead_hash
    | card g1 g2 g3 g4 =>
      rw [h1] at g1; cases g1; rw [h2] at g2; cases g2; rw [h4] at g4; cases g4; exact ⟨rfl, rfl⟩
    | cardSub g1 g2 g3 =>
      rw [h1] at g1; cases g1; rw [h2] at g2; cases g2; rw [g3] at h3; exact absurd rfl h3
  | cardSub h1 h2 h3 h4 h5 h6 =>
    cases h' with
    | ex g1 => rw [h1] at g1; exact absurd g1 fieldHead_hash
    | dot g1 => rw [h1] at g1; exact absurd g1 fieldHead_hash
    | braces g1 => rw [h1] at g1; exact absurd g1 fieldHead_hash
    | card g1 g2 g3 g4 =>
      rw [h1] at g1; cases g1; rw [h2] at g2; cases g2; rw [h3] at g3; exact absurd rfl g3
    | cardSub g1 g2 g3 g4 g5 g6 =>
      rw [h1] at g1; cases g1; rw [h2] at g2; cases g2; rw [h3] at g3
      obtain ⟨e1, e2⟩ := subExpr_det _ _ _ _ _ _ h4 g4 (stop_of_rbrace h5) (stop_of_rbrace g5) (List.cons.inj g3).2
      rw [h5, g5] at e2
      obtain ⟨-, rfl⟩ := List.cons.inj e2
      rw [h6] at g6; cases g6
      exact ⟨by rw [e1], rfl⟩

theorem noDigit_of {r : Bytes} (h : FAnd (dws r)) : NoDigit r := by
  obtain ⟨w, hw, e⟩ := take_dws r
  rw [e]; exact follow_ws hw (fAnd_follow h)

theorem padded_byte_dws {b : Byte} {tl : Bytes} (h : Padded (· = [b]) tl) (hb : isMultispace b = false)
    (r : Bytes) : ∃ w, Ws w ∧ dws (tl ++ r) = b :: (w ++ r) := by
  obtain ⟨w, u, w', rfl, hw, rfl, hw'⟩ := h
  refine ⟨w', hw', ?_⟩
  have e : w ++ [b] ++ w' ++ r = w ++ (b :: (w' ++ r)) := by simp
  rw [e, dws_append hw, cons_noWs_dws hb]

theorem cardSel_run {w1 t w2 w3 to w4 sel} (hw1 : Ws w1) (h : Selects t to sel) (hw2 : Ws w2) (hw3 : Ws w3)
    (hw4 : Ws w4) : ∃ m om, sel = (fun f => fieldSel m om f = true) ∧ ∀ r, OccStop r → OccStop (dws r) →
      ∃ Y, cardSel (w1 ++ t ++ w2 ++ (w3 ++ to ++ w4) ++ r) = some ((m, om), Y) ∧ dws Y = dws r := by
  obtain ⟨m, om, h1, h2, h3, h4⟩ := selects_run h
  refine ⟨m, om, h1, fun r hr hr' => ?_⟩
  have hsome : ∀ Y : Bytes, pTagMatcher (dws (w1 ++ t ++ Y)) = some (m, Y) := by
    intro Y
    rw [List.append_assoc, dws_append_noWs hw1 (tagText_noWs h2 _).1]
    exact pTagMatcher_follow h2
  have e : w1 ++ t ++ w2 ++ (w3 ++ to ++ w4) ++ r = w1 ++ t ++ (w2 ++ (w3 ++ (to ++ (w4 ++ r)))) := by simp
  rw [e]
  rcases occText_cases h3 with rfl | ⟨x, rfl⟩
  · have : dws (w2 ++ (w3 ++ ([] ++ (w4 ++ r)))) = dws r := by
      rw [dws_append hw2, dws_append hw3, List.nil_append, dws_append hw4]
    refine ⟨dws r, seq_run (hsome _) ?_, dws_dws r⟩
    show pOccMatcher _ = _
    rw [this]
    exact pOccMatcher_follow (t := []) h3 hr'
  · have : dws (w2 ++ (w3 ++ (0x2F :: x ++ (w4 ++ r)))) = 0x2F :: x ++ (w4 ++ r) := by
      rw [dws_append hw2, dws_append hw3]; exact cons_noWs_dws (by decide)
    refine ⟨w4 ++ r, seq_run (hsome _) ?_, dws_append hw4⟩
    show pOccMatcher _ = _
    rw [this]
    exact pOccMatcher_follow h3 (occStop_ws hw4 hr)

theorem fldText_strip {t v} (h : FldText rx E o t v) :
    ∃ w t', t = w ++ t' ∧ Ws w ∧ FldText rx E o t' v ∧ NoWs t' ∧ t' ≠ [] ∧ t'.head? ≠ some 0x28 ∧ t'.head? ≠ some 0x21 := by
  have key : ∀ {tq q t to sel}, QuantText false tq q → Selects t to sel → ∃ w tq', tq = w ++ tq' ∧ Ws w ∧
      QuantText false tq' q ∧ ∀ r, NoWs (tq' ++ (t ++ r)) ∧ tq' ++ (t ++ r) ≠ [] ∧
        (tq' ++ (t ++ r)).head? ≠ some 0x28 ∧ (tq' ++ (t ++ r)).head? ≠ some 0x21 := by
    intro tq q t to sel hq hs
    rcases quantText_strip hq with ⟨rfl, rfl⟩ | ⟨w, t', rfl, h1, h2, h3, h4⟩
    · refine ⟨[], [], rfl, ws_nil', hq, fun r => ?_⟩
      obtain ⟨a, b, c, d, e⟩ := fieldHead_noWs hq (by simp [Unled]) hs r
      exact ⟨a, b, c, e⟩
    · refine ⟨w, t', rfl, h1, h2, fun r => ?_⟩
      have hu : Unled t' := by
        intro b hb hw
        have := h4 b hb
        rw [(isMultispace_iff b).2 hw] at this
        cases this
      obtain ⟨a, b, c, d, e⟩ := fieldHead_noWs h2 hu hs r
      exact ⟨a, b, c, e⟩
  have hash : ∀ {th}, Padded (· = bs "#") th → ∃ w th', th = w ++ th' ∧ Ws w ∧ Padded (· = bs "#") th' ∧
      ∃ z, th' = 0x23 :: z := by
    rintro th ⟨w, u, w', rfl, h1, rfl, h3⟩
    exact ⟨w, bs "#" ++ w', by simp, h1, ⟨[], _, w', by simp, ws_nil', rfl, h3⟩, w', by rw [← bs_hash]; rfl⟩
  cases h with
  | @«exists» w t to w' sel h1 h2 h3 =>
    have hn := fieldHead_noWs (QuantText.none (sp := false)) (by simp [Unled]) h2 (to ++ (w' ++ bs "?"))
    refine ⟨w, t ++ (to ++ (w' ++ bs "?")), by simp, h1, ?_, hn.1, hn.2.1, hn.2.2.1, hn.2.2.2.2⟩
    have := FldText.exists (rx := rx) (E := E) (o := o) ws_nil' h2 h3
    simpa using this
  | @dot tq q t to sel w w' ts v h1 h2 h3 h4 h5 =>
    obtain ⟨w0, tq', rfl, hw0, hq', hn⟩ := key h1 h2
    refine ⟨w0, tq' ++ t ++ to ++ w ++ bs "." ++ w' ++ ts, by simp, hw0, .dot hq' h2 h3 h4 h5, ?_⟩
    simp only [List.append_assoc]
    exact hn _
  | @braces tq q t to sel tl ts tr v h1 h2 h3 h4 h5 =>
    obtain ⟨w0, tq', rfl, hw0, hq', hn⟩ := key h1 h2
    refine ⟨w0, tq' ++ t ++ to ++ tl ++ ts ++ tr, by simp, hw0, .braces hq' h2 h3 h4 h5, ?_⟩
    simp only [List.append_assoc]
    exact hn _
  | @card th w1 t w2 w3 to w4 sel top op ds h1 h2 h3 h4 h5 h6 h7 h8 h9 h10 h11 =>
    obtain ⟨w, th', rfl, hw, h1', z, rfl⟩ := hash h1
    refine ⟨w, _, by simp only [List.append_assoc]; rfl, hw, ?_, ?_⟩
    · have := FldText.card (rx := rx) (E := E) (o := o) h1' h2 h3 h4 h5 h6 h7 h8 h9 h10 h11
      simpa using this
    · exact ⟨noWs_cons.2 (by decide), by simp, by simp, by simp⟩
  | @cardSub th w1 t w2 w3 to w4 sel tl ts tr v top op ds h1 h2 h3 h4 h5 h6 h7 h8 h9 h10 h11 h12 h13 h14 =>
    obtain ⟨w, th', rfl, hw, h1', z, rfl⟩ := hash h1
    refine ⟨w, _, by simp only [List.append_assoc]; rfl, hw, ?_, ?_⟩
    · have := FldText.cardSub (rx := rx) (E := E) (o := o) h1' h2 h3 h4 h5 h6 h7 h8 h9 h10 h11 h12 h13 h14
      simpa using this
    · exact ⟨noWs_cons.2 (by decide), by simp, by simp, by simp⟩

theorem hash_front {th : Bytes} (h : Padded (· = bs "#") th) (hn : ∀ r, NoWs (th ++ r)) :
    ∃ w, Ws w ∧ th = 0x23 :: w := by
  obtain ⟨w, u, w', rfl, hw, rfl, hw'⟩ := h
  cases w with
  | nil => exact ⟨w', hw', by rw [← bs_hash]; rfl⟩
  | cons b w =>
    have := hn []
    simp only [List.cons_append, noWs_cons] at this
    rw [ws_multispace hw b (by simp)] at this
    cases this

theorem noWs_left {a b : Bytes} (h : NoWs (a ++ b)) (ha : a ≠ []) (r : Bytes) : NoWs (a ++ r) := by
  cases a with
  | nil => exact absurd rfl ha
  | cons c a => exact noWs_cons.2 (noWs_cons.1 h)

theorem fldText_kind {t v r} (h : FldText rx E o t v) (hr : FAnd (dws r)) (hn : NoWs t) :
    FKind rx E o (t ++ r) (dws r) v := by
  cases h with
  | @«exists» w t to w' sel h1 h2 h3 =>
    obtain ⟨m, om, rfl, hrun⟩ := pFieldHead_run (QuantText.none (sp := false)) h2
    have hw : w = [] := by
      cases w with
      | nil => rfl
      | cons b w =>
        simp only [List.cons_append, noWs_cons] at hn
        rw [ws_multispace h1 b (by simp)] at hn
        cases hn
    subst hw
    have e1 : [] ++ (t ++ to) ++ w' ++ bs "?" ++ r = [] ++ (t ++ (to ++ (w' ++ (0x3F :: r)))) := by
      rw [← bs_qm]; simp
    rw [e1]
    refine .ex (hrun _ (occStop_ws h3 (OccStop.cons (by decide)))) ?_
    rw [dws_append h3]; exact cons_noWs_dws (by decide)
  | @dot tq q t to sel w w' ts v h1 h2 h3 h4 h5 =>
    obtain ⟨m, om, rfl, hrun⟩ := pFieldHead_run h1 h2
    obtain ⟨ts', hts, e⟩ := subText_leaf.strip' h4 h5 r
    have e1 : tq ++ t ++ to ++ w ++ bs "." ++ w' ++ ts ++ r =
      tq ++ (t ++ (to ++ (w ++ (0x2E :: (w' ++ ts ++ r))))) := by rw [← bs_dot]; simp
    rw [e1]
    refine .dot (hrun _ (occStop_ws h3 (OccStop.cons (by decide)))) ?_ hts e hr
    rw [dws_append h3]; exact cons_noWs_dws (by decide)
  | @braces tq q t to sel tl ts tr v h1 h2 h3 h4 h5 =>
    obtain ⟨m, om, rfl, hrun⟩ := pFieldHead_run h1 h2
    rw [← bs_lbrace] at h3
    rw [← bs_rbrace] at h5
    have e1 : tq ++ t ++ to ++ tl ++ ts ++ tr ++ r = tq ++ (t ++ (to ++ (tl ++ (ts ++ (tr ++ r))))) := by simp
    rw [e1]
    obtain ⟨w1, hw1, e2⟩ := padded_byte_dws h3 (by decide) (ts ++ (tr ++ r))
    obtain ⟨w2, hw2, e3⟩ := padded_byte_dws h5 (by decide) r
    rw [← dws_append (r := r) hw2]
    refine .braces (ts := w1 ++ ts) (hrun _ (padded_byte h3 (by decide) (by decide) _).1) ?_ (orT_lead hw1 h4) e3
    rw [e2]; simp
  | @card th w1 t w2 w3 to w4 sel top op ds h1 h2 h3 h4 h5 h6 h7 h8 h9 h10 h11 =>
    have hne : th ≠ [] := by obtain ⟨w, u, w', rfl, -, rfl, -⟩ := h1; rw [← bs_hash]; simp
    obtain ⟨w, hw, rfl⟩ := hash_front h1 (noWs_left (by simpa only [List.append_assoc] using hn) hne)
    obtain ⟨m, om, rfl, hrun⟩ := cardSel_run (ws_append hw h2) h3 h4 h5 h6
    obtain ⟨g1, g2, g3⟩ := relPadded_head h7 (ds ++ r)
    obtain ⟨Y, hY, hY'⟩ := hrun _ g1 g2
    refine .card (j := w ++ w1 ++ t ++ w2 ++ (w3 ++ to ++ w4) ++ (top ++ (ds ++ r))) (by simp) hY (hY' ▸ g3) ?_
    rw [hY']
    exact numCheck_dws h7 h8 h9 h10 h11 (noDigit_of hr)
  | @cardSub th w1 t w2 w3 to w4 sel tl ts tr v top op ds h1 h2 h3 h4 h5 h6 h7 h8 h9 h10 h11 h12 h13 h14 =>
    have hne : th ≠ [] := by obtain ⟨w, u, w', rfl, -, rfl, -⟩ := h1; rw [← bs_hash]; simp
    obtain ⟨w, hw, rfl⟩ := hash_front h1 (noWs_left (by simpa only [List.append_assoc] using hn) hne)
    obtain ⟨m, om, rfl, hrun⟩ := cardSel_run (ws_append hw h2) h3 h4 h5 h6
    rw [← bs_lbrace] at h7
    rw [← bs_rbrace] at h9
    obtain ⟨wl, hwl, e2⟩ := padded_byte_dws h7 (by decide) (ts ++ (tr ++ (top ++ (ds ++ r))))
    obtain ⟨wr, hwr, e3⟩ := padded_byte_dws h9 (by decide) (top ++ (ds ++ r))
    obtain ⟨Y, hY, hY'⟩ := hrun (tl ++ (ts ++ (tr ++ (top ++ (ds ++ r)))))
      (padded_byte h7 (by decide) (by decide) _).1 (by rw [e2]; exact OccStop.cons (by decide))
    refine .cardSub (j := w ++ w1 ++ t ++ w2 ++ (w3 ++ to ++ w4) ++ (tl ++ (ts ++ (tr ++ (top ++ (ds ++ r))))))
      (ts := wl ++ ts) (by simp) hY (by rw [hY', e2, List.append_assoc]) (orT_lead hwl h8) e3 ?_
    rw [dws_append hwr]
    exact numCheck_dws h10 h11 h12 h13 h14 (noDigit_of hr)

theorem fldText_det : Det FAnd (FldText rx E o) := by
  intro t v t' v' r r' h h' hr hr' e
  obtain ⟨w, u, rfl, hw, g, hn, hne, -⟩ := fldText_strip h
  obtain ⟨w', u', rfl, hw', g', hn', hne', -⟩ := fldText_strip h'
  have e := congrArg dws e
  rw [List.append_assoc, List.append_assoc, dws_append hw, dws_append hw', dws_of_noWs (noWs_append hne hn),
    dws_of_noWs (noWs_append hne' hn')] at e
  have k := fldText_kind g hr hn
  rw [e] at k
  exact k.det (fldText_kind g' hr' hn')

theorem fldText_leaf : Leaf (FldText rx E o) := by
  refine ⟨fldText_det, fun t v r h => ?_, fun t v h => ?_⟩
  · obtain ⟨w, u, rfl, hw, g, hn, hne, h1, h2⟩ := fldText_strip h
    rw [List.append_assoc, dws_append hw]
    exact head_of hn hne h1 h2
  · obtain ⟨w, u, e, hw, g, hn, -⟩ := fldText_strip h
    exact ⟨w, u, e, hw, g, hn⟩

theorem fldNegText_fld {t v} (h : FldNegText rx E o t v) : FldText rx E o t v := by
  cases h with
  | «exists» h1 h2 h3 => exact .exists h1 h2 h3
  | dot h1 h2 h3 h4 h5 => exact .dot h1 h2 h3 h4 (existsText_sub h5)
  | braces h1 h2 h3 h4 h5 => exact .braces h1 h2 h3 h4 h5

theorem fldExpr_det : Det Stop (FldExprText rx E o) :=
  (orT_det fldText_leaf fldText_leaf).sub (fun _ _ h => orT_neg (fun _ _ h => fldNegText_fld h) h)

end fld
end Pica
