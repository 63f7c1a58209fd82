import Verif.Lemmas.DisplayExpr
import Verif.Lemmas.FieldGroup

/-! Reading printed matchers back. -/

namespace Pica
open Spec

/-! ## white space after the last operand -/

theorem FieldOperand_pad {rx E o br x} (h : FieldOperand rx E o br x) {w : Bytes} (hw : Ws w) :
    FieldOperand rx E o br ⟨x.text ++ w, x.den⟩ := by
  cases h with
  | «exists» h1 h2 h3 =>
    have := FieldOperand.exists (rx := rx) (E := E) (o := o) (br := br) h1 h2 (ws_append h3 hw)
    simpa using this
  | dot h1 h2 h3 h4 h5 =>
    have := FieldOperand.dot (br := br) h1 h2 h3 h4 (ws_append h5 hw)
    simpa using this
  | braces h0 h1 h2 h3 h4 h5 h6 =>
    have := FieldOperand.braces h0 h1 h2 h3 h4 h5 (ws_append h6 hw)
    simpa using this
  | card h1 h2 h3 h4 h5 h6 h7 h8 h9 h10 =>
    have := FieldOperand.card (rx := rx) (E := E) (o := o) (br := br) h1 h2 h3 h4 h5 h6 h7 h8 h9 (ws_append h10 hw)
    simpa using this
  | cardSub h0 h1 h2 h3 h4 h5 h6 h7 h8 h9 h10 h11 h12 =>
    have := FieldOperand.cardSub h0 h1 h2 h3 h4 h5 h6 h7 h8 h9 h10 h11 (ws_append h12 hw)
    simpa using this
  | negExists h1 h2 h3 h4 =>
    have := FieldOperand.negExists (rx := rx) (E := E) (o := o) (br := br) h1 h2 h3 (ws_append h4 hw)
    simpa using this
  | negDot h1 h2 h3 h4 h5 h6 =>
    have := FieldOperand.negDot (rx := rx) (E := E) (o := o) (br := br) h1 h2 h3 h4 h5 (ws_append h6 hw)
    simpa using this
  | negBraces h0 h1 h2 h3 h4 h5 h6 h7 =>
    have := FieldOperand.negBraces h0 h1 h2 h3 h4 h5 h6 (ws_append h7 hw)
    simpa using this

theorem FieldNest_pad {rx E o br} : ∀ {d x}, FieldNest rx E o br d x → ∀ {w : Bytes}, Ws w →
    FieldNest rx E o br d ⟨x.text ++ w, x.den⟩
  | 0, _, h, _, hw => FieldOperand_pad h hw
  | d + 1, _, h, w, hw => by
    rcases h with h | ⟨a, w1, w2, h1, h2, h3, h4, rfl⟩ | ⟨a, n, b, w1, w2, h1, h2, h0, h3, h4, rfl⟩
    · exact .inl (FieldNest_pad h hw)
    · exact .inr (.inl ⟨a, w1, w2 ++ w, h1, h2, h3, ws_append h4 hw, by simp⟩)
    · exact .inr (.inr ⟨a, n, b, w1, w2 ++ w, h1, h2, h0, h3, ws_append h4 hw, by simp⟩)

theorem FieldNest_up {rx E o br d x} (h : FieldNest rx E o br d x) : FieldNest rx E o br (d + 1) x := .inl h

section seq
variable {A : Type}

/-- change the last item -/
def Seq.onLast (g : A → A) (s : Seq A) : Seq A :=
  match s.tail.getLast? with
  | none => ⟨g s.head, []⟩
  | some x => ⟨s.head, s.tail.dropLast ++ [(x.1, x.2.1, g x.2.2)]⟩

theorem Seq.cases_last (s : Seq A) : (∃ h, s = ⟨h, []⟩) ∨ ∃ h xs x, s = ⟨h, xs ++ [x]⟩ := by
  obtain ⟨h, t⟩ := s
  rcases List.eq_nil_or_concat t with rfl | ⟨xs, x, rfl⟩
  · exact .inl ⟨h, rfl⟩
  · exact .inr ⟨h, xs, x, by simp⟩

theorem Seq.onLast_nil (g : A → A) (h : A) : Seq.onLast g ⟨h, []⟩ = ⟨g h, []⟩ := rfl

theorem Seq.onLast_concat (g : A → A) (h : A) (xs : List (Bytes × Bytes × A)) (x : Bytes × Bytes × A) :
    Seq.onLast g ⟨h, xs ++ [x]⟩ = ⟨h, xs ++ [(x.1, x.2.1, g x.2.2)]⟩ := by
  simp [Seq.onLast]

/-- two sequences connected by an operator followed by white space -/
def Seq.join (sign w : Bytes) (a b : Seq A) : Seq A := ⟨a.head, a.tail ++ (sign, w, b.head) :: b.tail⟩

theorem Seq.onLast_text {f : A → Bytes} {g : A → A} {w : Bytes} {P : A → Prop} (hg : ∀ a, P a → f (g a) = f a ++ w)
    {s : Seq A} (hs : s.all P) : (Seq.onLast g s).text f = s.text f ++ w := by
  rcases Seq.cases_last s with ⟨h, rfl⟩ | ⟨h, xs, x, rfl⟩
  · simp [Seq.onLast_nil, Seq.text, hg h hs.1]
  · have := hg x.2.2 (hs.2 x (by simp))
    simp [Seq.onLast_concat, Seq.text, this]

theorem Seq.onLast_den {V : Type} {op : V → V → V} {f : A → V} {g : A → A} {P : A → Prop}
    (hg : ∀ a, P a → f (g a) = f a) {s : Seq A} (hs : s.all P) :
    (Seq.onLast g s).den op f = s.den op f := by
  rcases Seq.cases_last s with ⟨h, rfl⟩ | ⟨h, xs, x, rfl⟩
  · simp [Seq.onLast_nil, Seq.den, hg h hs.1]
  · have := hg x.2.2 (hs.2 x (by simp))
    simp [Seq.onLast_concat, Seq.den, this]

theorem Seq.onLast_all {P Q : A → Prop} {g : A → A} (hg : ∀ a, P a → Q (g a)) (hq : ∀ a, P a → Q a)
    {s : Seq A} (hs : s.all P) : (Seq.onLast g s).all Q := by
  rcases Seq.cases_last s with ⟨h, rfl⟩ | ⟨h, xs, x, rfl⟩
  · exact ⟨hg _ hs.1, by simp [Seq.onLast_nil]⟩
  · rw [Seq.onLast_concat]
    refine ⟨hq _ hs.1, fun y hy => ?_⟩
    simp only [List.mem_append, List.mem_singleton] at hy
    rcases hy with hy | rfl
    · exact hq _ (hs.2 y (by simp [hy]))
    · exact hg _ (hs.2 x (by simp))

theorem Seq.onLast_signs {sign : Bytes → Prop} {g : A → A} {s : Seq A} (hs : s.signs sign) :
    (Seq.onLast g s).signs sign := by
  rcases Seq.cases_last s with ⟨h, rfl⟩ | ⟨h, xs, x, rfl⟩
  · simp [Seq.onLast_nil, Seq.signs]
  · rw [Seq.onLast_concat]
    intro y hy
    simp only [List.mem_append, List.mem_singleton] at hy
    rcases hy with hy | rfl
    · exact hs y (by simp [hy])
    · exact hs x (by simp)

theorem Seq.onLast_many {g : A → A} {s : Seq A} : (Seq.onLast g s).many ↔ s.many := by
  rcases Seq.cases_last s with ⟨h, rfl⟩ | ⟨h, xs, x, rfl⟩
  · simp [Seq.onLast_nil, Seq.many]
  · simp [Seq.onLast_concat, Seq.many]

theorem Seq.join_text {f : A → Bytes} {sign w : Bytes} {a b : Seq A} :
    (Seq.join sign w a b).text f = a.text f ++ sign ++ w ++ b.text f := by
  simp [Seq.join, Seq.text]

theorem foldl_assoc {V B : Type} {op : V → V → V} (ha : ∀ x y z, op (op x y) z = op x (op y z)) (f : B → V)
    (l : List B) (x y : V) : l.foldl (fun d b => op d (f b)) (op x y) = op x (l.foldl (fun d b => op d (f b)) y) := by
  induction l generalizing y with
  | nil => rfl
  | cons b l ih => rw [List.foldl_cons, List.foldl_cons, ha, ih]

theorem Seq.join_den {V : Type} {op : V → V → V} (ha : ∀ x y z, op (op x y) z = op x (op y z)) {f : A → V}
    {sign w : Bytes} {a b : Seq A} : (Seq.join sign w a b).den op f = op (a.den op f) (b.den op f) := by
  simp only [Seq.join, Seq.den, List.foldl_append, List.foldl_cons]
  exact foldl_assoc ha (fun x : Bytes × Bytes × A => f x.2.2) _ _ _

theorem Seq.join_all {P : A → Prop} {sign w : Bytes} {a b : Seq A} (ha : a.all P) (hb : b.all P) :
    (Seq.join sign w a b).all P := by
  refine ⟨ha.1, fun x hx => ?_⟩
  simp only [Seq.join, List.mem_append, List.mem_cons] at hx
  rcases hx with hx | rfl | hx
  · exact ha.2 x hx
  · exact hb.1
  · exact hb.2 x hx

theorem Seq.join_signs {P : Bytes → Prop} {sign w : Bytes} {a b : Seq A} (ha : a.signs P) (hb : b.signs P)
    (h : P sign) (hw : Ws w) : (Seq.join sign w a b).signs P := by
  intro x hx
  simp only [Seq.join, List.mem_append, List.mem_cons] at hx
  rcases hx with hx | rfl | hx
  · exact ha x hx
  · exact ⟨h, hw⟩
  · exact hb x hx

end seq

section pad
variable {X : Type} {P : Operand X → Prop} (w : Bytes)

def padA (a : AndSeq X) : AndSeq X := Seq.onLast (fun x => ⟨x.text ++ w, x.den⟩) a
def padX (a : XorSeq X) : XorSeq X := Seq.onLast (padA w) a
def padO (a : OrSeq X) : OrSeq X := Seq.onLast (padX w) a

variable (hP : ∀ x, P x → P ⟨x.text ++ w, x.den⟩)
include hP

theorem padA_spec {a : AndSeq X} (h : a.ok P) : (padA w a).ok P ∧ (padA w a).txt = a.txt ++ w ∧
    (padA w a).val = a.val := by
  refine ⟨⟨Seq.onLast_signs h.1, Seq.onLast_all hP (fun _ h => h) h.2⟩, ?_, ?_⟩
  · exact Seq.onLast_text (fun _ _ => rfl) h.2
  · exact Seq.onLast_den (f := Operand.den) (g := fun x => ⟨x.text ++ w, x.den⟩) (fun _ _ => rfl) h.2

theorem padX_spec {a : XorSeq X} (h : a.ok P) : (padX w a).ok P ∧ (padX w a).txt = a.txt ++ w ∧
    (padX w a).val = a.val := by
  refine ⟨⟨Seq.onLast_signs h.1, Seq.onLast_all (fun _ h => (padA_spec w hP h).1) (fun _ h => h) h.2⟩, ?_, ?_⟩
  · exact Seq.onLast_text (fun _ h => (padA_spec w hP h).2.1) h.2
  · exact Seq.onLast_den (fun _ h => (padA_spec w hP h).2.2) h.2

theorem padO_spec {a : OrSeq X} (h : a.ok P) : (padO w a).ok P ∧ (padO w a).txt = a.txt ++ w ∧
    (padO w a).val = a.val := by
  refine ⟨⟨Seq.onLast_signs h.1, Seq.onLast_all (fun _ h => (padX_spec w hP h).1) (fun _ h => h) h.2⟩, ?_, ?_⟩
  · exact Seq.onLast_text (fun _ h => (padX_spec w hP h).2.1) h.2
  · exact Seq.onLast_den (fun _ h => (padX_spec w hP h).2.2) h.2
omit hP

theorem padA_many {a : AndSeq X} : (padA w a).many ↔ a.many := Seq.onLast_many
theorem padX_many {a : XorSeq X} : (padX w a).many ↔ a.many := Seq.onLast_many

theorem padX_head {a : XorSeq X} : (padX w a).head.many ↔ a.head.many := by
  rcases Seq.cases_last a with ⟨h, rfl⟩ | ⟨h, xs, x, rfl⟩
  · exact padA_many w
  · rw [padX, Seq.onLast_concat]

theorem padX_mixed {a : XorSeq X} : (padX w a).mixed ↔ a.mixed := by
  unfold XorSeq.mixed
  rw [padX_many, padX_head]

theorem padO_unmixed {a : OrSeq X} (h : a.all (fun x => ¬ XorSeq.mixed x)) :
    (padO w a).all (fun x => ¬ XorSeq.mixed x) :=
  Seq.onLast_all (fun x hx => by rw [padX_mixed]; exact hx) (fun _ h => h) h

end pad

/-! ## printed matchers as sequences of operands -/

/-- the matcher is an exclusive disjunction -/
def FieldMatcher.isXor : FieldMatcher → Bool
  | .comp _ .xor _ => true
  | _ => false

/-- the matcher is a conjunction -/
def FieldMatcher.isAnd : FieldMatcher → Bool
  | .comp _ .and _ => true
  | _ => false

/-- the matcher is a conjunction or an exclusive disjunction that starts with one -/
def FieldMatcher.leftAnd : FieldMatcher → Bool
  | .comp l .xor _ => l.leftAnd
  | .comp _ .and _ => true
  | _ => false

/-- `(a & b) ^ c ..`: an exclusive disjunction that starts with a conjunction -/
def FieldMatcher.mixed (m : FieldMatcher) : Prop := m.isXor = true ∧ m.leftAnd = true

/-- `n` negations -/
def FieldMatcher.nots : Nat → FieldMatcher → FieldMatcher
  | 0, m => m
  | n + 1, m => .not (nots n m)

/-- how tight the outermost operator binds -/
inductive Rank where
  | operand | conj | excl | disj

/-- Matchers put together from operands with operators, groups nested at most `d`
deep, without `(a & b) ^ c` as an operand of a disjunction. -/
inductive Printable (rx : Bytes → Bool) (E : Env) (o : Opts) (br : Bool) : Nat → Rank → FieldMatcher → Prop
  | leaf {d m} : FieldOperand rx E o br ⟨m.display, m.eval E o⟩ → Printable rx E o br d .operand m
  | group {d m} : Printable rx E o br d .disj m → Printable rx E o br (d + 1) .operand (.group m)
  | not {d n m} : Printable rx E o br d .disj m →
      Printable rx E o br (d + 1) .operand (FieldMatcher.nots (n + 1) (.group m))
  | one {d m} : Printable rx E o br d .operand m → Printable rx E o br d .conj m
  | and {d a b} : Printable rx E o br d .conj a → Printable rx E o br d .conj b →
      Printable rx E o br d .conj (.comp a .and b)
  | conj {d m} : Printable rx E o br d .conj m → Printable rx E o br d .excl m
  | xor {d a b} : Printable rx E o br d .excl a → Printable rx E o br d .excl b →
      Printable rx E o br d .excl (.comp a .xor b)
  | excl {d m} : Printable rx E o br d .excl m → Printable rx E o br d .disj m
  | or {d a b} : Printable rx E o br d .disj a → Printable rx E o br d .disj b → ¬ a.mixed → ¬ b.mixed →
      Printable rx E o br d .disj (.comp a .or b)

theorem nots_display (n : Nat) (m : FieldMatcher) : ∃ b, Bangs n b ∧ (FieldMatcher.nots n m).display = b ++ m.display := by
  induction n with
  | zero => exact ⟨[], .zero, rfl⟩
  | succ n ih =>
    obtain ⟨b, h1, h2⟩ := ih
    refine ⟨bs "!" ++ [] ++ b, .succ ws_nil h1, ?_⟩
    rw [FieldMatcher.nots, FieldMatcher.display, h2]; simp

theorem nots_eval (E : Env) (o : Opts) (n : Nat) (m : FieldMatcher) :
    (FieldMatcher.nots n m).eval E o = dNots n (m.eval E o) := by
  induction n with
  | zero => rfl
  | succ n ih => rw [FieldMatcher.nots, FieldMatcher.eval_not, ih, dNots]

theorem nots_isXor (n : Nat) (m : FieldMatcher) (h : m.isXor = false) : (FieldMatcher.nots n m).isXor = false := by
  cases n with
  | zero => exact h
  | succ n => rfl

theorem FieldMatcher.eval_comp_and (E : Env) (o : Opts) (a b : FieldMatcher) :
    FieldMatcher.eval E o (.comp a .and b) = dAnd (a.eval E o) (b.eval E o) := by
  funext sf
  simp only [FieldMatcher.eval, run_and, dAnd]
  rcases a.eval E o sf with _ | _ | _ <;> rfl

theorem FieldMatcher.eval_comp_or (E : Env) (o : Opts) (a b : FieldMatcher) :
    FieldMatcher.eval E o (.comp a .or b) = dOr (a.eval E o) (b.eval E o) :=
  FieldMatcher.eval_bitor E o a b

theorem FieldMatcher.eval_comp_xor (E : Env) (o : Opts) (a b : FieldMatcher) :
    FieldMatcher.eval E o (.comp a .xor b) = dXor (a.eval E o) (b.eval E o) := by
  funext sf
  simp only [FieldMatcher.eval, run_xor, dXor]
  rcases a.eval E o sf with _ | _ <;> rcases b.eval E o sf with _ | _ <;> rfl

/-- a printed matcher is the text of a sequence of operands -/
theorem printable_seq {rx E o br d k m} (h : Printable rx E o br d k m) :
    match k with
    | .operand => FieldNest rx E o br d ⟨m.display, m.eval E o⟩
    | .conj => ∃ a : AndSeq (List Field), a.ok (FieldNest rx E o br d) ∧ a.txt = m.display ∧ a.val = m.eval E o ∧
        (a.many → m.isAnd = true)
    | .excl => ∃ a : XorSeq (List Field), a.ok (FieldNest rx E o br d) ∧ a.txt = m.display ∧ a.val = m.eval E o ∧
        (a.many → m.isXor = true) ∧ (a.head.many → m.leftAnd = true)
    | .disj => ∃ a : OrSeq (List Field), a.ok (FieldNest rx E o br d) ∧ a.txt = m.display ∧ a.val = m.eval E o ∧
        a.plain ∧ (¬ m.mixed → a.all (fun x => ¬ XorSeq.mixed x)) := by
  have hws : Ws (bs " ") := by rw [bs_space]; intro b hb; simp only [List.mem_singleton] at hb; subst hb; exact .inl rfl
  have pad : ∀ {d} x, FieldNest rx E o br d x → FieldNest rx E o br d ⟨x.text ++ bs " ", x.den⟩ :=
    fun x hx => FieldNest_pad hx hws
  induction h with
  | @leaf d m h =>
    induction d with
    | zero => exact h
    | succ d ih => exact .inl ih
  | @group d m h ih =>
    obtain ⟨a, h1, h2, h3, h4, -⟩ := ih
    refine .inr (.inl ⟨a, [], [], h1, h4, ws_nil, ws_nil, ?_⟩)
    rw [FieldMatcher.display, FieldMatcher.eval_group, h2, h3]; simp
  | @not d n m h ih =>
    obtain ⟨a, h1, h2, h3, h4, -⟩ := ih
    obtain ⟨b, hb, e⟩ := nots_display (n + 1) (.group m)
    refine .inr (.inr ⟨a, n, b, [], [], h1, h4, hb, ws_nil, ws_nil, ?_⟩)
    rw [e, nots_eval, FieldMatcher.display, FieldMatcher.eval_group, h2, h3]; simp
  | @one d m h ih =>
    refine ⟨⟨⟨m.display, m.eval E o⟩, []⟩, ⟨by simp [Seq.signs], ih, by simp⟩, ?_, rfl, by simp [Seq.many]⟩
    simp [AndSeq.txt, Seq.text]
  | @and d a b _ _ iha ihb =>
    obtain ⟨x, h1, h2, h3, h4⟩ := iha
    obtain ⟨y, g1, g2, g3, g4⟩ := ihb
    obtain ⟨p1, p2, p3⟩ := padA_spec (bs " ") pad h1
    refine ⟨Seq.join (bs "&&") (bs " ") (padA (bs " ") x) y,
      ⟨Seq.join_signs p1.1 g1.1 rfl hws, Seq.join_all p1.2 g1.2⟩, ?_, ?_, fun _ => rfl⟩
    · have : AndSeq.txt (Seq.join (bs "&&") (bs " ") (padA (bs " ") x) y) = _ := Seq.join_text
      rw [this, FieldMatcher.display, ← h2, ← g2]
      have e : Seq.text Operand.text (padA (bs " ") x) = _ := p2
      rw [e]; rfl
    · have : AndSeq.val (Seq.join (bs "&&") (bs " ") (padA (bs " ") x) y) = _ := Seq.join_den dAnd_assoc
      rw [this, show FieldMatcher.eval E o (.comp a .and b) = dAnd (a.eval E o) (b.eval E o) from
        FieldMatcher.eval_comp_and E o a b, ← h3, ← g3]
      have e : Seq.den dAnd Operand.den (padA (bs " ") x) = _ := p3
      rw [e]; rfl
  | @conj d m h ih =>
    obtain ⟨x, h1, h2, h3, h4⟩ := ih
    refine ⟨⟨x, []⟩, ⟨by simp [Seq.signs], h1, by simp⟩, ?_, ?_, by simp [Seq.many], fun hm => ?_⟩
    · rw [← h2]; simp [XorSeq.txt, Seq.text]
    · rw [← h3]; simp [XorSeq.val, Seq.den]
    · have := h4 hm
      revert this
      rcases m with _ | _ | _ | _ | ⟨l, _ | _ | _, r⟩ <;> simp [FieldMatcher.isAnd, FieldMatcher.leftAnd]
  | @xor d a b _ _ iha ihb =>
    obtain ⟨x, h1, h2, h3, h4, h5⟩ := iha
    obtain ⟨y, g1, g2, g3, g4, g5⟩ := ihb
    obtain ⟨p1, p2, p3⟩ := padX_spec (bs " ") pad h1
    refine ⟨Seq.join (bs "^") (bs " ") (padX (bs " ") x) y,
      ⟨Seq.join_signs p1.1 g1.1 (.inl rfl) hws, Seq.join_all p1.2 g1.2⟩, ?_, ?_, fun _ => rfl, fun hm => ?_⟩
    · have : XorSeq.txt (Seq.join (bs "^") (bs " ") (padX (bs " ") x) y) = _ := Seq.join_text
      rw [this, FieldMatcher.display, ← h2, ← g2]
      have e : Seq.text AndSeq.txt (padX (bs " ") x) = _ := p2
      rw [e]; rfl
    · have : XorSeq.val (Seq.join (bs "^") (bs " ") (padX (bs " ") x) y) = _ := Seq.join_den dXor_assoc
      rw [this, FieldMatcher.eval_comp_xor, ← h3, ← g3]
      have e : Seq.den dXor AndSeq.val (padX (bs " ") x) = _ := p3
      rw [e]; rfl
    · rw [FieldMatcher.leftAnd]
      exact h5 ((padX_head (bs " ")).1 hm)
  | @excl d m h ih =>
    obtain ⟨x, h1, h2, h3, h4, h5⟩ := ih
    refine ⟨⟨x, []⟩, ⟨by simp [Seq.signs], h1, by simp⟩, ?_, ?_, fun hm => absurd rfl hm, fun hm => ⟨fun hx => hm ?_, by simp⟩⟩
    · rw [← h2]; simp [OrSeq.txt, Seq.text]
    · rw [← h3]; simp [OrSeq.val, Seq.den]
    · exact ⟨h4 hx.1, h5 hx.2⟩
  | @or d a b _ _ ha hb iha ihb =>
    obtain ⟨x, h1, h2, h3, h4, h5⟩ := iha
    obtain ⟨y, g1, g2, g3, g4, g5⟩ := ihb
    obtain ⟨p1, p2, p3⟩ := padO_spec (bs " ") pad h1
    have hall : (Seq.join (bs "||") (bs " ") (padO (bs " ") x) y).all (fun x => ¬ XorSeq.mixed x) :=
      Seq.join_all (padO_unmixed _ (h5 ha)) (g5 hb)
    refine ⟨Seq.join (bs "||") (bs " ") (padO (bs " ") x) y,
      ⟨Seq.join_signs p1.1 g1.1 rfl hws, Seq.join_all p1.2 g1.2⟩, ?_, ?_, fun _ => hall, fun _ => hall⟩
    · have : OrSeq.txt (Seq.join (bs "||") (bs " ") (padO (bs " ") x) y) = _ := Seq.join_text
      rw [this, FieldMatcher.display, ← h2, ← g2]
      have e : Seq.text XorSeq.txt (padO (bs " ") x) = _ := p2
      rw [e]; rfl
    · have : OrSeq.val (Seq.join (bs "||") (bs " ") (padO (bs " ") x) y) = _ := Seq.join_den dOr_assoc
      rw [this, FieldMatcher.eval_comp_or, ← h3, ← g3]
      have e : Seq.den dOr XorSeq.val (padO (bs " ") x) = _ := p3
      rw [e]; rfl

theorem Printable.deeper {rx E o br d k m} (h : Printable rx E o br d k m) : Printable rx E o br (d + 1) k m := by
  induction h with
  | leaf h => exact .leaf h
  | group _ ih => exact .group ih
  | not _ ih => exact .not ih
  | one _ ih => exact .one ih
  | and _ _ h h' => exact .and h h'
  | conj _ ih => exact .conj ih
  | xor _ _ h h' => exact .xor h h'
  | excl _ ih => exact .excl ih
  | or _ _ h1 h2 h h' => exact .or h h' h1 h2

theorem Printable.groupOr {rx E o br d m} (h : Printable rx E o br d .disj m) :
    Printable rx E o br (d + 1) .excl m.groupOr := by
  cases h with
  | excl h =>
    unfold FieldMatcher.groupOr
    split
    · exact .conj (.one (.group (.excl h)))
    · exact h.deeper
  | or h h' h1 h2 => exact .conj (.one (.group (.or h h' h1 h2)))

theorem Printable.groupOrXor {rx E o br d m} (h : Printable rx E o br d .disj m) :
    Printable rx E o br (d + 1) .conj m.groupOrXor := by
  cases h with
  | excl h =>
    cases h with
    | conj h =>
      unfold FieldMatcher.groupOrXor
      split
      · exact .one (.group (.excl (.conj h)))
      · exact .one (.group (.excl (.conj h)))
      · exact h.deeper
    | xor h h' => exact .one (.group (.excl (.xor h h')))
  | or h h' h1 h2 => exact .one (.group (.or h h' h1 h2))

end Pica
