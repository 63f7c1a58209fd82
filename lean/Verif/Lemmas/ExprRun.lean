import Verif.Lemmas.Expr
import Verif.Lemmas.Reads

/-!
Running the expression parsers on chains `a1 op a2 op ..` of operands.

`s` is the state of the group counters; the operands considered here leave it
unchanged.
-/

namespace Pica
open Spec

/-- the input without leading white space -/
def dws (r : Bytes) : Bytes := r.dropWhile isMultispace

theorem dws_of_noWs {r : Bytes} (h : NoWs r) : dws r = r := by
  cases r with
  | nil => rfl
  | cons b r => simp [dws, noWs_cons.1 h]

theorem dws_append {w r : Bytes} (hw : Ws w) : dws (w ++ r) = dws r := by
  induction w with
  | nil => rfl
  | cons b w ih =>
    have : isMultispace b = true := (isMultispace_iff b).2 (hw b (by simp))
    have := ih (fun x hx => hw x (by simp [hx]))
    simp_all [dws]

theorem dws_dws (r : Bytes) : dws (dws r) = dws r := by
  induction r with
  | nil => rfl
  | cons b r ih =>
    by_cases h : isMultispace b = true
    · simpa [dws, h] using ih
    · simp [dws, h]

theorem dws_noWs (r : Bytes) : NoWs (dws r) := by
  induction r with
  | nil => exact noWs_nil
  | cons b r ih =>
    by_cases h : isMultispace b = true
    · simpa [dws, h] using ih
    · have : isMultispace b = false := by simpa using h
      simp [dws, this, noWs_cons]

theorem dws_length (r : Bytes) : (dws r).length ≤ r.length := by
  have := congrArg List.length (List.takeWhile_append_dropWhile (p := isMultispace) (l := r))
  simp only [List.length_append] at this
  unfold dws
  omega

namespace TParser
variable {α β γ : Type}

theorem map_run {f : α → β} {p : TParser α} {s i a r s'} (h : p s i = (some (a, r), s')) :
    map f p s i = (some (f a, r), s') := by simp [map, h]
theorem map_none {f : α → β} {p : TParser α} {s i s'} (h : p s i = (none, s')) :
    map f p s i = (none, s') := by simp [map, h]
theorem seq_run {p : TParser α} {q : TParser β} {s i a r s' b r' s''} (h : p s i = (some (a, r), s'))
    (h' : q s' r = (some (b, r'), s'')) : seq p q s i = (some ((a, b), r'), s'') := by simp [seq, h, h']
theorem seq_none {p : TParser α} {q : TParser β} {s i s'} (h : p s i = (none, s')) :
    seq p q s i = (none, s') := by simp [seq, h]
theorem seq_none' {p : TParser α} {q : TParser β} {s i a r s' s''} (h : p s i = (some (a, r), s'))
    (h' : q s' r = (none, s'')) : seq p q s i = (none, s'') := by simp [seq, h, h']
theorem preceded_run {p : TParser α} {q : TParser β} {s i a r s' b r' s''}
    (h : p s i = (some (a, r), s')) (h' : q s' r = (some (b, r'), s'')) :
    preceded p q s i = (some (b, r'), s'') := map_run (seq_run h h')
theorem preceded_none {p : TParser α} {q : TParser β} {s i s'} (h : p s i = (none, s')) :
    preceded p q s i = (none, s') := map_none (seq_none h)
theorem preceded_none' {p : TParser α} {q : TParser β} {s i a r s' s''}
    (h : p s i = (some (a, r), s')) (h' : q s' r = (none, s'')) :
    preceded p q s i = (none, s'') := map_none (seq_none' h h')
theorem terminated_run {p : TParser α} {q : TParser β} {s i a r s' b r' s''}
    (h : p s i = (some (a, r), s')) (h' : q s' r = (some (b, r'), s'')) :
    terminated p q s i = (some (a, r'), s'') := map_run (seq_run h h')
theorem terminated_none {p : TParser α} {q : TParser β} {s i s'} (h : p s i = (none, s')) :
    terminated p q s i = (none, s') := map_none (seq_none h)
theorem terminated_none' {p : TParser α} {q : TParser β} {s i a r s' s''}
    (h : p s i = (some (a, r), s')) (h' : q s' r = (none, s'')) :
    terminated p q s i = (none, s'') := map_none (seq_none' h h')
theorem delimited_run {p : TParser α} {q : TParser β} {q' : TParser γ} {s i a r s' b r' s'' c r'' s'''}
    (h : p s i = (some (a, r), s')) (h' : q s' r = (some (b, r'), s''))
    (h'' : q' s'' r' = (some (c, r''), s''')) :
    delimited p q q' s i = (some (b, r''), s''') := preceded_run h (terminated_run h' h'')
theorem alt_left {p q : TParser α} {s i x s'} (h : p s i = (some x, s')) :
    alt p q s i = (some x, s') := by simp [alt, h]
theorem alt_right {p q : TParser α} {s i s'} (h : p s i = (none, s')) : alt p q s i = q s' i := by
  simp [alt, h]
theorem lift_run {p : Parser α} {s i x} (h : p i = some x) : lift p s i = (some x, s) := by
  simp [lift, h]
theorem lift_none {p : Parser α} {s i} (h : p i = none) : lift p s i = (none, s) := by
  simp [lift, h]

theorem repeat0Aux_stop {p : TParser α} {n s i s'} (h : p s i = (none, s')) :
    repeat0Aux p (n + 1) s i = (some ([], i), s') := by simp [repeat0Aux, h]

theorem repeat0Aux_step {p : TParser α} {n s i a r s' as r' s''} (h : p s i = (some (a, r), s'))
    (hl : r.length < i.length) (h' : repeat0Aux p n s' r = (some (as, r'), s'')) :
    repeat0Aux p (n + 1) s i = (some (a :: as, r'), s'') := by
  simp [repeat0Aux, h, hl, h']

end TParser

theorem multispace0_dws (r : Bytes) : multispace0 r = some (r.takeWhile isMultispace, dws r) := rfl

/-- `tws` skips white space on both sides -/
theorem tws_run {α : Type} {p : TParser α} {s i a r s'} (h : p s (dws i) = (some (a, r), s')) :
    tws p s i = (some (a, dws r), s') :=
  TParser.delimited_run (TParser.lift_run (multispace0_dws i)) h (TParser.lift_run (multispace0_dws r))

theorem tws_none {α : Type} {p : TParser α} {s i s'} (h : p s (dws i) = (none, s')) :
    tws p s i = (none, s') :=
  TParser.preceded_none' (TParser.lift_run (multispace0_dws i)) (TParser.terminated_none h)

section
variable {M : Type}

/-- `p` reads `body` with result `m`, up to white space, when what follows
satisfies `F` -/
structure Opd (s : Levels) (p : TParser M) (F : Bytes → Prop) (body : Bytes) (m : M) : Prop where
  ok : ∀ rest, F rest → ∃ r', p s (body ++ rest) = (some (m, r'), s) ∧ dws r' = rest
  noWs : NoWs body
  ne : body ≠ []

/-- an operator, white space and an operand -/
structure Link (M : Type) where
  sign : Bytes
  sp : Bytes
  body : Bytes
  mat : M

/-- text of a link -/
def Link.text (l : Link M) : Bytes := l.sign ++ (l.sp ++ l.body)

/-- text of links -/
def linksText : List (Link M) → Bytes
  | [] => []
  | l :: tl => l.text ++ linksText tl

/-- a link whose sign and operand are as given -/
structure LinkOk (sign : Bytes → Prop) (P : Bytes → M → Prop) (l : Link M) : Prop where
  sign : sign l.sign
  sp : Ws l.sp
  body : P l.body l.mat

/-- value of a chain -/
def chainMat (f : M → M → M) (m : M) (tl : List (Link M)) : M :=
  tl.foldl (fun a l => f a l.mat) m

/-- the operator parser reads the sign -/
structure OpRuns (op : Parser Unit) (sign : Bytes) : Prop where
  ne : sign ≠ []
  run : ∀ r, ∃ r', op (sign ++ r) = some ((), r') ∧ dws r' = dws r ∧ r'.length ≤ r.length

/-- starts with a sign -/
def StartsWith (sign : Bytes → Prop) (r : Bytes) : Prop := ∃ sg r', sign sg ∧ r = sg ++ r'

variable {s : Levels} {p : TParser M} {op : Parser Unit} {sign F : Bytes → Prop}

theorem Opd.mono {F' : Bytes → Prop} {b m} (h : Opd s p F b m) (hF : ∀ r, F' r → F r) :
    Opd s p F' b m := ⟨fun rest hr => h.ok rest (hF _ hr), h.noWs, h.ne⟩

/-- one operand through `tws` -/
theorem Opd.tws {body m rest r} (h : Opd s p F body m)
    (hF : F rest) (hr : dws r = body ++ rest) : tws p s r = (some (m, rest), s) := by
  obtain ⟨r', h1, h2⟩ := h.ok rest hF
  rw [← hr] at h1
  rw [tws_run h1, h2]

theorem Opd.tws' {body m rest} (h : Opd s p F body m)
    (hF : F rest) : Pica.tws p s (body ++ rest) = (some (m, rest), s) :=
  h.tws hF (dws_of_noWs (noWs_append h.ne h.noWs))

/-- the steps of `repeat(preceded(op, p))` -/
inductive LinksRun (s : Levels) (p : TParser M) (op : Parser Unit) : Bytes → List M → Bytes → Prop
  | nil {r} : op r = none → LinksRun s p op r [] r
  | cons {i i' m r ms r'} : op i = some ((), i') → tws p s i' = (some (m, r), s) →
      r.length < i.length → LinksRun s p op r ms r' → LinksRun s p op i (m :: ms) r'

theorem LinksRun.repeat0Aux {i ms r} (h : LinksRun s p op i ms r) : ∀ n, i.length < n →
    TParser.repeat0Aux (TParser.preceded (TParser.lift op) (Pica.tws p)) n s i =
      (some (ms, r), s) := by
  induction h with
  | nil h =>
    intro n hn
    cases n with
    | zero => omega
    | succ n => exact TParser.repeat0Aux_stop (TParser.preceded_none (TParser.lift_none h))
  | cons h1 h2 h3 _ ih =>
    intro n hn
    cases n with
    | zero => omega
    | succ n =>
      exact TParser.repeat0Aux_step (TParser.preceded_run (TParser.lift_run h1) h2) h3
        (ih n (by omega))

/-- a link in front -/
theorem LinksRun.link {l : Link M} {P : Bytes → M → Prop} {rest ms r'}
    (hop : ∀ sg, sign sg → OpRuns op sg) (hl : LinkOk sign P l)
    (hP : Opd s p F l.body l.mat) (hF : F rest) (h : LinksRun s p op rest ms r') :
    LinksRun s p op (l.text ++ rest) (l.mat :: ms) r' := by
  obtain ⟨hne, hrun⟩ := hop _ hl.sign
  obtain ⟨i', e1, e2, e3⟩ := hrun (l.sp ++ (l.body ++ rest))
  rw [dws_append hl.sp, dws_of_noWs (noWs_append hP.ne hP.noWs)] at e2
  have e4 := hP.tws hF e2
  have : l.text ++ rest = l.sign ++ (l.sp ++ (l.body ++ rest)) := by simp [Link.text]
  rw [this]
  refine .cons e1 e4 ?_ h
  have : 0 < l.sign.length := List.length_pos_iff.2 hne
  simp only [List.length_append]
  omega

theorem linksText_follow (hF : ∀ r, StartsWith sign r → F r) {P : Bytes → M → Prop}
    {tl : List (Link M)} (htl : ∀ l ∈ tl, LinkOk sign P l) {rest} (hr : F rest) :
    F (linksText tl ++ rest) := by
  cases tl with
  | nil => exact hr
  | cons l tl =>
    refine hF _ ⟨l.sign, l.sp ++ (l.body ++ (linksText tl ++ rest)), (htl l (by simp)).sign, ?_⟩
    simp [linksText, Link.text]

/-- links in front -/
theorem LinksRun.links (hop : ∀ sg, sign sg → OpRuns op sg) (hF : ∀ r, StartsWith sign r → F r)
    {rest ms r'} (hr : F rest) (h : LinksRun s p op rest ms r') :
    ∀ tl : List (Link M), (∀ l ∈ tl, LinkOk sign (Opd s p F) l) →
      LinksRun s p op (linksText tl ++ rest) (tl.map (·.mat) ++ ms) r'
  | [], _ => h
  | l :: tl, htl => by
    have ih := LinksRun.links hop hF hr h tl (fun l' hl' => htl l' (by simp [hl']))
    have hl := htl l (by simp)
    have := LinksRun.link hop hl hl.body
      (linksText_follow hF (fun l' hl' => htl l' (by simp [hl'])) hr) ih
    simpa [linksText] using this

theorem chain_of_run {f : M → M → M} {i m r ms r'} (h : Pica.tws p s i = (some (m, r), s))
    (h' : LinksRun s p op r ms r') (hne : ms ≠ []) :
    chain op (Pica.tws p) f s i = (some (ms.foldl f m, r'), s) := by
  cases h' with
  | nil _ => exact absurd rfl hne
  | @cons _ _ m1 _ ms1 _ h1 h2 h3 h4 =>
    have r1 : TParser.repeat1 (TParser.preceded (TParser.lift op) (Pica.tws p)) s r =
        (some (m1 :: ms1, r'), s) := by
      unfold TParser.repeat1
      rw [TParser.preceded_run (TParser.lift_run h1) h2]
      simp only [TParser.repeat0, h4.repeat0Aux _ (Nat.lt_succ_self _)]
    exact TParser.map_run (f := fun x : M × List M => x.2.foldl f x.1) (TParser.seq_run h r1)

/-- a chain of at least two operands -/
theorem chain_run {f : M → M → M}
    (hop : ∀ sg, sign sg → OpRuns op sg) (hF : ∀ r, StartsWith sign r → F r)
    {b m} {tl : List (Link M)} {rest : Bytes} (hb : Opd s p F b m) (hne : tl ≠ [])
    (htl : ∀ l ∈ tl, LinkOk sign (Opd s p F) l) (hr : F rest) (ho : op rest = none) :
    chain op (Pica.tws p) f s (b ++ (linksText tl ++ rest)) = (some (chainMat f m tl, rest), s) := by
  have first := hb.tws' (linksText_follow hF htl hr)
  have := LinksRun.links hop hF hr (.nil ho) tl htl
  rw [chain_of_run first this (by simp [hne])]
  simp [chainMat, List.foldl_map]

/-- only one operand: no chain -/
theorem chain_none {f : M → M → M} {i m r} (h : Pica.tws p s i = (some (m, r), s))
    (ho : op r = none) : chain op (Pica.tws p) f s i = (none, s) := by
  unfold chain
  refine TParser.map_none (TParser.seq_none' h ?_)
  unfold TParser.repeat1
  rw [TParser.preceded_none (TParser.lift_none ho)]

end

/-! ## The three operators -/

/-- end of an expression: nothing, `)` or `}` -/
def Stop (r : Bytes) : Prop := r = [] ∨ r.head? = some 0x29 ∨ r.head? = some 0x7D

def AndSign (t : Bytes) : Prop := t = bs "&&"
def OrSign (t : Bytes) : Prop := t = bs "||"

/-- what may follow a disjunct, a conjunction, an operand -/
def FOr (r : Bytes) : Prop := Stop r ∨ StartsWith OrSign r
def FXor (r : Bytes) : Prop := FOr r ∨ StartsWith XorSign r
def FAnd (r : Bytes) : Prop := FXor r ∨ StartsWith AndSign r

theorem stop_head {r : Bytes} (h : Stop r) (c : Byte) (h1 : c ≠ 0x29) (h2 : c ≠ 0x7D) :
    r.head? ≠ some c := by
  rcases h with rfl | h | h
  · simp
  · rw [h]; intro e; cases e; exact h1 rfl
  · rw [h]; intro e; cases e; exact h2 rfl

theorem orSign_head {r : Bytes} (h : StartsWith OrSign r) : r.head? = some 0x7C := by
  obtain ⟨sg, r', rfl, rfl⟩ := h
  rw [bs_or]; rfl

theorem andSign_head {r : Bytes} (h : StartsWith AndSign r) : r.head? = some 0x26 := by
  obtain ⟨sg, r', rfl, rfl⟩ := h
  rw [bs_and]; rfl

theorem xorSign_head {r : Bytes} (h : StartsWith XorSign r) :
    r.head? = some 0x5E ∨ r.head? = some 0x58 := by
  obtain ⟨sg, r', rfl | rfl, rfl⟩ := h
  · left; rw [bs_hat]; rfl
  · right; rw [bs_xor]; rfl

theorem fAnd_head {r : Bytes} (h : FAnd r) : r = [] ∨ ∃ b, r.head? = some b ∧
    (b = 0x29 ∨ b = 0x7D ∨ b = 0x7C ∨ b = 0x5E ∨ b = 0x58 ∨ b = 0x26) := by
  rcases h with ((h | h) | h) | h
  · rcases h with h | h | h
    · exact .inl h
    · exact .inr ⟨_, h, by simp⟩
    · exact .inr ⟨_, h, by simp⟩
  · exact .inr ⟨_, orSign_head h, by simp⟩
  · rcases xorSign_head h with h | h <;> exact .inr ⟨_, h, by simp⟩
  · exact .inr ⟨_, andSign_head h, by simp⟩

theorem fAnd_noWs {r : Bytes} (h : FAnd r) : NoWs r := by
  rcases fAnd_head h with rfl | ⟨b, hb, h⟩
  · exact noWs_nil
  · intro c hc
    rw [hb] at hc
    cases hc
    rcases h with rfl | rfl | rfl | rfl | rfl | rfl <;> decide

/-- the operator parsers read their signs and fail on what follows -/
structure SynRuns {M : Type} (S : Syn M) : Prop where
  and_run : OpRuns S.opAnd (bs "&&")
  or_run : OpRuns S.opOr (bs "||")
  and_none : ∀ r, FXor r → S.opAnd r = none
  or_none : ∀ r, Stop r → S.opOr r = none
  or_none' : ∀ r, StartsWith XorSign r → S.opOr r = none

theorem pXorOp_run (sg : Bytes) (h : XorSign sg) : OpRuns pXorOp sg := by
  rcases h with rfl | rfl
  · refine ⟨by rw [bs_hat]; simp, fun r => ⟨r, ?_, rfl, Nat.le_refl _⟩⟩
    exact Parser.alt_left (Parser.lit_run _ _)
  · refine ⟨by rw [bs_xor]; simp, fun r => ⟨r, ?_, rfl, Nat.le_refl _⟩⟩
    unfold pXorOp
    rw [Parser.alt_right]
    · exact Parser.lit_run _ _
    · rw [bs_hat, bs_xor]; rfl

theorem pXorOp_none (r : Bytes) (h : FOr r) : pXorOp r = none := by
  have key : r.head? ≠ some 0x5E ∧ r.head? ≠ some 0x58 := by
    rcases h with h | h
    · exact ⟨stop_head h _ (by decide) (by decide), stop_head h _ (by decide) (by decide)⟩
    · rw [orSign_head h]; exact ⟨by decide, by decide⟩
  unfold pXorOp
  rw [Parser.alt_right]
  · rw [bs_xor]; exact Parser.lit_none_of_head key.2
  · rw [bs_hat]; exact Parser.lit_none_of_head key.1

section
variable {M : Type} {S : Syn M} {atoms : TParser M} {s : Levels}

/-- an operand -/
abbrev Atom (s : Levels) (atoms : TParser M) : Bytes → M → Prop := Opd s atoms FAnd

/-- `a1 && .. && an`, `n ≥ 2` -/
inductive Ands (S : Syn M) (s : Levels) (atoms : TParser M) : Bytes → M → Prop
  | mk {b m tl} : Atom s atoms b m → tl ≠ [] → (∀ l ∈ tl, LinkOk AndSign (Atom s atoms) l) →
      Ands S s atoms (b ++ linksText tl) (chainMat S.band m tl)

/-- a conjunction of one or more operands -/
def Conj (S : Syn M) (s : Levels) (atoms : TParser M) (b : Bytes) (m : M) : Prop :=
  Atom s atoms b m ∨ Ands S s atoms b m

/-- `c1 ^ .. ^ cn`, `n ≥ 2`; the first conjunction satisfies `P` -/
inductive Xors (S : Syn M) (s : Levels) (atoms : TParser M) (P : Bytes → M → Prop) :
    Bytes → M → Prop
  | mk {b m tl} : P b m → tl ≠ [] → (∀ l ∈ tl, LinkOk XorSign (Conj S s atoms) l) →
      Xors S s atoms P (b ++ linksText tl) (chainMat S.bxor m tl)

/-- the operands of `||` the parser handles: conjunctions and exclusive
disjunctions that start with a single operand -/
def Disj (S : Syn M) (s : Levels) (atoms : TParser M) (b : Bytes) (m : M) : Prop :=
  Conj S s atoms b m ∨ Xors S s atoms (Atom s atoms) b m

/-- `d1 || .. || dn`, `n ≥ 2` -/
inductive Ors (S : Syn M) (s : Levels) (atoms : TParser M) : Bytes → M → Prop
  | mk {b m tl} : Disj S s atoms b m → tl ≠ [] → (∀ l ∈ tl, LinkOk OrSign (Disj S s atoms) l) →
      Ors S s atoms (b ++ linksText tl) (chainMat S.bor m tl)

theorem LinkOk.mono {sign : Bytes → Prop} {P Q : Bytes → M → Prop} {l : Link M}
    (h : LinkOk sign P l) (hPQ : ∀ b m, P b m → Q b m) : LinkOk sign Q l :=
  ⟨h.sign, h.sp, hPQ _ _ h.body⟩

variable (hS : SynRuns S)
include hS

theorem andChain_none {b m rest} (h : Atom s atoms b m) (hr : FXor rest) :
    andChain S atoms s (b ++ rest) = (none, s) :=
  chain_none (h.tws' (.inl hr)) (hS.and_none _ hr)

theorem andChain_run {b m rest} (h : Ands S s atoms b m) (hr : FXor rest) :
    andChain S atoms s (b ++ rest) = (some (m, rest), s) := by
  obtain ⟨h1, h2, h3⟩ := h
  rw [List.append_assoc]
  exact chain_run (fun sg h => h ▸ hS.and_run) (fun r h => .inr h) h1 h2 h3 (.inl hr)
    (hS.and_none _ hr)

theorem Ands.opd {b m} {q : TParser M} (h : Ands S s atoms b m) :
    Opd s (TParser.alt (andChain S atoms) q) FXor b m := by
  refine ⟨fun rest hr => ⟨rest, TParser.alt_left (andChain_run hS h hr), ?_⟩, ?_, ?_⟩
  · exact dws_of_noWs (fAnd_noWs (.inl hr))
  · obtain ⟨h1, _, _⟩ := h; exact noWs_append h1.ne h1.noWs
  · obtain ⟨h1, _, _⟩ := h; simp [h1.ne]

/-- operands of `^` -/
theorem Conj.opd {b m} (h : Conj S s atoms b m) :
    Opd s (TParser.alt (andChain S atoms) atoms) FXor b m := by
  rcases h with h | h
  · refine ⟨fun rest hr => ?_, h.noWs, h.ne⟩
    rw [TParser.alt_right (andChain_none hS h hr)]
    exact h.ok rest (.inl hr)
  · exact h.opd hS

theorem xorChain_none {b m rest} (h : Conj S s atoms b m) (hr : FOr rest) :
    xorChain S atoms s (b ++ rest) = (none, s) :=
  chain_none ((h.opd hS).tws' (.inl hr)) (pXorOp_none _ hr)

theorem xorChain_run {b m rest} (h : Xors S s atoms (Conj S s atoms) b m) (hr : FOr rest) :
    xorChain S atoms s (b ++ rest) = (some (m, rest), s) := by
  obtain ⟨h1, h2, h3⟩ := h
  rw [List.append_assoc]
  exact chain_run (fun sg h => pXorOp_run sg h) (fun r h => .inr h) (h1.opd hS) h2
    (fun l hl => (h3 l hl).mono fun _ _ h => h.opd hS) (.inl hr) (pXorOp_none _ hr)

omit hS in
theorem xors_follow {tl : List (Link M)} {P : Bytes → M → Prop} (hne : tl ≠ [])
    (h : ∀ l ∈ tl, LinkOk XorSign P l) (rest : Bytes) :
    StartsWith XorSign (linksText tl ++ rest) := by
  cases tl with
  | nil => exact absurd rfl hne
  | cons l tl =>
    refine ⟨l.sign, l.sp ++ (l.body ++ (linksText tl ++ rest)), (h l (by simp)).sign, ?_⟩
    simp [linksText, Link.text]

/-- operands of `||` -/
theorem Disj.opd {b m} (h : Disj S s atoms b m) :
    Opd s (TParser.alt (andChain S atoms) (TParser.alt (xorChain S atoms) atoms)) FOr b m := by
  rcases h with (h | h) | h
  · refine ⟨fun rest hr => ?_, h.noWs, h.ne⟩
    rw [TParser.alt_right (andChain_none hS h (.inl hr)),
      TParser.alt_right (xorChain_none hS (.inl h) hr)]
    exact h.ok rest (.inl (.inl hr))
  · exact (h.opd hS).mono fun r hr => .inl hr
  · have h' : Xors S s atoms (Conj S s atoms) b m := by
      obtain ⟨h1, h2, h3⟩ := h; exact .mk (.inl h1) h2 h3
    refine ⟨fun rest hr => ⟨rest, ?_, dws_of_noWs (fAnd_noWs (.inl (.inl hr)))⟩, ?_, ?_⟩
    · rw [TParser.alt_right]
      · exact TParser.alt_left (xorChain_run hS h' hr)
      · obtain ⟨h1, h2, h3⟩ := h
        rw [List.append_assoc]
        exact andChain_none hS h1 (.inr (xors_follow h2 h3 rest))
    · obtain ⟨h1, _, _⟩ := h; exact noWs_append h1.ne h1.noWs
    · obtain ⟨h1, _, _⟩ := h; simp [h1.ne]

theorem orChain_none {b m rest} (h : Disj S s atoms b m) (hr : Stop rest) :
    orChain S atoms s (b ++ rest) = (none, s) :=
  chain_none ((h.opd hS).tws' (.inl hr)) (hS.or_none _ hr)

theorem orChain_run {b m rest} (h : Ors S s atoms b m) (hr : Stop rest) :
    orChain S atoms s (b ++ rest) = (some (m, rest), s) := by
  obtain ⟨h1, h2, h3⟩ := h
  rw [List.append_assoc]
  exact chain_run (fun sg h => h ▸ hS.or_run) (fun r h => .inr h) (h1.opd hS) h2
    (fun l hl => (h3 l hl).mono fun _ _ h => h.opd hS) (.inl hr) (hS.or_none _ hr)

/-- at an exclusive disjunction that starts with a proper conjunction `||`
stops -/
theorem orChain_none_xor {b m rest} (h : Xors S s atoms (Ands S s atoms) b m) :
    orChain S atoms s (b ++ rest) = (none, s) := by
  obtain ⟨h1, h2, h3⟩ := h
  rw [List.append_assoc]
  have hf := xors_follow h2 h3 rest
  exact chain_none ((h1.opd hS).tws' (.inr hf)) (hS.or_none' _ hf)

/-- the accepted chains: disjunctions of `Disj`s, and single exclusive
disjunctions of any kind -/
theorem composite_ors {b m rest} (h : Ors S s atoms b m) (hr : Stop rest) :
    composite S atoms s (b ++ rest) = (some (m, rest), s) :=
  TParser.alt_left (orChain_run hS h hr)

theorem composite_xors {b m rest} (h : Xors S s atoms (Conj S s atoms) b m) (hr : Stop rest) :
    composite S atoms s (b ++ rest) = (some (m, rest), s) := by
  have : orChain S atoms s (b ++ rest) = (none, s) := by
    obtain ⟨h1 | h1, h2, h3⟩ := h
    · exact orChain_none hS (.inr (.mk h1 h2 h3)) hr
    · exact orChain_none_xor hS (.mk h1 h2 h3)
  unfold composite
  rw [TParser.alt_right this]
  exact TParser.alt_left (xorChain_run hS h (.inl hr))

theorem composite_ands {b m rest} (h : Ands S s atoms b m) (hr : Stop rest) :
    composite S atoms s (b ++ rest) = (some (m, rest), s) := by
  unfold composite
  rw [TParser.alt_right (orChain_none hS (.inl (.inr h)) hr),
    TParser.alt_right (xorChain_none hS (.inr h) (.inl hr))]
  exact andChain_run hS h (.inl (.inl hr))

/-- a single operand is not a composite -/
theorem composite_atom {b m rest} (h : Atom s atoms b m) (hr : Stop rest) :
    composite S atoms s (b ++ rest) = (none, s) := by
  unfold composite
  rw [TParser.alt_right (orChain_none hS (.inl (.inl h)) hr),
    TParser.alt_right (xorChain_none hS (.inl h) (.inl hr))]
  exact andChain_none hS h (.inl (.inl hr))

/-! ### What is rejected -/

/-- the first operand of `||` is such a chain: the parser stops in front of the
first `||` -/
theorem composite_reject_first {b m rest} (h : Xors S s atoms (Ands S s atoms) b m)
    (hr : StartsWith OrSign rest) :
    composite S atoms s (b ++ rest) = (some (m, rest), s) := by
  unfold composite
  rw [TParser.alt_right (orChain_none_xor hS h)]
  refine TParser.alt_left (xorChain_run hS ?_ (.inr hr))
  obtain ⟨h1, h2, h3⟩ := h
  exact .mk (.inr h1) h2 h3

/-- a later operand of `||` is such a chain: the parser stops in front of its
first `^` -/
theorem composite_reject_later {b m} {pre : List (Link M)} {l : Link M}
    {tl : List (Link M)} {rest : Bytes} (hb : Disj S s atoms b m)
    (hpre : ∀ l ∈ pre, LinkOk OrSign (Disj S s atoms) l)
    (hl : LinkOk OrSign (Ands S s atoms) l) (hne : tl ≠ [])
    (htl : ∀ l ∈ tl, LinkOk XorSign (Conj S s atoms) l) :
    ∃ x, composite S atoms s (b ++ (linksText pre ++ (l.text ++ (linksText tl ++ rest)))) =
      (some (x, linksText tl ++ rest), s) := by
  have hf := xors_follow hne htl rest
  have run0 : LinksRun s (TParser.alt (andChain S atoms) (TParser.alt (xorChain S atoms) atoms))
      S.opOr (linksText tl ++ rest) [] (linksText tl ++ rest) := .nil (hS.or_none' _ hf)
  have run1 := LinksRun.link (sign := OrSign) (F := FXor) (fun sg h => h ▸ hS.or_run) hl
    (hl.body.opd hS) (.inr hf) run0
  have hfl : FOr (l.text ++ (linksText tl ++ rest)) :=
    .inr ⟨l.sign, l.sp ++ (l.body ++ (linksText tl ++ rest)), hl.sign, by simp [Link.text]⟩
  have run2 := LinksRun.links (sign := OrSign) (F := FOr) (fun sg h => h ▸ hS.or_run)
    (fun r h => .inr h) hfl run1 pre (fun l hl => (hpre l hl).mono fun _ _ h => h.opd hS)
  have hfo : FOr (linksText pre ++ (l.text ++ (linksText tl ++ rest))) :=
    linksText_follow (sign := OrSign) (fun r h => .inr h) hpre hfl
  refine ⟨_, TParser.alt_left (chain_of_run ((hb.opd hS).tws' hfo) run2 (by simp))⟩

end

end Pica
