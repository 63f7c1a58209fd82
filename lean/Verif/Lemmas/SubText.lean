import Verif.Lemmas.Lexical

/-! The simple subfield matchers: what the parser accepts has the meaning given
in `Spec/Atoms.lean`. -/

namespace Pica
open Spec Parser

/-! ## Truth values and quantifiers -/

theorem truth_of {b : Bool} {p : Prop} (h : b = true ↔ p) : some b = truth p := by
  unfold truth
  congr 1
  by_cases hp : p
  · rw [h.2 hp]; simp [hp]
  · cases b with
    | true => exact absurd (h.1 rfl) hp
    | false => simp [hp]

theorem truth_eq_true {p : Prop} : truth p = some true ↔ p := by simp [truth]
theorem truth_eq_false {p : Prop} : truth p = some false ↔ ¬ p := by simp [truth]
theorem truth_isSome {p : Prop} : (truth p).isSome = true := rfl
theorem truth_congr {p q : Prop} (h : p ↔ q) : truth p = truth q := by rw [propext h]

theorem anyP_some {α : Type} (f : α → Bool) (l : List α) :
    anyP (fun x => some (f x)) l = some (l.any f) := by
  induction l with
  | nil => rfl
  | cons x l ih =>
    rw [anyP]
    cases hx : f x <;> simp [hx, ih]

theorem allP_some {α : Type} (f : α → Bool) (l : List α) :
    allP (fun x => some (f x)) l = some (l.all f) := by
  induction l with
  | nil => rfl
  | cons x l ih =>
    rw [allP]
    cases hx : f x <;> simp [hx, ih]

theorem mem_pick {codes : Bytes} {S : ByteSet} (hS : SetOf codes S) {sf : List Subfield}
    {s : Subfield} : s ∈ SubSingle.pick codes sf ↔ s ∈ sf ∧ S s.code := by
  unfold SubSingle.pick
  rw [List.mem_filter]
  simp [hS s.code]

theorem run_truth {codes : Bytes} {S : ByteSet} (hS : SetOf codes S) (q : Quantifier)
    {f : Bytes → Bool} {P : Bytes → Prop} (hf : ∀ v, f v = true ↔ P v) (sf : List Subfield) :
    q.run (fun s => some (f s.value)) (SubSingle.pick codes sf) = truth (Quant q S P sf) := by
  cases q with
  | any =>
    simp only [Quantifier.run, anyP_some]
    apply truth_of
    rw [List.any_eq_true]
    simp only [mem_pick hS, hf, Quant, and_assoc]
  | all =>
    simp only [Quantifier.run, allP_some]
    apply truth_of
    rw [List.all_eq_true]
    simp only [mem_pick hS, hf, Quant, and_imp]

/-! ## Meaning of the checks -/

theorem fold_ci (E : Env) (o : Opts) (h : o.caseIgnore = true) (v : Bytes) : fold E o v = E.lower v := by
  simp [fold, h]
theorem fold_cs (E : Env) (o : Opts) (h : o.caseIgnore = false) (v : Bytes) : fold E o v = v := by
  simp [fold, h]

theorem compare_iff (E : Env) (o : Opts) (x v : Bytes) : SubSingle.compare E o x v = true ↔
    v.length = x.length ∧ fold E o v = fold E o x := by
  unfold SubSingle.compare
  cases h : o.caseIgnore with
  | true =>
    rw [fold_ci E o h, fold_ci E o h]
    by_cases hl : v.length = x.length
    · simp only [hl, bne_self_eq_false, Bool.false_eq_true, if_false, if_true, beq_iff_eq, true_and]
      exact eq_comm
    · simp [hl]
  | false =>
    rw [fold_cs E o h, fold_cs E o h]
    by_cases hl : v.length = x.length
    · simp only [hl, bne_self_eq_false, Bool.false_eq_true, if_false, beq_iff_eq, true_and]
      exact eq_comm
    · simp [hl]

theorem startsWith_iff (E : Env) (o : Opts) (x v : Bytes) :
    SubSingle.startsWith E o x v false = true ↔ ∃ z, fold E o v = fold E o x ++ z := by
  unfold SubSingle.startsWith
  have key : ∀ a b : Bytes, a.isPrefixOf b = true ↔ ∃ z, b = a ++ z := fun a b => by
    rw [List.isPrefixOf_iff_prefix]
    exact ⟨fun ⟨z, h⟩ => ⟨z, h.symm⟩, fun ⟨z, h⟩ => ⟨z, h.symm⟩⟩
  cases h : o.caseIgnore with
  | true => simp only [fold_ci E o h]; simpa using key _ _
  | false => simp only [fold_cs E o h]; simpa using key _ _

theorem endsWith_iff (E : Env) (o : Opts) (x v : Bytes) :
    SubSingle.endsWith E o x v false = true ↔ ∃ z, fold E o v = z ++ fold E o x := by
  unfold SubSingle.endsWith
  have key : ∀ a b : Bytes, a.isSuffixOf b = true ↔ ∃ z, b = z ++ a := fun a b => by
    rw [List.isSuffixOf_iff_suffix]
    exact ⟨fun ⟨z, h⟩ => ⟨z, h.symm⟩, fun ⟨z, h⟩ => ⟨z, h.symm⟩⟩
  cases h : o.caseIgnore with
  | true => simp only [fold_ci E o h]; simpa using key _ _
  | false => simp only [fold_cs E o h]; simpa using key _ _

theorem startsWith_invert (E : Env) (o : Opts) (x v : Bytes) :
    SubSingle.startsWith E o x v true = !SubSingle.startsWith E o x v false := by
  simp [SubSingle.startsWith]
theorem endsWith_invert (E : Env) (o : Opts) (x v : Bytes) :
    SubSingle.endsWith E o x v true = !SubSingle.endsWith E o x v false := by
  simp [SubSingle.endsWith]

theorem relCheck_some {E : Env} {o : Opts} {op : RelOp} (h : op.strOk = true) (x : Bytes) :
    ∃ f : Bytes → Bool, (∀ v, SubSingle.relCheck E o op x v = some (f v)) ∧
      ∀ v, f v = true ↔ RelHolds E o op x v := by
  cases op with
  | eq => exact ⟨_, fun _ => rfl, fun v => compare_iff E o x v⟩
  | ne =>
    refine ⟨_, fun _ => rfl, fun v => ?_⟩
    rw [Bool.not_eq_true', ← Bool.not_eq_true, compare_iff]; rfl
  | gt => cases h
  | ge => cases h
  | lt => cases h
  | le => cases h
  | startsWith => exact ⟨_, fun _ => rfl, fun v => startsWith_iff E o x v⟩
  | startsNotWith =>
    refine ⟨_, fun _ => rfl, fun v => ?_⟩
    rw [startsWith_invert, Bool.not_eq_true', ← Bool.not_eq_true, startsWith_iff]; rfl
  | endsWith => exact ⟨_, fun _ => rfl, fun v => endsWith_iff E o x v⟩
  | endsNotWith =>
    refine ⟨_, fun _ => rfl, fun v => ?_⟩
    rw [endsWith_invert, Bool.not_eq_true', ← Bool.not_eq_true, endsWith_iff]; rfl
  | similar => exact ⟨_, fun _ => rfl, fun v => Iff.rfl⟩

theorem containsStr_iff (h n : Bytes) : containsStr h n = true ↔ ∃ y z, h = y ++ n ++ z := by
  induction h with
  | nil =>
    simp only [containsStr, List.isEmpty_iff]
    constructor
    · rintro rfl; exact ⟨[], [], rfl⟩
    · rintro ⟨y, z, h⟩
      have := congrArg List.length h
      simp at this
      exact List.length_eq_zero_iff.1 (by omega)
  | cons b h ih =>
    rw [containsStr, Bool.or_eq_true, ih, List.isPrefixOf_iff_prefix]
    constructor
    · rintro (⟨z, hz⟩ | ⟨y, z, rfl⟩)
      · exact ⟨[], z, by simpa using hz.symm⟩
      · exact ⟨b :: y, z, by simp⟩
    · rintro ⟨y, z, hyz⟩
      cases y with
      | nil => left; exact ⟨z, by simpa using hyz.symm⟩
      | cons c y =>
        right
        simp only [List.cons_append, List.cons.injEq] at hyz
        exact ⟨y, z, hyz.2⟩

theorem containsCheck_iff (E : Env) (o : Opts) (xs : List Bytes) (v : Bytes) :
    SubSingle.containsCheck E o xs v = true ↔
      ∃ x ∈ xs, ∃ y z, fold E o v = y ++ fold E o x ++ z := by
  unfold SubSingle.containsCheck
  cases h : o.caseIgnore with
  | true => simp only [if_true, List.any_eq_true, containsStr_iff, fold_ci E o h]
  | false => simp [containsStr_iff, fold_cs E o h]

theorem inCheck_iff (E : Env) (o : Opts) (xs : List Bytes) (inv : Bool) (v : Bytes) :
    SubSingle.inCheck E o xs inv v = true ↔
      if inv then ∀ x ∈ xs, fold E o v ≠ fold E o x else ∃ x ∈ xs, fold E o v = fold E o x := by
  unfold SubSingle.inCheck
  cases h : o.caseIgnore with
  | true => cases inv <;> simp [fold_ci E o h]
  | false => cases inv <;> simp [fold_cs E o h]

theorem cardCheck_some {op : RelOp} (h : op.usizeOk = true) (m n : Nat) :
    SubSingle.cardCheck op m n = truth (NumHolds op m n) := by
  cases op <;> first | (apply truth_of; simp [NumHolds]; done) | cases h

theorem length_pick {codes : Bytes} {S : ByteSet} (hS : SetOf codes S) (sf : List Subfield) :
    (SubSingle.pick codes sf).length = countCodes S sf := by
  unfold SubSingle.pick countCodes
  congr 2
  funext s
  have := hS s.code
  by_cases h : S s.code
  · simp [h, this.2 h]
  · have h' : s.code ∉ codes := fun hc => h (this.1 hc)
    simp [h, h']

/-! ## The parsers -/

theorem strOk_iff {op : RelOp} : op.strOk = true ↔ StrOp op := by
  cases op <;> simp [RelOp.strOk, StrOp]

theorem usizeOk_iff {op : RelOp} : op.usizeOk = true ↔ NumOp op := by
  cases op <;> simp [RelOp.usizeOk, NumOp]

theorem pRelOp_reads : Reads pRelOp (fun op t => t = relSign op) := by
  have hb : ∀ op : RelOp, Reads (value op (lit (relSign op))) (fun x t => t = relSign x) := fun op =>
    ((Reads.lit (relSign op)).value op).mono (by rintro x t ⟨rfl, _, rfl⟩; rfl)
  unfold pRelOp
  refine ((hb .eq).alt ((hb .ne).alt ((hb .startsWith).alt ((hb .startsNotWith).alt
    ((hb .endsWith).alt ((hb .endsNotWith).alt ((hb .similar).alt ((hb .ge).alt ((hb .gt).alt
      ((hb .le).alt (hb .lt))))))))))).mono ?_
  rintro a t h
  simpa using h

theorem pQuantifier_reads : Reads pQuantifier (fun q t =>
    (q = .all ∧ t = bs "ALL") ∨ (q = .any ∧ t = bs "ANY")) := by
  unfold pQuantifier
  refine (((Reads.lit _).value _).alt ((Reads.lit _).value _)).mono ?_
  rintro q t (⟨rfl, _, rfl⟩ | ⟨rfl, _, rfl⟩) <;> simp

theorem multispace1_reads : Reads multispace1 (fun _ t => Ws t ∧ t ≠ []) :=
  (Reads.takeWhileM 1 isMultispace).mono (by
    rintro a t ⟨rfl, h1, h2⟩
    refine ⟨fun b hb => (isMultispace_iff b).1 (h2 b hb), ?_⟩
    rintro rfl; simp at h1)

theorem quant_reads : Reads (map Quantifier.orDefault (opt (ws pQuantifier)))
    (fun q t => QuantText false t q) :=
  (pQuantifier_reads.ws.opt.map _).mono (by
    rintro q t ⟨o, rfl, ⟨a, rfl, w, u, w', rfl, h1, h2, h3⟩ | ⟨rfl, rfl⟩⟩
    · rcases h2 with ⟨rfl, rfl⟩ | ⟨rfl, rfl⟩
      · exact .all h1 h3 (by simp)
      · exact .any h1 h3 (by simp)
    · exact .none)

theorem quant_sp_reads : Reads (map Quantifier.orDefault (opt (ws (terminated pQuantifier multispace1))))
    (fun q t => QuantText true t q) :=
  (((pQuantifier_reads.terminated multispace1_reads).ws).opt.map _).mono (by
    rintro q t ⟨o, rfl, ⟨a, rfl, w, u, w', rfl, h1, ⟨_, t1, t2, rfl, h2, h4, h5⟩, h3⟩ | ⟨rfl, rfl⟩⟩
    · rcases h2 with ⟨rfl, rfl⟩ | ⟨rfl, rfl⟩
      · have := QuantText.all (sp := true) h1 (ws_append h4 h3) (by simp [h5])
        simpa [Quantifier.orDefault] using this
      · have := QuantText.any (sp := true) h1 (ws_append h4 h3) (by simp [h5])
        simpa [Quantifier.orDefault] using this
    · exact .none)

theorem wsCodes_reads : Reads (ws pCodes) (fun cs t => ∃ S, Padded (CodesText · S) t ∧ SetOf cs S) :=
  pCodes_reads.ws.mono (by
    rintro cs t ⟨w, u, w', rfl, h1, ⟨S, h2, h3⟩, h4⟩
    exact ⟨S, ⟨w, u, w', rfl, h1, h2, h4⟩, h3⟩)

theorem Parser.Reads.padded {α : Type} {p : Parser α} {R : α → Bytes → Prop} (h : Reads p R) :
    Reads (Pica.ws p) (fun a t => Padded (R a) t) := h.ws

theorem wsByte_reads (b : Byte) : Reads (ws (byte b)) (fun _ t => Padded (· = [b]) t) :=
  (Reads.byte b).ws.mono (by
    rintro a t ⟨w, u, w', rfl, h1, ⟨_, rfl⟩, h2⟩
    exact ⟨w, [b], w', rfl, h1, rfl, h2⟩)

theorem separatedAux_reads {R : Bytes → Bytes → Prop} {p : Parser Bytes}
    (hp : Reads p (fun x t => R t x)) : ∀ n i xs r,
    separatedAux p (ws (byte 0x2C)) n i = some (xs, r) →
      ∃ t, i = t ++ r ∧ ((xs = [] ∧ t = []) ∨ ∃ s t', t = s ++ t' ∧ Sep s ∧ ItemsText R t' xs) := by
  intro n
  induction n with
  | zero =>
    intro i xs r h
    simp only [separatedAux, Option.some.injEq, Prod.mk.injEq] at h
    obtain ⟨rfl, rfl⟩ := h
    exact ⟨[], rfl, .inl ⟨rfl, rfl⟩⟩
  | succ n ih =>
    intro i xs r h
    rw [separatedAux] at h
    split at h
    · simp only [Option.some.injEq, Prod.mk.injEq] at h
      obtain ⟨rfl, rfl⟩ := h
      exact ⟨[], rfl, .inl ⟨rfl, rfl⟩⟩
    · rename_i u r1 hs
      split at h
      · simp only [Option.some.injEq, Prod.mk.injEq] at h
        obtain ⟨rfl, rfl⟩ := h
        exact ⟨[], rfl, .inl ⟨rfl, rfl⟩⟩
      · rename_i a r2 ha
        split at h
        · rename_i as r3 he
          simp only [Option.some.injEq, Prod.mk.injEq] at h
          obtain ⟨rfl, rfl⟩ := h
          obtain ⟨s, rfl, w, u, w', rfl, h1, rfl, h2⟩ := wsByte_reads _ _ _ _ hs
          obtain ⟨t1, rfl, h3⟩ := hp _ _ _ ha
          obtain ⟨t2, rfl, h4⟩ := ih _ _ _ he
          have hsep : Sep (w ++ [0x2C] ++ w') := ⟨w, w', rfl, h1, h2⟩
          rcases h4 with ⟨rfl, rfl⟩ | ⟨s', t', rfl, h5, h6⟩
          · exact ⟨w ++ [0x2C] ++ w' ++ t1, by simp, .inr ⟨_, t1, rfl, hsep, .one h3⟩⟩
          · refine ⟨w ++ [0x2C] ++ w' ++ (t1 ++ s' ++ t'), by simp, .inr ⟨_, _, rfl, hsep, ?_⟩⟩
            exact .more h3 h5 h6
        · simp at h

theorem separated1_reads {R : Bytes → Bytes → Prop} {p : Parser Bytes}
    (hp : Reads p (fun x t => R t x)) :
    Reads (separated1 p (ws (byte 0x2C))) (fun xs t => ItemsText R t xs) := by
  intro i xs r h
  unfold separated1 at h
  split at h
  · simp at h
  · rename_i a r1 ha
    split at h
    · rename_i as r2 he
      simp only [Option.some.injEq, Prod.mk.injEq] at h
      obtain ⟨rfl, rfl⟩ := h
      obtain ⟨t1, rfl, h1⟩ := hp _ _ _ ha
      obtain ⟨t2, rfl, h2⟩ := separatedAux_reads hp _ _ _ _ he
      rcases h2 with ⟨rfl, rfl⟩ | ⟨s, t', rfl, h3, h4⟩
      · exact ⟨t1, by simp, .one h1⟩
      · exact ⟨t1 ++ s ++ t', by simp, .more h1 h3 h4⟩
    · simp at h

theorem pBracketList_reads {R : Bytes → Bytes → Prop} {p : Parser Bytes}
    (hp : Reads p (fun x t => R t x)) :
    Reads (pBracketList p) (fun xs t => ListText R t xs) := by
  unfold pBracketList
  refine ((wsByte_reads 0x5B).delimited ((separated1_reads hp).terminated (wsByte_reads 0x2C).opt)
    (wsByte_reads 0x5D)).mono ?_
  rintro xs t ⟨_, _, t1, t2, t3, rfl, ⟨w1, _, w2, rfl, h1, rfl, h2⟩, ⟨_, t4, t5, rfl, h3, h4⟩,
    ⟨w3, _, w4, rfl, h5, rfl, h6⟩⟩
  refine ⟨w1, w2, t4, t5, w3, w4, by simp, h1, h2, h3, ?_, h5, h6⟩
  rcases h4 with ⟨_, _, w, _, w', rfl, h7, rfl, h8⟩ | ⟨_, rfl⟩
  · exact .inr ⟨w, w', rfl, h7, h8⟩
  · exact .inl rfl

theorem pRegexOp_reads : Reads pRegexOp (fun inv t => t = if inv then bs "!~" else bs "=~") := by
  unfold pRegexOp
  refine (((Reads.lit _).value _).alt ((Reads.lit _).value _)).mono ?_
  rintro q t (⟨rfl, _, rfl⟩ | ⟨rfl, _, rfl⟩) <;> simp

theorem regexText_reads (rx : Bytes → Bool) : Reads (verify rx pString) (fun x t => RegexText rx t x) :=
  pString_reads.verify rx

/-- decimal value, as computed by `str::parse` -/
theorem parse_fold (ds : Bytes) (k : Nat) :
    ds.foldl (fun n b => n * 10 + (b.toNat - 0x30)) k = ds.foldl (fun n b => 10 * n + (b.toNat - 48)) k := by
  induction ds generalizing k with
  | nil => rfl
  | cons d ds ih => simp only [List.foldl_cons]; rw [ih, Nat.mul_comm]

theorem parseUsize_eq_some {ds : Bytes} {n : Nat} :
    parseUsize ds = some n ↔ n = numVal ds ∧ numVal ds < 2 ^ 64 := by
  unfold parseUsize numVal
  rw [parse_fold]
  simp only
  split
  · rename_i h; simp only [Option.some.injEq]
    exact ⟨fun e => ⟨e.symm, h⟩, fun e => e.1.symm⟩
  · rename_i h; simp only [reduceCtorEq, false_iff]
    exact fun e => h e.2

theorem isDigit_iff' {b : Byte} : isDigit b = true ↔ 0x30 ≤ b ∧ b ≤ 0x39 := by simp [isDigit]

theorem pUsize_reads : Reads pUsize (fun n ds => ds ≠ [] ∧ (∀ b ∈ ds, 0x30 ≤ b ∧ b ≤ 0x39) ∧
    n = numVal ds ∧ numVal ds < 2 ^ 64) := by
  unfold pUsize
  refine ((Reads.takeWhileM 1 isDigit).verifyMap parseUsize).mono ?_
  rintro n ds ⟨_, ⟨rfl, h1, h2⟩, h3⟩
  obtain ⟨rfl, h4⟩ := parseUsize_eq_some.1 h3
  refine ⟨?_, fun b hb => isDigit_iff'.1 (h2 b hb), rfl, h4⟩
  rintro rfl; simp at h1

/-! ### Characters -/

theorem encodeChar_shape (c : Char) : ∃ b w, String.utf8EncodeChar c = b :: w ∧
    isCont b = false ∧ ∀ x ∈ w, isCont x = true := by
  have hv := c.valid
  have hv' : c.val.toNat < 0xD800 ∨ (0xDFFF < c.val.toNat ∧ c.val.toNat < 0x110000) := hv
  unfold String.utf8EncodeChar
  generalize c.val.toNat = v at hv'
  have hc : ∀ n, isCont (UInt8.ofNat (n % 64 + 128)) = true := fun n => by
    rw [isCont_iff, ofNat_toNat (by omega)]; omega
  have hn : ∀ n, n < 256 → (n < 128 ∨ 191 < n) → isCont (UInt8.ofNat n) = false := fun n h1 h2 => by
    cases h : isCont (UInt8.ofNat n) with
    | false => rfl
    | true => rw [isCont_iff, ofNat_toNat h1] at h; omega
  simp only
  split
  · exact ⟨_, [], rfl, hn _ (by omega) (by omega), by simp⟩
  · split
    · exact ⟨_, _, rfl, hn _ (by omega) (by omega), by
      intro x hx
      simp only [List.mem_cons, List.not_mem_nil, or_false] at hx
      subst hx; exact hc _⟩
    · split
      · exact ⟨_, _, rfl, hn _ (by omega) (by omega), by
      intro x hx
      simp only [List.mem_cons, List.not_mem_nil, or_false] at hx
      rcases hx with rfl | rfl <;> exact hc _⟩
      · exact ⟨_, _, rfl, hn _ (by omega) (by omega), by
      intro x hx
      simp only [List.mem_cons, List.not_mem_nil, or_false] at hx
      rcases hx with rfl | rfl | rfl <;> exact hc _⟩

/-- the first character starts with the first byte -/
theorem utf8Chars_head (b : Byte) (r : Bytes) : ∃ w cs, utf8Chars (b :: r) = (b :: w) :: cs := by
  rw [utf8Chars]
  split
  · exact ⟨[], [], rfl⟩
  · split
    · split
      · exact ⟨_, _, rfl⟩
      · exact ⟨[], _, rfl⟩
    · exact ⟨[], _, rfl⟩

theorem utf8Chars_block (b : Byte) (w r : Bytes) (hw : ∀ x ∈ w, isCont x = true)
    (hr : ∀ x, r.head? = some x → isCont x = false) :
    utf8Chars (b :: (w ++ r)) = (b :: w) :: utf8Chars r := by
  induction w generalizing b with
  | nil =>
    cases r with
    | nil => rfl
    | cons x r =>
      have hx := hr x rfl
      obtain ⟨w', cs, h⟩ := utf8Chars_head x r
      rw [List.nil_append, utf8Chars, h]
      simp [hx]
  | cons x w ih =>
    have := ih x (fun y hy => hw y (by simp [hy]))
    rw [List.cons_append, utf8Chars, this]
    simp [hw x (by simp)]

theorem utf8Chars_encode (cs : List Char) :
    utf8Chars (cs.flatMap String.utf8EncodeChar) = cs.map String.utf8EncodeChar := by
  induction cs with
  | nil => rfl
  | cons c cs ih =>
    obtain ⟨b, w, h1, _, h3⟩ := encodeChar_shape c
    rw [List.flatMap_cons, h1, List.map_cons, h1, ← ih, List.cons_append]
    apply utf8Chars_block _ _ _ h3
    cases cs with
    | nil => simp
    | cons d cs =>
      obtain ⟨b', w', h1', h2', _⟩ := encodeChar_shape d
      rw [List.flatMap_cons, h1']
      simp [h2']

theorem stringText_utf8 {t s : Bytes} (h : StringText t s) : IsUtf8 s := by
  cases h with
  | mk _ _ h => exact h

/-! ### Singletons -/

section singles
variable (rx : Bytes → Bool) (E : Env) (o : Opts)

theorem any_codes_truth {codes : Bytes} {S : ByteSet} (hS : SetOf codes S) :
    (fun sf : List Subfield => some (sf.any (fun s => codes.contains s.code))) =
      fun sf => truth (∃ s ∈ sf, S s.code) := by
  funext sf
  apply truth_of
  simp only [List.any_eq_true, List.contains_iff_mem, hS _]

theorem pSubExists_reads : Reads pSubExists (fun m t => ExistsText t (m.eval E o)) := by
  unfold pSubExists
  refine ((pCodes_reads.terminated (Reads.byte 0x3F)).withTaken.map _).mono ?_
  rintro m t ⟨⟨cs, raw⟩, rfl, ⟨_, t1, t2, rfl, ⟨S, h1, h2⟩, _, rfl⟩, _⟩
  have e : ([0x3F] : Bytes) = bs "?" := by decide +kernel
  rw [e]
  have : (SubSingle.exists cs raw).eval E o = fun sf => truth (∃ s ∈ sf, S s.code) := any_codes_truth h2
  rw [this]
  exact .mk h1

theorem existsText_subText {t v} (h : ExistsText t v) : SubText rx E o t v := by
  cases h with
  | mk h => exact .exists h

theorem pSubRelation_reads : Reads pSubRelation (fun m t => SubText rx E o t (m.eval E o)) := by
  unfold pSubRelation
  refine ((quant_sp_reads.seq (wsCodes_reads.seq ((pRelOp_reads.padded.verify _).seq
    pString_reads.padded))).withTaken.map _).mono ?_
  rintro m t ⟨⟨⟨q, cs, op, x⟩, raw⟩, rfl, ⟨t1, t2, rfl, h1, t3, t4, rfl, ⟨S, h2, h3⟩, t5, t6, rfl,
    ⟨h4, h5⟩, h6⟩, _⟩
  simp only at h1 h2 h3 h4 h5 h6 ⊢
  obtain ⟨f, hf, hf'⟩ := relCheck_some (E := E) (o := o) h5 x
  have : (SubSingle.relation q cs op x (trimAscii raw)).eval E o =
      fun sf => truth (Quant q S (RelHolds E o op x) sf) := by
    funext sf
    simp only [SubSingle.eval, hf]
    exact run_truth h3 q hf' sf
  rw [this]
  have := SubText.relation (rx := rx) (E := E) (o := o) h1 h2 h4 (strOk_iff.1 h5) h6
  simpa using this

theorem pSubContains_reads : Reads pSubContains (fun m t => SubText rx E o t (m.eval E o)) := by
  unfold pSubContains
  refine ((quant_reads.seq (wsCodes_reads.seq ((Reads.lit _).padded.seq
    ((pBracketList_reads pString_reads).alt (pString_reads.padded.map _))))).withTaken.map _).mono ?_
  rintro m t ⟨⟨⟨q, cs, u, xs⟩, raw⟩, rfl, ⟨t1, t2, rfl, h1, t3, t4, rfl, ⟨S, h2, h3⟩, t5, t6, rfl,
    h4, h5⟩, _⟩
  simp only at h1 h2 h3 h4 h5 ⊢
  have : (SubSingle.contains q cs xs raw).eval E o =
      fun sf => truth (Quant q S (fun v => ∃ x ∈ xs, ∃ y z, fold E o v = y ++ fold E o x ++ z) sf) := by
    funext sf
    exact run_truth h3 q (fun v => containsCheck_iff E o xs v) sf
  rw [this]
  have := SubText.contains (rx := rx) (E := E) (o := o) h1 h2 h4 h5
  simpa using this

theorem pSubIn_reads : Reads pSubIn (fun m t => SubText rx E o t (m.eval E o)) := by
  unfold pSubIn
  refine ((quant_reads.seq (wsCodes_reads.seq (((Reads.lit _).padded.opt.map _).seq
    ((Reads.lit _).padded.preceded
      ((pBracketList_reads pString_reads).alt (pString_reads.verifyMap charsOf)))))).withTaken.map _).mono ?_
  rintro m t ⟨⟨⟨q, cs, inv, xs⟩, raw⟩, rfl, ⟨t1, t2, rfl, h1, t3, t4, rfl, ⟨S, h2, h3⟩, t5, t6, rfl,
    ⟨on, h4, h5⟩, _, t7, t8, rfl, h6, h7⟩, _⟩
  simp only at h1 h2 h3 h4 h5 h6 h7 ⊢
  have hn : (inv = false ∧ t5 = []) ∨ (inv = true ∧ Padded (· = bs "not") t5) := by
    rcases h5 with ⟨a, rfl, h5⟩ | ⟨rfl, rfl⟩
    · exact .inr ⟨h4, h5⟩
    · exact .inl ⟨h4, rfl⟩
  have hv : ListText StringText t8 xs ∨ ∃ cs : List Char, 1 < cs.length ∧
      xs = cs.map String.utf8EncodeChar ∧ StringText t8 xs.flatten := by
    rcases h7 with h7 | ⟨s, h8, h9⟩
    · exact .inl h7
    · obtain ⟨chars, rfl⟩ := stringText_utf8 h8
      unfold charsOf at h9
      rw [utf8Chars_encode] at h9
      split at h9
      · rename_i hl
        cases h9
        refine .inr ⟨chars, by simpa using hl, rfl, ?_⟩
        rw [← List.flatMap_def]; exact h8
      · cases h9
  have : (SubSingle.isIn q cs xs inv raw).eval E o = fun sf =>
      truth (Quant q S (fun v =>
        if inv then ∀ x ∈ xs, fold E o v ≠ fold E o x else ∃ x ∈ xs, fold E o v = fold E o x) sf) := by
    funext sf
    exact run_truth h3 q (fun v => inCheck_iff E o xs inv v) sf
  rw [this]
  have := SubText.isIn (rx := rx) (E := E) (o := o) h1 h2 hn h6 hv
  simpa using this

theorem rx_run {f : Option (Bytes → Bool)} {codes : Bytes} {S : ByteSet} (hS : SetOf codes S)
    (q : Quantifier) (inv : Bool) (sf : List Subfield) :
    (match f with
      | none => none
      | some f => q.run (fun s => some (if inv then !f s.value else f s.value))
          (SubSingle.pick codes sf)) = rxDen f q S inv sf := by
  cases f with
  | none => rfl
  | some f =>
    refine run_truth (f := fun v => if inv then !f v else f v) hS q ?_ sf
    intro v
    cases inv <;> simp

theorem pSubRegex_reads : Reads (pSubRegex rx) (fun m t => SubText rx E o t (m.eval E o)) := by
  unfold pSubRegex
  refine ((quant_reads.seq (wsCodes_reads.seq (pRegexOp_reads.padded.seq
    (regexText_reads rx)))).withTaken.map _).mono ?_
  rintro m t ⟨⟨⟨q, cs, inv, x⟩, raw⟩, rfl, ⟨t1, t2, rfl, h1, t3, t4, rfl, ⟨S, h2, h3⟩, t5, t6, rfl,
    h4, h5⟩, _⟩
  simp only at h1 h2 h3 h4 h5 ⊢
  have : (SubSingle.regex q cs x inv raw).eval E o = rxDen (E.regex o.caseIgnore x) q S inv := by
    funext sf
    rw [← rx_run h3]; rfl
  rw [this]
  have := SubText.regex (rx := rx) (E := E) (o := o) h1 h2 h4 h5
  simpa using this

theorem pSubRegexSet_reads : Reads (pSubRegexSet rx) (fun m t => SubText rx E o t (m.eval E o)) := by
  unfold pSubRegexSet
  refine ((quant_reads.seq (wsCodes_reads.seq (pRegexOp_reads.padded.seq
    (pBracketList_reads (regexText_reads rx))))).withTaken.map _).mono ?_
  rintro m t ⟨⟨⟨q, cs, inv, xs⟩, raw⟩, rfl, ⟨t1, t2, rfl, h1, t3, t4, rfl, ⟨S, h2, h3⟩, t5, t6, rfl,
    h4, h5⟩, _⟩
  simp only at h1 h2 h3 h4 h5 ⊢
  have : (SubSingle.regexSet q cs xs inv raw).eval E o = rxDen (E.regexSet o.caseIgnore xs) q S inv := by
    funext sf
    rw [← rx_run h3]; rfl
  rw [this]
  have := SubText.regexSet (rx := rx) (E := E) (o := o) h1 h2 h4 h5
  simpa using this

theorem pSubCard_reads : Reads pSubCard (fun m t => SubText rx E o t (m.eval E o)) := by
  unfold pSubCard
  refine (((wsByte_reads 0x23).preceded (wsCodes_reads.seq ((pRelOp_reads.padded.verify _).seq
    pUsize_reads))).withTaken.map _).mono ?_
  rintro m t ⟨⟨⟨cs, op, n⟩, raw⟩, rfl, ⟨_, t1, t2, rfl, h1, t3, t4, rfl, ⟨S, h2, h3⟩, t5, t6, rfl,
    ⟨h4, h5⟩, h6, h7, h8, h9⟩, _⟩
  simp only at h1 h2 h3 h4 h5 h6 h7 h8 h9 ⊢
  have e : ([0x23] : Bytes) = bs "#" := by decide +kernel
  rw [e] at h1
  have : (SubSingle.card cs op n raw).eval E o = fun sf =>
      truth (NumHolds op (countCodes S sf) (numVal t6)) := by
    funext sf
    simp only [SubSingle.eval]
    rw [cardCheck_some h5, length_pick h3, h8]
  rw [this]
  have := SubText.card (rx := rx) (E := E) (o := o) h1 h2 h4 (usizeOk_iff.1 h5) h6 h7 h9
  simpa using this

theorem pSubSingle_reads : Reads (pSubSingle rx) (fun m t => SubText rx E o t (m.eval E o)) := by
  unfold pSubSingle
  refine ((pSubRelation_reads rx E o).alt ((pSubContains_reads rx E o).alt ((pSubIn_reads rx E o).alt
    ((pSubExists_reads E o).alt ((pSubCard_reads rx E o).alt ((pSubRegexSet_reads rx E o).alt
      (pSubRegex_reads rx E o))))))).mono ?_
  rintro m t (h | h | h | h | h | h | h) <;> first | exact h | exact existsText_subText rx E o h

end singles

end Pica
