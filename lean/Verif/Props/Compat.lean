import Verif.Lemmas.Dollar

/-! C91: the crate feature `compat` adds the `$` of PICA Path and changes nothing else. -/

namespace Pica
namespace Props
open Parser Spec

/-- no group is open -/
private def s0 : Levels := ⟨0, 0, 0⟩
/-- every pattern is a regular expression -/
private def ok : Bytes → Bool := fun _ => true

/-- the codes `ab` -/
private theorem ab : DollarAs [0x61, 0x62] ([0x5B] ++ [0x61, 0x62] ++ [0x5D]) :=
  .list _ (by simp) fun b hb => code_iff.1 (by
    rcases List.mem_cons.1 hb with rfl | hb
    · rfl
    · obtain rfl := List.mem_singleton.1 hb
      rfl)

private theorem got {α β : Type} (x : Option α × β) (h : x.1.isSome) : x = (some (x.1.get h), x.2) :=
  Prod.ext (Option.some_get h).symm rfl

private theorem noSpace : Ws [] := by simp [Ws]
private theorem oneSpace : Ws [0x20] := by simp [Ws]

/-! ## Nothing is taken away -/

private theorem keep {α : Type} {p p' q : TParser α} {s s' : Levels} {t : Bytes} {m : α}
    (h1 : CSame (fun j => Lex t j) p q) (h2 : CSame (fun i => Lex i []) p p')
    (h : TParser.parseAll p s t = (some m, s')) : TParser.parseAll p' s t = (some m, s') := by
  have hp := TParser.parseAll_eq_some.1 h
  have hl : Lex t [] := (h1 t (.refl t) s).2 m [] (by rw [hp])
  rw [h2.parseAll hl, h]

/-- **C91.** A matcher accepted without the feature is accepted with it, and is the same matcher. -/
theorem C91_field (rx : Bytes → Bool) (s s' : Levels) (text : Bytes) (m : FieldMatcher)
    (h : FieldMatcher.new rx s text = (some m, s')) : Compat.newField true rx s text = (some m, s') :=
  keep (same_fieldMatcher (noDollar_from text) rx) (same_fieldMatcher (noDollar_tokens true) rx) h

/-- a matcher with `$` in a string and in a prefix test -/
example := C91_field ok s0 s0 (bs "003@.0 == 'a$b' && (!012A/01.x? || 041A.[ab] !^ '$')")
  ((FieldMatcher.new ok s0 (bs "003@.0 == 'a$b' && (!012A/01.x? || 041A.[ab] !^ '$')")).1.get (by decide +kernel)) (by decide +kernel)

/-- **C91.** The same for matchers of subfields. -/
theorem C91_sub (rx : Bytes → Bool) (s s' : Levels) (text : Bytes) (m : SubMatcher)
    (h : SubMatcher.new rx s text = (some m, s')) : Compat.newSub true rx s text = (some m, s') :=
  keep (same_subMatcher (noDollar_from text) rx) (same_subMatcher (noDollar_tokens true) rx) h

example := C91_sub ok s0 s0 (bs "a =$ 'b$' && (c? || #d > 1)")
  ((SubMatcher.new ok s0 (bs "a =$ 'b$' && (c? || #d > 1)")).1.get (by decide +kernel)) (by decide +kernel)

/-- **C91.** The same for paths. -/
theorem C91_path (rx : Bytes → Bool) (s s' : Levels) (text : Bytes) (p : Path)
    (h : Path.new rx s text = (some p, s')) : Compat.newPath true rx s text = (some p, s') :=
  keep (same_path (noDollar_from text) rx) (same_path (noDollar_tokens true) rx) h

example := C91_path ok s0 s0 (bs "041A/01-10{(a, [bc]) | d == '$'}")
  ((Path.new ok s0 (bs "041A/01-10{(a, [bc]) | d == '$'}")).1.get (by decide +kernel)) (by decide +kernel)

/-- **C91.** The same for formats. -/
theorem C91_format (rx : Bytes → Bool) (s s' : Levels) (text : Bytes) (f : Format)
    (h : Format.new rx s text = (some f, s')) : Compat.newFormat true rx s text = (some f, s') :=
  keep (same_format (noDollar_from text) rx) (same_format (noDollar_tokens true) rx) h

example := C91_format ok s0 _ (bs "028A{ (a <$> ', ' d) | 4 == '$'}") _ (got (Format.new ok s0 (bs "028A{ (a <$> ', ' d) | 4 == '$'}")) (by decide +kernel))

/-- **C91.** The same for queries. -/
theorem C91_query (rx : Bytes → Bool) (s s' : Levels) (text : Bytes) (q : Query)
    (h : Query.new rx s text = (some q, s')) : Compat.newQuery true rx s text = (some q, s') :=
  keep (same_query (noDollar_from text) rx) (same_query (noDollar_tokens true) rx) h

example := C91_query ok s0 _ (bs "003@.0, '$', 028A{a <$> d}") _ (got (Query.new ok s0 (bs "003@.0, '$', 028A{a <$> d}")) (by decide +kernel))

/-- **C91.** A text without `$` is read in the same way with and without the feature, also if it is
rejected. -/
theorem C91_without (c : Bool) (rx : Bytes → Bool) (s : Levels) (text : Bytes) (h : (0x24 : Byte) ∉ text) :
    Compat.newField c rx s text = FieldMatcher.new rx s text ∧
    Compat.newSub c rx s text = SubMatcher.new rx s text ∧
    Compat.newPath c rx s text = Path.new rx s text ∧
    Compat.newFormat c rx s text = Format.new rx s text ∧
    Compat.newQuery c rx s text = Query.new rx s text :=
  ⟨(same_fieldMatcher (noDollar_none c) rx).parseAll h s, (same_subMatcher (noDollar_none c) rx).parseAll h s,
    (same_path (noDollar_none c) rx).parseAll h s, (same_format (noDollar_none c) rx).parseAll h s,
    (same_query (noDollar_none c) rx).parseAll h s⟩

example := C91_without true ok s0 (bs "003@{0 == 'abc' && a?}") (by decide +kernel)

/-- **C91.** Without the feature every text is read as the other claims say. -/
theorem C91_off (rx : Bytes → Bool) (s : Levels) (text : Bytes) :
    Compat.newField false rx s text = FieldMatcher.new rx s text ∧
    Compat.newSub false rx s text = SubMatcher.new rx s text ∧
    Compat.newPath false rx s text = Path.new rx s text ∧
    Compat.newFormat false rx s text = Format.new rx s text ∧
    Compat.newQuery false rx s text = Query.new rx s text := by
  have h := noDollar_from text
  have g := Lex.refl text
  exact ⟨(same_fieldMatcher h rx).parseAll g s, (same_subMatcher h rx).parseAll g s,
    (same_path h rx).parseAll g s, (same_format h rx).parseAll g s, (same_query h rx).parseAll g s⟩

/-- the feature makes a difference -/
example : (FieldMatcher.new ok s0 (bs "003@$0 == '0123456789X'")).1 = none ∧
    (Compat.newField true ok s0 (bs "003@$0 == '0123456789X'")).1 =
      some (.single (.subfields .any (.tag (bs "003@")) .none
        (.single (.relation .any (bs "0") .eq (bs "0123456789X") (bs "0 == '0123456789X'")))
        (bs "003@$0 == '0123456789X'"))) := by
  decide +kernel

/-! ## What `$` means -/

/-- **C91.** `003@$ab` is the path `003@.[ab]`, and `003@$*` is `003@.*`; there may be white space around
the `$` and at both ends. -/
theorem C91_path_dollar (rx : Bytes → Bool) (s : Levels) (t o u d w0 w1 w2 w3 : Bytes) (tm : TagMatcher)
    (om : OccMatcher) (ht : TagMatcher.new t = some tm) (ho : OccMatcher.new o = some om) (hu : DollarAs u d)
    (h0 : Ws w0) (h1 : Ws w1) (h2 : Ws w2) (h3 : Ws w3) :
    ∃ p p', Compat.newPath true rx s (w0 ++ (t ++ (o ++ (w1 ++ 0x24 :: (w2 ++ (u ++ w3)))))) = (some p, s) ∧
      Path.new rx s (t ++ (o ++ 0x2E :: d)) = (some p', s) ∧ p.parts = p'.parts ∧
      ∀ E op r, p.values E op r = p'.values E op r := by
  obtain ⟨cs, g1, g2, g3⟩ := pDollar_run hu
  have hn := (tagText_noWs ht (o ++ (w1 ++ 0x24 :: (w2 ++ (u ++ w3))))).1
  have e3 : dws w3 = [] := by rw [show w3 = w3 ++ [] by simp, dws_append h3]; rfl
  have hend : CodesEnd w3 := by
    have := codesEnd_ws h3 (r := []) (by simp [CodesEnd]); rwa [List.append_nil] at this
  have hd := g1 w1 w2 w3 h1 h2 hend
  rw [e3] at hd
  have hdot : byte 0x2E (w1 ++ 0x24 :: (w2 ++ (u ++ w3))) = none := by
    refine byte_none_of_head ?_
    cases w1 with
    | nil => simp
    | cons b w =>
      rcases h1 b List.mem_cons_self with rfl | rfl | rfl | rfl <;> simp
  have a1 : Compat.newPath true rx s (w0 ++ (t ++ (o ++ (w1 ++ 0x24 :: (w2 ++ (u ++ w3)))))) =
      (some ⟨tm, om, none, [cs], w0 ++ (t ++ (o ++ (w1 ++ 0x24 :: (w2 ++ (u ++ w3)))))⟩, s) := by
    refine TParser.parseAll_eq_some.2 (TParser.alt_left (TParser.lift_run ?_))
    refine map_run (a := ((tm, om, cs), _)) (withTaken_run (r := []) ?_ (by simp))
    have := ws_run' (p := seq pTagMatcher (seq pOccMatcher (alt (preceded (byte 0x2E) pCodes) (Compat.pDollar true))))
      (i := w0 ++ (t ++ (o ++ (w1 ++ 0x24 :: (w2 ++ (u ++ w3)))))) (a := (tm, om, cs)) (r := []) (by
        rw [dws_append_noWs h0 hn]
        refine seq_run (pTagMatcher_follow ht) (seq_run (pOccMatcher_follow ho
          (occStop_ws h1 (OccStop.cons (by decide)))) ?_)
        rw [alt_right (preceded_none hdot)]
        exact hd)
    exact this
  have a2 : Path.new rx s (t ++ (o ++ 0x2E :: d)) = (some ⟨tm, om, none, [cs], t ++ (o ++ 0x2E :: d)⟩, s) := by
    refine TParser.parseAll_eq_some.2 (TParser.alt_left (TParser.lift_run ?_))
    refine map_run (a := ((tm, om, cs), _)) (withTaken_run (r := []) ?_ (by simp))
    have := ws_run' (p := seq pTagMatcher (seq pOccMatcher (preceded (byte 0x2E) pCodes)))
      (i := t ++ (o ++ 0x2E :: d)) (a := (tm, om, cs)) (r := []) (by
        rw [dws_of_noWs (tagText_noWs ht _).1]
        refine seq_run (pTagMatcher_follow ht) (seq_run (pOccMatcher_follow ho (OccStop.cons (by decide)))
          (preceded_run (byte_cons_self _ _) ?_))
        simpa using g2 [])
    exact this
  exact ⟨_, _, a1, a2, rfl, fun _ _ _ => rfl⟩

/-- ` 003@ $ab ` -/
example := C91_path_dollar ok s0 (bs "003@") [] _ _ [0x20] [0x20] [] [0x20] (.tag (bs "003@")) .none
  (by decide +kernel) (by decide +kernel) ab oneSpace oneSpace noSpace oneSpace

example := C91_path_dollar ok s0 (bs "003@") [] _ _ [] [] [] [] (.tag (bs "003@")) .none
  (by decide +kernel) (by decide +kernel) .all noSpace noSpace noSpace noSpace

/-- the lists of codes of the tests, parser.rs:296-340 -/
example : parseAll Compat.pCodeListCompat (bs "ab") = some (bs "ab") ∧
    parseAll Compat.pCodeListCompat (bs "aabc") = some (bs "aabc") ∧
    parseAll Compat.pCodesCompat (bs "a") = some (bs "a") ∧
    parseAll Compat.pCodesCompat (bs "abc") = some (bs "abc") := by
  decide +kernel

/-- **C91.** In braces `$ab, $c` stands for `[ab], [c]`: whatever follows the codes, both texts are accepted
or rejected together, with the same parts. -/
theorem C91_path_braces (rx : Bytes → Bool) (s : Levels) (t o w l l' x : Bytes) (tm : TagMatcher) (om : OccMatcher)
    (ht : TagMatcher.new t = some tm) (ho : OccMatcher.new o = some om) (hw : Ws w) (hl : DollarList l l')
    (hx : CodesEnd x) (hx' : ∀ w' y, Ws w' → x ≠ w' ++ 0x2C :: y) :
    (Compat.newPath true rx s (t ++ (o ++ 0x7B :: (w ++ (l ++ x))))).2 =
      (Compat.newPath true rx s (t ++ (o ++ 0x7B :: (w ++ (l' ++ x))))).2 ∧
    (Compat.newPath true rx s (t ++ (o ++ 0x7B :: (w ++ (l ++ x))))).1.map Path.parts =
      (Compat.newPath true rx s (t ++ (o ++ 0x7B :: (w ++ (l' ++ x))))).1.map Path.parts := by
  have hx2 : (dws x).head? ≠ some 0x2C := by
    intro hh
    cases e : dws x with
    | nil => rw [e] at hh; simp at hh
    | cons b y =>
      rw [e] at hh
      obtain rfl : b = 0x2C := by simpa using hh
      refine hx' (x.takeWhile isMultispace) y (fun b hb => ?_) ?_
      · exact (isMultispace_iff b).1 (mem_takeWhile hb)
      · rw [← e]; exact (List.takeWhile_append_dropWhile ..).symm
  obtain ⟨css, h⟩ := braces_same ht ho hw hl hx hx2 rx s
  obtain ⟨h1, h2⟩ := h l (.inl rfl)
  obtain ⟨h3, h4⟩ := h l' (.inr rfl)
  have key : ∀ {i}, Compat.pPathSimple true i = none →
      Compat.newPath true rx s i = TParser.parseAll (Compat.pPathCurly true rx) s i := by
    intro i hi
    unfold Compat.newPath TParser.parseAll Compat.pPath
    rw [TParser.alt_right (TParser.lift_none hi)]
  rw [key h2, key h4]
  exact curly_same (h1.trans h3.symm) rfl

/-- `003@{ $ab, $* | $4 == 'nafr'}` -/
example := C91_path_braces ok s0 (bs "003@") [] [0x20] _ _ (0x20 :: bs "| $4 == 'nafr'}") (.tag (bs "003@")) .none
  (by decide +kernel) (by decide +kernel) oneSpace (.more ab noSpace oneSpace noSpace oneSpace (.one .all))
  (codesEnd_cons (by decide)) (by
    have e : bs "| $4 == 'nafr'}" = 0x7C :: bs " $4 == 'nafr'}" := by decide +kernel
    rw [e]
    intro w y hw h
    have := congrArg dws h
    rw [dws_append_noWs hw (noWs_cons.2 (by decide))] at this
    have h2 : dws (0x20 :: 0x7C :: bs " $4 == 'nafr'}") = 0x7C :: bs " $4 == 'nafr'}" := by decide +kernel
    rw [h2] at this
    simp at this)

/-- the queries of tests/select/mod.rs:927-963 -/
example : (Compat.newQuery true ok s0 (bs "003@ $0,002@$0")).1.isSome ∧
    (Compat.newQuery true ok s0 (bs "003@$0,028@{ $d, $a | $4 == 'nafr'}")).1.isSome ∧
    (Compat.newQuery true ok s0 (bs "003@$0,028@{ ($d, $a) | $4 == 'nafr'}")).1.isSome ∧
    (Query.new ok s0 (bs "003@ $0,002@$0")).1 = none := by
  decide +kernel

/-- **C91.** In front of a comparison or of a search `$ab` stands for `[ab]`. -/
theorem C91_sub_dollar_partial (rx : Bytes → Bool) (s : Levels) (tq u d y : Bytes) (q : Quantifier) (k : SubKind)
    (m : SubSingle) (hq : QuantText true tq q) (hl : Unled tq) (hu : DollarAs u d) (hy : CodesEnd y)
    (hk : k = .relation ∨ k = .contains) (hm : k.new rx (tq ++ (d ++ y)) = some m) :
    ∃ m', Compat.newSub true rx s (tq ++ 0x24 :: (u ++ y)) = (some (.single m'), { s with sub := 0 }) ∧
      ∀ E op l, m'.eval E op l = m.eval E op l := by
  obtain ⟨m', h1, h2⟩ := dollar_single hq hu hy hk (parseAll_eq_some.1 hm)
  have hh := dollar_head (r := u ++ y) hq hl
  exact ⟨m', compatSub_single s hh.1 hh.2 h1, h2⟩

/-- `ALL $ab == 'x'` -/
example := C91_sub_dollar_partial ok s0 (bs "ALL ") _ _ (0x20 :: bs "== 'x'") .all .relation
  ((SubKind.new ok .relation (bs "ALL [ab] == 'x'")).get (by decide +kernel))
  (by
    have e : bs "ALL " = [] ++ bs "ALL" ++ [0x20] := by decide +kernel
    rw [e]; exact .all noSpace oneSpace (by simp))
  (by
    have e : bs "ALL " = 0x41 :: bs "LL " := by decide +kernel
    rw [e]; intro b hb hw
    obtain rfl : 0x41 = b := by simpa using hb
    simp [IsWs] at hw)
  ab (codesEnd_cons (by decide)) (.inl rfl) (by decide +kernel)

/-- **C91.** Nowhere else: a matcher of one kind that begins with `$` is a comparison or a search. -/
theorem C91_sub_only (rx : Bytes → Bool) (tq u d y : Bytes) (q : Quantifier) (m' : SubSingle)
    (hq : QuantText true tq q) (hu : DollarAs u d) (hy : CodesEnd y)
    (hm : parseAll (Compat.pSubSingle true rx) (tq ++ 0x24 :: (u ++ y)) = some m') :
    ∃ k m, (k = SubKind.relation ∨ k = .contains) ∧ k.new rx (tq ++ (d ++ y)) = some m ∧
      ∀ E op l, m'.eval E op l = m.eval E op l := by
  obtain ⟨k, m, h1, h2, h3⟩ := dollar_single_inv hq hu hy (parseAll_eq_some.1 hm)
  exact ⟨k, m, h1, parseAll_eq_some.2 h2, h3⟩

/-- `$ab =? 'x'` -/
example := C91_sub_only ok [] _ _ (0x20 :: bs "=? 'x'") .any
  ((parseAll (Compat.pSubSingle true ok) (bs "$ab =? 'x'")).get (by decide +kernel)) .none ab
  (codesEnd_cons (by decide)) (by decide +kernel)

/-- **C91.** After tag and occurrence `$` stands for the dot: what may follow the dot may follow `$`, with the
same meaning. -/
theorem C91_field_dollar_partial (rx : Bytes → Bool) (s : Levels) (tq t o x : Bytes) (q : Quantifier)
    (sel : Field → Prop) (m : SubSingle) (hq : QuantText false tq q) (hu : Unled tq) (h : Selects t o sel)
    (hx : parseAll (Compat.pSubSingle true rx) x = some m) :
    ∃ a b, Compat.newField true rx s (tq ++ (t ++ (o ++ 0x24 :: x))) = (some a, { s with fld := 0 }) ∧
      Compat.newField true rx s (tq ++ (t ++ (o ++ 0x2E :: x))) = (some b, { s with fld := 0 }) ∧
      ∀ E op, a.eval E op = FQuant q sel (m.eval E op) ∧ b.eval E op = FQuant q sel (m.eval E op) := by
  obtain ⟨tm, om, raw, raw', rfl, h1, h2⟩ := field_dollar hq hu h (parseAll_eq_some.1 hx) s
  refine ⟨_, _, h1, h2, fun E op => ⟨?_, ?_⟩⟩ <;>
  · rw [FieldMatcher.eval_single, run_fquant, SubMatcher.eval_single]

/-- `003@/*$0 in ['a', 'b']` -/
example := C91_field_dollar_partial ok s0 [] (bs "003@") (bs "/*") (bs "0 in ['a', 'b']") .any _
  ((parseAll (Compat.pSubSingle true ok) (bs "0 in ['a', 'b']")).get (by decide +kernel)) .none (by simp [Unled])
  ⟨.tag (bs "003@"), .any, by decide +kernel, by decide +kernel, rfl⟩ (by decide +kernel)

/-- **C91.** In the braces of a field a comparison or a search may begin with `$`: the matcher
`041A{$ab == 'x'}` is `041A{[ab] == 'x'}`. -/
theorem C91_field_braces_partial (rx : Bytes → Bool) (s : Levels) (tq t o tr u d y : Bytes) (q qs : Quantifier)
    (sel : Field → Prop) (k : SubKind) (m : SubSingle) (hq : QuantText false tq q) (hu : Unled tq)
    (h : Selects t o sel) (hr : QuantText true tr qs) (hl : Unled tr) (hd : DollarAs u d)
    (hy : CodesEnd (y ++ [0x7D])) (hk : k = .relation ∨ k = .contains)
    (hm : k.parser rx (tr ++ (d ++ (y ++ [0x7D]))) = some (m, [0x7D])) (hs : s.sub = 0) :
    ∃ a, Compat.newField true rx s (tq ++ (t ++ (o ++ 0x7B :: (tr ++ 0x24 :: (u ++ (y ++ [0x7D])))))) =
        (some a, { s with fld := 0 }) ∧
      ∀ E op, a.eval E op = FQuant q sel (fun l => m.eval E op l) := by
  obtain ⟨m', h1, h2⟩ := dollar_single hr hd hy hk hm
  obtain ⟨n1, n2⟩ := dollar_head (r := u ++ (y ++ [0x7D])) hr hl
  have e : tr ++ 0x24 :: (u ++ (y ++ [0x7D])) = (tr ++ 0x24 :: (u ++ y)) ++ [0x7D] := by simp
  rw [e] at h1 n1 n2 ⊢
  obtain ⟨tm, om, raw, rfl, h3⟩ := field_braces hq hu h n1 n2 h1 s hs
  refine ⟨_, h3, fun E op => ?_⟩
  have e2 : (fun l => m.eval E op l) = m'.eval E op := funext fun l => (h2 E op l).symm
  rw [e2, FieldMatcher.eval_single, run_fquant, SubMatcher.eval_single]

/-- `003@{$ab == 'x'}` -/
example := C91_field_braces_partial ok s0 [] (bs "003@") [] [] _ _ (0x20 :: bs "== 'x'") .any .any _ .relation
  ((pSubRelation (bs "[ab] == 'x'")).get (by decide +kernel)).1 .none (by simp [Unled])
  ⟨.tag (bs "003@"), .none, by decide +kernel, by decide +kernel, rfl⟩ .none (by simp [Unled]) ab
  (codesEnd_cons (by decide)) (.inl rfl) (by decide +kernel) rfl

/-- **C91.** The same in the filter of a path, whose codes may be written in both ways. -/
theorem C91_path_filter_partial (rx : Bytes → Bool) (s : Levels) (t o w l l' tr u d y : Bytes) (tm : TagMatcher)
    (om : OccMatcher) (qs : Quantifier) (k : SubKind) (m : SubSingle) (ht : TagMatcher.new t = some tm)
    (ho : OccMatcher.new o = some om) (hw : Ws w) (hc : DollarList l l') (hr : QuantText true tr qs) (hl : Unled tr)
    (hd : DollarAs u d) (hy : CodesEnd (y ++ [0x7D])) (hk : k = .relation ∨ k = .contains)
    (hm : k.parser rx (tr ++ (d ++ (y ++ [0x7D]))) = some (m, [0x7D])) (hs : s.sub = 0) :
    ∃ css m', (∀ E op v, m'.eval E op v = m.eval E op v) ∧ ∀ e, e = l ∨ e = l' → ∃ raw,
      Compat.newPath true rx s
        (t ++ (o ++ 0x7B :: (w ++ (e ++ 0x7C :: (tr ++ 0x24 :: (u ++ (y ++ [0x7D]))))))) =
        (some ⟨tm, om, some (.single m'), css, raw⟩, s) := by
  obtain ⟨m', h1, h2⟩ := dollar_single hr hd hy hk hm
  obtain ⟨n1, n2⟩ := dollar_head (r := u ++ (y ++ [0x7D])) hr hl
  have e : tr ++ 0x24 :: (u ++ (y ++ [0x7D])) = (tr ++ 0x24 :: (u ++ y)) ++ [0x7D] := by simp
  rw [e] at h1 n1 n2 ⊢
  obtain ⟨css, h3⟩ := path_filter ht ho hw hc rx s hs n1 n2 h1
  exact ⟨css, m', h2, h3⟩

/-- `028@{$ab, $*|$ab =? 'x'}` -/
example := C91_path_filter_partial ok s0 (bs "028@") [] [] _ _ [] _ _ (0x20 :: bs "=? 'x'") (.tag (bs "028@")) .none
  .any .contains ((pSubContains (bs "[ab] =? 'x'")).get (by decide +kernel)).1 (by decide +kernel) (by decide +kernel)
  noSpace (.more ab noSpace oneSpace noSpace oneSpace (.one .all)) .none (by simp [Unled]) ab
  (codesEnd_cons (by decide)) (.inr rfl) (by decide +kernel) rfl

/-- in the filter of a format -/
example : ((Compat.newFormat true ok s0 (bs "028A{a | $4 == 'x'}")).1.map (·.sub)) =
    some (some (.single (.relation .any (bs "4") .eq (bs "x") (bs "$4 == 'x'")))) := by
  decide +kernel

/-- `003@$0?`, also behind a `!`, field/parser.rs:564-585 -/
example : (Compat.newField true ok s0 (bs "003@$0?")).1 =
      some (.single (.subfields .any (.tag (bs "003@")) .none (.single (.exists (bs "0") (bs "0?"))) (bs "003@$0?"))) ∧
    (Compat.newField true ok s0 (bs "!003@$0?")).1 =
      some (.not (.single (.subfields .any (.tag (bs "003@")) .none (.single (.exists (bs "0") (bs "0?")))
        (bs "003@$0?")))) := by
  decide +kernel

/-! ## Where `$` is not accepted -/

/-- **C91** is false of several codes after the tag: `003@$ab == 'x'` is rejected. -/
theorem C91_field_list_false :
    ¬ ∀ (rx : Bytes → Bool) (s : Levels) (t u d y : Bytes) (tm : TagMatcher), TagMatcher.new t = some tm →
      DollarAs u d → CodesEnd y → (Compat.newField true rx s (t ++ 0x2E :: (d ++ y))).1.isSome →
      (Compat.newField true rx s (t ++ 0x24 :: (u ++ y))).1.isSome := by
  intro h
  have := h (fun _ => true) ⟨0, 0, 0⟩ (bs "003@") (bs "ab") (bs "[ab]") (bs " == 'x'") (.tag (bs "003@"))
    (by decide +kernel) ?_ ?_ (by decide +kernel)
  · exact absurd this (by decide +kernel)
  · have e : bs "[ab]" = [0x5B] ++ bs "ab" ++ [0x5D] := by decide +kernel
    rw [e]
    refine .list _ (by decide +kernel) fun b hb => code_iff.1 ?_
    have e' : bs "ab" = [0x61, 0x62] := by decide +kernel
    rw [e'] at hb
    rcases List.mem_cons.1 hb with rfl | hb
    · rfl
    · obtain rfl := List.mem_singleton.1 hb
      rfl
  · have e' : bs " == 'x'" = 0x20 :: bs "== 'x'" := by decide +kernel
    rw [e']
    exact codesEnd_cons (by decide)

/-- **C91** is false of the other matchers in braces: `{$a?}` is rejected. -/
theorem C91_sub_false :
    ¬ ∀ (rx : Bytes → Bool) (s : Levels) (u d y : Bytes), DollarAs u d → CodesEnd y →
      (Compat.newSub true rx s (d ++ y)).1.isSome → (Compat.newSub true rx s (0x24 :: (u ++ y))).1.isSome := by
  intro h
  have := h (fun _ => true) ⟨0, 0, 0⟩ [0x61] [0x5B, 0x61, 0x5D] [0x3F]
    (.list [0x61] (by simp) fun b hb => code_iff.1 (by obtain rfl := List.mem_singleton.1 hb; rfl))
    (codesEnd_cons (by decide)) (by decide +kernel)
  exact absurd this (by decide +kernel)

/-- the signs that do not take `$`, each with the text that is accepted -/
def refused : List (Bytes × Bytes) :=
  [(bs "$0?", bs "0?"), (bs "$0 in ['a']", bs "0 in ['a']"), (bs "$0 =~ 'a'", bs "0 =~ 'a'"),
    (bs "$0 =~ ['a']", bs "0 =~ ['a']"), (bs "#$0 > 1", bs "#0 > 1")]

example : ∀ x ∈ refused, (Compat.newSub true (fun _ => true) ⟨0, 0, 0⟩ x.1).1 = none ∧
    (Compat.newSub true (fun _ => true) ⟨0, 0, 0⟩ x.2).1.isSome := by
  decide +kernel

end Props
end Pica
