import Verif.Lemmas.Path
import Verif.Props.Reader
import Verif.Props.Matcher

/-! C23: paths. -/

namespace Pica.Props
open Pica Pica.Spec Parser

/-- text to path, for the examples -/
def pathM (t : String) : Option Path := (Path.new (fun _ => true) Levels.zero (bs t)).1

/-- **C23** the result of a path is the list of the addressed values, in order
and with repetitions, unless the filter panics on a selected field. -/
theorem C23_values (E : Env) (o : Opts) (p : Path) (r : Record) (vs : List Bytes) :
    p.values E o r = some vs ↔
      (∀ f ∈ r, p.tag.isMatch f.tag = true → p.occ.isMatch f.occ = true →
        ∀ m, p.sub = some m → ∃ b, m.eval E o f.subfields = some b) ∧
      vs = addressed (fun f => p.tag.isMatch f.tag = true ∧ p.occ.isMatch f.occ = true)
        (fun sf => match p.sub with | none => some true | some m => m.eval E o sf) p.codes r := by
  have e : (fun sf => match p.sub with | none => some true | some m => m.eval E o sf)
      = subDen E o p.sub := by cases p.sub <;> rfl
  rw [e]
  unfold Path.values
  simp only [Option.map_eq_some_iff, filterP_eq_some]
  have key : (∀ x ∈ r, ∃ b, fieldTest E o p.tag p.occ p.sub x = some b) ↔
      (∀ f ∈ r, p.tag.isMatch f.tag = true → p.occ.isMatch f.occ = true →
        ∀ m, p.sub = some m → ∃ b, m.eval E o f.subfields = some b) := by
    constructor
    · intro h f hf h1 h2 m hm
      have := fieldTest_total.1 (h f hf) ⟨h1, h2⟩
      rw [hm] at this; exact this
    · intro h f hf
      refine fieldTest_total.2 (fun hs => ?_)
      cases hm : p.sub with
      | none => exact ⟨true, rfl⟩
      | some m => exact h f hf hs.1 hs.2 m hm
  constructor
  · rintro ⟨fs, ⟨h1, rfl⟩, rfl⟩
    exact ⟨key.1 h1, addressed_eq E o p r⟩
  · rintro ⟨h1, rfl⟩
    exact ⟨_, ⟨key.2 h1, rfl⟩, addressed_eq E o p r⟩

/-- **C23** a parsed path has the meaning written in its text. -/
theorem C23_text (rx : Bytes → Bool) (s s' : Levels) (text : Bytes) (p : Path)
    (h : Path.new rx s text = (some p, s')) (E : Env) (o : Opts) (hr : RegexOk rx E o) :
    ∃ sel v, PathText rx E o text sel v p.codes ∧ ∀ r, p.values E o r = some (addressed sel v p.codes r) := by
  refine ⟨_, _, (path_new_sound rx E o h).1, fun r => ?_⟩
  unfold Path.values
  rw [filterP_of_total, Option.map_some, addressed_eq]
  intro f _
  exact fieldTest_total.2 (fun _ => pathText_total hr (path_new_sound rx E o h).1 _)

/-- **C23** every text `tag/occurrence.codes` is accepted and yields the values of
these codes in the fields selected by tag and occurrence. -/
theorem C23_dot (rx : Bytes → Bool) (s : Levels) (w t to c w' : Bytes) (sel : Field → Prop)
    (S : ByteSet) (hw : Ws w) (hsel : Selects t to sel) (hc : CodesText c S) (hw' : Ws w') :
    ∃ p cs, Path.new rx s (w ++ (t ++ to ++ bs "." ++ c) ++ w') = (some p, s) ∧
      (∀ b, b ∈ cs ↔ S b) ∧ ∀ (E : Env) (o : Opts) r,
        p.values E o r = some (addressed sel (fun _ => some true) [cs] r) := by
  obtain ⟨m, om, hm, ho, rfl⟩ := hsel
  obtain ⟨cs, hcs, hS⟩ := pCodes_complete hc
  have hdot : bs "." = [0x2E] := by decide +kernel
  have hp : ws (seq pTagMatcher (seq pOccMatcher (preceded (byte 0x2E) pCodes)))
      (w ++ (t ++ to ++ bs "." ++ c) ++ w' ++ []) = some ((m, om, cs), []) := by
    refine ws_run hw ?_ ?_ hw' noWs_nil
    · have := (tagText_noWs hm (to ++ bs "." ++ c ++ (w' ++ []))).1
      simpa [List.append_assoc] using this
    · rw [hdot, show t ++ to ++ [0x2E] ++ c ++ (w' ++ []) = t ++ (to ++ (0x2E :: (c ++ (w' ++ [])))) by simp]
      refine seq_run (pTagMatcher_follow hm) (seq_run (pOccMatcher_follow ho (.cons (by decide))) ?_)
      exact preceded_run (byte_cons_self _ _) (hcs _)
  rw [List.append_nil] at hp
  have hsimple : pPathSimple (w ++ (t ++ to ++ bs "." ++ c) ++ w') =
      some (⟨m, om, none, [cs], w ++ (t ++ to ++ bs "." ++ c) ++ w'⟩, []) := by
    unfold pPathSimple
    exact map_run (a := ((m, om, cs), w ++ (t ++ to ++ bs "." ++ c) ++ w'))
      (withTaken_run hp (by simp))
  refine ⟨⟨m, om, none, [cs], w ++ (t ++ to ++ bs "." ++ c) ++ w'⟩, cs,
    TParser.parseAll_eq_some.2 ?_, hS, fun E o r => ?_⟩
  · unfold pPath TParser.alt TParser.lift
    simp only [hsimple]
  · exact (C23_values E o _ r _).2 ⟨fun _ _ _ _ _ h => by simp at h, rfl⟩

/-- **C23** `first` is the first element (it is also defined if the filter panics
later in the record). -/
theorem C23_first (E : Env) (o : Opts) (p : Path) (r : Record) (vs : List Bytes)
    (h : p.values E o r = some vs) : p.first E o r = some vs.head? := by
  induction r generalizing vs with
  | nil => simp [Path.values, filterP] at h; subst h; rfl
  | cons f fs ih =>
    simp only [Path.values, filterP] at h
    rw [Path.first]
    cases hf : fieldTest E o p.tag p.occ p.sub f with
    | none => rw [hf] at h; simp at h
    | some b =>
      rw [hf] at h
      simp only [Option.map_map, Option.map_eq_some_iff, Function.comp] at h
      obtain ⟨gs, hg, rfl⟩ := h
      have ih' := ih ((gs.flatMap Field.subfields).filterMap p.pick) (by simp [Path.values, hg])
      cases b with
      | false => simpa using ih'
      | true =>
        simp only [if_true, List.flatMap_cons, List.filterMap_append]
        cases hv : f.subfields.filterMap p.pick with
        | nil => simpa using ih'
        | cons v vs' => simp

/-- **C23** `ppn` is the first value of subfield `0` in a field `003@` without
occurrence (or with `00`); the static path is what its text parses to. -/
theorem C23_ppn (E : Env) (o : Opts) (r : Record) :
    r.ppn E o = some (((r.filter (fun f => f.tag == bs "003@" && (f.occ == none || f.occ == some (bs "00")))).flatMap
      (fun f => (f.subfields.filter (fun s => s.code == 0x30)).map Subfield.value)).head?) ∧
    ∀ rx s, (Path.new rx s (bs "003@.0")).1 = some Path.ppnPath := by
  constructor
  · have h0 : bs "0" = [0x30] := by decide +kernel
    have h00 : bs "00" = [0x30, 0x30] := by decide +kernel
    unfold Record.ppn
    have hv : Path.values E o Path.ppnPath r =
        some ((r.filter (fun f => f.tag == bs "003@" && (f.occ == none || f.occ == some (bs "00")))).flatMap
          (fun f => (f.subfields.filter (fun s => s.code == 0x30)).map Subfield.value)) := by
      unfold Path.values
      rw [filterP_of_total (f := fieldTest E o Path.ppnPath.tag Path.ppnPath.occ Path.ppnPath.sub)
        (fun f _ => ⟨_, rfl⟩), Option.map_some]
      have e1 : (fun f => fieldTest E o Path.ppnPath.tag Path.ppnPath.occ Path.ppnPath.sub f == some true)
          = (fun f : Field => f.tag == bs "003@" && (f.occ == none || f.occ == some (bs "00"))) := by
        funext f
        simp only [fieldTest, Path.ppnPath, fieldSel, TagMatcher.isMatch, h00]
        rw [show (bs "003@" == f.tag) = (f.tag == bs "003@") from Bool.beq_comm ..]
        cases hb : (f.tag == bs "003@") <;> cases hocc : f.occ <;> simp [OccMatcher.isMatch]
      rw [e1]
      have e2 : ∀ ss : List Subfield, ss.filterMap Path.ppnPath.pick =
          (ss.filter (fun s => s.code == 0x30)).map Subfield.value := by
        intro ss
        induction ss with
        | nil => rfl
        | cons x xs ih =>
          rw [List.filterMap_cons, List.filter_cons, ih]
          simp only [Path.pick, Path.ppnPath, h0, List.any_cons, List.any_nil, Bool.or_false,
            List.contains_cons, List.contains_nil]
          by_cases hx : x.code == 0x30 <;> simp [hx]
      generalize r.filter _ = fs
      induction fs with
      | nil => rfl
      | cons f fs ih =>
        simp only [List.flatMap_cons, List.filterMap_append, Option.some.injEq] at ih ⊢
        rw [ih, e2]
    exact C23_first E o _ r _ hv
  · intro rx s
    have hs : pPathSimple (bs "003@.0") = some (Path.ppnPath, []) := by decide +kernel
    unfold Path.new
    have : TParser.parseAll (pPath rx) s (bs "003@.0") = (some Path.ppnPath, s) :=
      TParser.parseAll_eq_some.2 (by unfold pPath TParser.alt TParser.lift; simp only [hs])
    rw [this]

/-- **C23** on the record of a string record the `unwrap` of each value succeeds
and the values are the same. -/
theorem C23_string (E : Env) (o : Opts) (p : Path) (x : ByteRecord) (h : StringReach x) :
    p.stringValues E o x.record = p.values E o x.record := by
  unfold Path.stringValues
  cases hv : p.values E o x.record with
  | none => rfl
  | some vs =>
    have : vs.all utf8Valid = true := by
      rw [List.all_eq_true]
      intro v hvs
      rw [((C23_values E o p _ vs).1 hv).2] at hvs
      unfold addressed allSubfields at hvs
      simp only [List.mem_map, List.mem_filter, List.mem_flatMap] at hvs
      obtain ⟨y, ⟨⟨f, hf, s, hs, rfl⟩, _⟩, rfl⟩ := hvs
      exact (utf8Valid_iff _).2 (C08_values_utf8 x h f hf s hs)
    simp [this]

/-- **C23** on any other record the `unwrap` panics exactly when one of the addressed
values is not UTF-8. -/
theorem C23_unwrap (E : Env) (o : Opts) (p : Path) (r : Record) (vs : List Bytes)
    (h : p.values E o r = some vs) :
    (p.stringValues E o r = none ↔ ∃ v ∈ vs, ¬ IsUtf8 v) ∧
    ∀ ws, p.stringValues E o r = some ws → ws = vs := by
  unfold Path.stringValues
  rw [h]
  by_cases hv : vs.all utf8Valid = true
  · simp only [hv, if_true, reduceCtorEq, false_iff, Option.some.injEq]
    rw [List.all_eq_true] at hv
    exact ⟨fun ⟨v, h1, h2⟩ => h2 ((utf8Valid_iff v).1 (hv v h1)), fun _ h => h.symm⟩
  · simp only [hv, Bool.false_eq_true, if_false, true_iff, reduceCtorEq, false_implies, implies_true, and_true]
    simp only [List.all_eq_true, Classical.not_forall, utf8Valid_iff] at hv
    obtain ⟨v, h1, h2⟩ := hv
    exact ⟨v, h1, h2⟩

/-- a value that is not UTF-8 -/
example : (pathM "012A.a").bind (fun p => p.values toyEnv ⟨false⟩ [⟨bs "012A", none, [⟨0x61, [0xFF]⟩]⟩])
      = some [[0xFF]] ∧
    (pathM "012A.a").bind (fun p => p.stringValues toyEnv ⟨false⟩ [⟨bs "012A", none, [⟨0x61, [0xFF]⟩]⟩])
      = none := by decide +kernel

/-- a record with repeated fields and subfields, for the examples -/
def pathSample : Record :=
  [⟨bs "003@", none, [⟨0x30, bs "1234"⟩]⟩,
   ⟨bs "045E", none, [⟨0x65, bs "x"⟩, ⟨0x45, bs "m"⟩, ⟨0x66, bs "y"⟩, ⟨0x65, bs "x"⟩]⟩,
   ⟨bs "045E", some (bs "01"), [⟨0x65, bs "z"⟩]⟩,
   ⟨bs "045E", none, [⟨0x65, bs "w"⟩]⟩]

example : (pathM "045E.e").bind (fun p => p.values toyEnv ⟨false⟩ pathSample)
    = some [bs "x", bs "x", bs "w"] := by decide +kernel
example : (pathM " 045E/*{ (e, [f-g]) | E == 'm' } ").bind (fun p => p.values toyEnv ⟨false⟩ pathSample)
    = some [bs "x", bs "y", bs "x"] := by decide +kernel
example : pathSample.ppn toyEnv ⟨false⟩ = some (some (bs "1234")) := by decide +kernel
/-- a panicking filter behind the first hit -/
example : (pathM "045E{e | e == 'x' || e =~ 'y'}").map (fun p =>
      (p.first { toyEnv with regex := fun _ _ => none } ⟨false⟩ pathSample,
       p.values { toyEnv with regex := fun _ _ => none } ⟨false⟩ pathSample))
    = some (some (some (bs "x")), none) := by decide +kernel

end Pica.Props
