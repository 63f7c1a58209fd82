import Verif.Lemmas.Format
import Verif.Lemmas.Query
import Verif.Props.Path

/-! C27: formats. -/

namespace Pica.Props
open Pica Pica.Spec Parser

/-- **C27** A parsed format has the meaning written in its text, and evaluating it
never panics: the result consists of the non-empty renderings of the selected
fields, in order.  The meanings of the texts say that a value takes the first `n`
subfields with a matching code (`taken`), that `<$>` stops at the first empty part
(`andThen`), that `<*>` concatenates all parts (`concat`), and in which order
modifiers apply (`modified`). -/
theorem C27_text (rx : Bytes → Bool) (s s' : Levels) (text : Bytes) (fm : Format)
    (h : Format.new rx s text = (some fm, s')) (E : FmtEnv) (o : FmtOpts)
    (hr : RegexOk rx E.toEnv o.opts) :
    ∃ sel v g, FormatText rx E o text sel v g ∧ ∀ r, fm.run E o r = some (rendered sel v g r) := by
  obtain ⟨g, h1, h2⟩ := format_new_sound E o rx h
  exact ⟨_, _, g, h1, fun r => format_run h2
    (fun f _ => fieldTest_total.2 (fun _ => formatText_total hr h1 _))⟩

/-- **C27** at most one string per matching field, never an empty one, for any
format value (parsed or not). -/
theorem C27_one_per_field (E : FmtEnv) (o : FmtOpts) (fm : Format) (r : Record) (vs : List Bytes)
    (h : fm.run E o r = some vs) :
    (∀ v ∈ vs, v ≠ []) ∧
    ∃ xs : List (Option Bytes), vs = xs.filterMap id ∧
      All2 (fun f x => fm.fragments.run E o f = some (x.getD []) ∧ x ≠ some [])
        (hits (fun f => fm.tag.isMatch f.tag = true ∧ fm.occ.isMatch f.occ = true)
          (fun sf => match fm.sub with | none => some true | some m => m.eval E.toEnv o.opts sf) r) xs := by
  have e : (fun sf => match fm.sub with | none => some true | some m => m.eval E.toEnv o.opts sf)
      = subDen E.toEnv o.opts fm.sub := by cases fm.sub <;> rfl
  rw [e]
  unfold Format.run at h
  split at h
  · simp at h
  · rename_i fs hfs
    rw [Option.map_eq_some_iff] at h
    obtain ⟨xs, hx, rfl⟩ := h
    have h2 := mapP_all2 hx
    have key : ∀ f x, fm.fmtField E o f = some x →
        fm.fragments.run E o f = some (x.getD []) ∧ x ≠ some [] := by
      intro f x hf
      unfold Format.fmtField at hf
      split at hf
      · simp at hf
      · rename_i v hv
        simp only [Option.some.injEq] at hf
        subst hf
        cases v with
        | nil => simp [hv]
        | cons b v => simp [hv]
    have h3 := h2.imp key
    constructor
    · intro v hv
      simp only [List.mem_filterMap, id_eq] at hv
      obtain ⟨x, hx1, rfl⟩ := hv
      obtain ⟨f, _, _, hne⟩ := h3.mem_right _ hx1
      rintro rfl; exact hne rfl
    · have : fs = hits (fun f => fm.tag.isMatch f.tag = true ∧ fm.occ.isMatch f.occ = true)
          (subDen E.toEnv o.opts fm.sub) r := by
        rw [(filterP_eq_some.1 hfs).2]
        unfold hits
        apply List.filter_congr
        intro f _
        rw [Bool.eq_iff_iff]
        simp only [beq_iff_eq, fieldTest_eq_true, decide_eq_true_eq, selOf]
      exact ⟨xs, rfl, this ▸ h3⟩

/-- **C27** a value takes the first `n` subfields with a matching code. -/
theorem C27_value (E : FmtEnv) (o : FmtOpts) (f : Field) (v : FmtValue) :
    (Fragments.value v).run E o f = some (v.modifier.modify E
      ((((f.subfields.filter (fun s => decide (s.code ∈ v.codes))).take v.bound).map
        (fun s => v.pre.getD [] ++ (if o.strip then s.value.erase 0x40 else s.value)
          ++ v.suf.getD [])).flatten)) := by
  rw [(runsIn_value E o v).1 f, value_run]; rfl

/-- **C27** `<$>` yields the parts before the first empty one; parts behind it are
not evaluated. -/
theorem C27_and_then (E : FmtEnv) (o : FmtOpts) (f : Field) (pre : List Fragments)
    (vs : List Bytes) (h : All2 (fun fr v => fr.run E o f = some v ∧ v ≠ []) pre vs) :
    (Fragments.andThen pre).run E o f = some vs.flatten ∧
    ∀ x post, x.run E o f = some [] → (Fragments.andThen (pre ++ x :: post)).run E o f = some vs.flatten := by
  have key : ∀ tail acc, Fragments.runAndThen E o f acc (pre ++ tail) =
      Fragments.runAndThen E o f (acc ++ vs.flatten) tail := by
    intro tail
    induction h with
    | nil => intro acc; simp
    | cons h1 _ ih =>
      intro acc
      rw [List.cons_append, Fragments.runAndThen, h1.1]
      simp [h1.2, ih]
  constructor
  · have := key [] []
    rw [List.append_nil] at this
    rw [Fragments.run, this, Fragments.runAndThen]; simp
  · intro x post hx
    rw [Fragments.run, key, Fragments.runAndThen, hx]; simp

/-- **C27** `<*>` yields all parts. -/
theorem C27_cons (E : FmtEnv) (o : FmtOpts) (f : Field) (fs : List Fragments)
    (vs : List Bytes) (h : All2 (fun fr v => fr.run E o f = some v) fs vs) :
    (Fragments.cons fs).run E o f = some vs.flatten := by
  have key : ∀ acc, Fragments.runCons E o f acc fs = some (acc ++ vs.flatten) := by
    induction h with
    | nil => intro acc; simp [Fragments.runCons]
    | cons h1 _ ih => intro acc; rw [Fragments.runCons, h1]; simp [ih]
  rw [Fragments.run, key]; rfl

/-- **C27** the modifier applies to the whole content of a group; the bound of the
group has no effect. -/
theorem C27_group (E : FmtEnv) (o : FmtOpts) (f : Field) (x : Fragments) (m : Modifier) (n : Nat)
    (v : Bytes) (hx : ∀ y b m', x ≠ .group y b m') (h : x.run E o f = some v) :
    (Fragments.group x n m).run E o f = some (m.modify E v) := by
  cases x with
  | group y b m' => exact absurd rfl (hx y b m')
  | value w => simp only [Fragments.run, Option.some.injEq] at h ⊢; rw [h]
  | andThen fs => simp only [Fragments.run] at h ⊢; rw [h]; rfl
  | cons fs => simp only [Fragments.run] at h ⊢; rw [h]; rfl

/-- **C27** the letters of a modifier may be written in any order and repeated; the
steps are always applied in the order `o`, `t`, `w`, `l`, `u`. -/
theorem C27_modifier (E : FmtEnv) (ls rest : Bytes) (hne : ls ≠ []) (hls : ∀ b ∈ ls, b ∈ bs "lutwo")
    (hrest : ∀ b, rest.head? = some b → b ∉ bs "lutwo") :
    ∃ m, pModifier (bs "?" ++ ls ++ rest) = some (some m, rest) ∧ ∀ v, m.modify E v =
      (let v1 := if 0x6F ∈ ls then v.erase 0x40 else v
       let v2 := if 0x74 ∈ ls then E.trim v1 else v1
       let v3 := if 0x77 ∈ ls then v2.filter (fun b => decide (b ≠ 0x20)) else v2
       let v4 := if 0x6C ∈ ls then E.lower v3 else v3
       if 0x75 ∈ ls then E.upper v4 else v4) := by
  have hmem : ∀ b, b ∈ bs "lutwo" ↔ isModCode b = true := by
    intro b
    have e : bs "lutwo" = [0x6C, 0x75, 0x74, 0x77, 0x6F] := by decide +kernel
    rw [e]; simp [isModCode, or_assoc]
  refine ⟨modOfCodes ls, ?_, fun v => modify_modOfCodes E ls v⟩
  have hloop : ∀ (ls : Bytes) n, (∀ b ∈ ls, isModCode b = true) → ls.length ≤ n →
      repeat0Aux (oneOf isModCode) (n + 1) (ls ++ rest) = some (ls, rest) := by
    intro ls
    induction ls with
    | nil =>
      intro n _ _
      refine repeat0Aux_stop ?_
      rw [List.nil_append]
      cases rest with
      | nil => rfl
      | cons b r =>
        have : isModCode b = false := by
          rw [Bool.eq_false_iff]; exact fun h => hrest b rfl ((hmem b).2 h)
        simp [oneOf, this]
    | cons b ls ih =>
      intro n hb hn
      cases n with
      | zero => simp at hn
      | succ n =>
        have hb0 := hb b (by simp)
        refine repeat0Aux_step (r := ls ++ rest) (by simp [oneOf, hb0]) (by simp) ?_
        exact ih n (fun b h => hb b (by simp [h])) (by simpa using hn)
  cases ls with
  | nil => exact absurd rfl hne
  | cons b ls =>
    have hb : ∀ x ∈ b :: ls, isModCode x = true := fun x hx => (hmem x).1 (hls x hx)
    have h1 : repeat1 (oneOf isModCode) (b :: ls ++ rest) = some (b :: ls, rest) := by
      unfold repeat1
      have : oneOf isModCode (b :: ls ++ rest) = some (b, ls ++ rest) := by simp [oneOf, hb b (by simp)]
      rw [this]
      simp only [repeat0]
      rw [hloop ls (ls ++ rest).length (fun x hx => hb x (by simp [hx])) (by simp)]
    unfold pModifier
    rw [← bs_qm]
    exact opt_run (preceded_run (byte_cons_self _ _) (map_run h1))

/-- an environment for the examples: ASCII case mapping and no real trim -/
def toyFmt : FmtEnv := { toyEnv with
  trim := fun v => (v.dropWhile (· == 0x20)),
  upper := fun v => v.map (fun b => if 0x61 ≤ b ∧ b ≤ 0x7A then b - 32 else b) }

/-- text to format, for the examples -/
def fmtM (t : String) : Option Format := (Format.new (fun _ => true) Levels.zero (bs t)).1

/-- names, as in fmt/mod.rs -/
def nameSample : Record :=
  [⟨bs "028A", none, [⟨0x64, bs "Emmy"⟩, ⟨0x61, bs "Noether"⟩]⟩,
   ⟨bs "028@", none, [⟨0x50, bs "Gregor"⟩, ⟨0x6C, bs "Papst"⟩, ⟨0x6C, bs "I."⟩]⟩,
   ⟨bs "028@", none, [⟨0x78, bs "nothing"⟩]⟩]

example : (fmtM "028[A@]{ a <*> (', ' d <*> ' ' c) }").bind (fun m => m.run toyFmt ⟨false, false⟩ nameSample)
    = some [bs "Noether, Emmy"] := by decide +kernel
example : (fmtM "028@{P <$> (?u l..2 ' ')..1}").bind (fun m => m.run toyFmt ⟨false, false⟩ nameSample)
    = some [bs "GregorPAPST I. "] := by decide +kernel
example : (fmtM "028[A@]{?lu [adP].. | !x?}").bind (fun m => m.run toyFmt ⟨false, false⟩ nameSample)
    = some [bs "EMMYNOETHER", bs "GREGOR"] := by decide +kernel

end Pica.Props
