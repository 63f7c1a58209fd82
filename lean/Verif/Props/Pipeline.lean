import Verif.Props.Args
import Verif.Props.Count
import Verif.Props.Explode

/-!
# C64: pipelines

The output of one command is the input of the next.
-/

namespace Pica.Props
open Pica Pica.Spec

/-- a record as it is read back from its own encoding -/
def asRead (r : Record) : ByteRecord := ⟨some r.write, r⟩

theorem asRead_line {b : ByteRecord} (hb : LineRecord b) {r : Record} (hr : ∀ f ∈ r, f ∈ b.record) (hne : r ≠ []) :
    LineRecord (asRead r) := by
  obtain ⟨t, ht, h1, _⟩ := hb
  obtain ⟨h3, _⟩ := ByteRecord.fromBytes_eq_some.1 h1
  obtain ⟨_, h4, h5⟩ := Record.fromBytes_eq_some.1 h3
  have h6 : t = b.record.flatMap Field.write := List.append_cancel_right h5
  have h7 : IsRecord r := fun f hf => h4 f (hr f hf)
  refine ⟨r.flatMap Field.write, ?_, ?_, ?_⟩
  · intro hm
    obtain ⟨f, hf, hx⟩ := List.mem_flatMap.1 hm
    exact ht (h6 ▸ List.mem_flatMap.2 ⟨f, hr f hf, hx⟩)
  · rw [← Record.write_of_ne hne]
    exact ByteRecord.fromBytes_eq_some.2 ⟨Record.fromBytes_write h7 hne, rfl⟩
  · rw [← Record.write_of_ne hne]; rfl

/-- what is read from the output of a command: the records that are not empty -/
theorem written_input (name : String) (l : List Record) (h : ∀ r ∈ l, r ≠ [] → LineRecord (asRead r)) :
    Input [(name, l.flatMap Record.write)] ((l.filter (fun r => !r.isEmpty)).map asRead) ∧
    AllValid [(name, l.flatMap Record.write)] := by
  have hc : ∀ c ∈ [(l.filter (fun r => !r.isEmpty)).map asRead], ∀ r ∈ c, LineRecord r := by
    intro c hc r hr
    simp only [List.mem_singleton] at hc
    subst hc
    obtain ⟨x, hx, rfl⟩ := List.mem_map.1 hr
    obtain ⟨hx1, hx2⟩ := List.mem_filter.1 hx
    exact h x hx1 (by simpa using hx2)
  have e : ((l.filter (fun r => !r.isEmpty)).map asRead).flatMap ByteRecord.write = l.flatMap Record.write := by
    clear hc h
    induction l with
    | nil => rfl
    | cons r l ih =>
      rw [List.flatMap_cons, ← ih]
      by_cases hr : r = []
      · subst hr; rfl
      · rw [List.filter_cons, if_pos (by simpa using hr), List.map_cons, List.flatMap_cons]; rfl
  have h1 := input_of_records (fun _ => name) _ 0 hc
  have h2 := allValid_of_records (fun _ => name) _ 0 hc
  simp only [List.zipIdx_cons, List.zipIdx_nil, List.map_cons, List.map_nil, e, List.flatten_cons, List.flatten_nil,
    List.append_nil] at h1 h2
  exact ⟨h1, h2⟩

theorem reduced_sub (d k : List FieldPred) (r : Record) : ∀ f ∈ reduced d k r, f ∈ r :=
  fun _ hf => (List.mem_filter.1 hf).1

theorem mem_limited' {α : Type} {n : Nat} {l : List α} {x : α} (h : x ∈ limited n l) : x ∈ l := by
  unfold limited at h
  split at h
  · exact h
  · exact List.mem_of_mem_take h

open Classical in
/-- the records that `filter` lets through, as they are written -/
noncomputable def delivered (c : FilterCmd) (rs : List Record) : List Record :=
  (limited c.limit (rs.filter (fun r => decide (Passes c r)))).map (reduced c.discard c.keep)

theorem limited_map {α β : Type} (f : α → β) (n : Nat) (l : List α) : limited n (l.map f) = (limited n l).map f := by
  unfold limited
  split
  · rfl
  · exact List.map_take.symm

theorem filter_delivered (c : FilterCmd) (files : List (String × Bytes)) (rs : List ByteRecord)
    (hi : Input files rs) (s : FilterOut) (n : Nat) (h : c.run files = .ok (s, n)) :
    s.out = (delivered c (rs.map (·.record))).flatMap Record.write := by
  classical
  rw [(C28_output c files rs hi s n h).1]
  unfold delivered
  rw [List.filter_map, limited_map, List.map_map, List.flatMap_map]
  refine congrArg (fun (l : List ByteRecord) => (limited c.limit l).flatMap (fun r => (reduced c.discard c.keep r.record).write)) ?_
  apply List.filter_congr
  intro r _
  rfl

theorem delivered_lines (c : FilterCmd) (rs : List ByteRecord) (h : ∀ r ∈ rs, LineRecord r) :
    ∀ r ∈ delivered c (rs.map (·.record)), r ≠ [] → LineRecord (asRead r) := by
  intro r hr hne
  unfold delivered at hr
  obtain ⟨x, hx, rfl⟩ := List.mem_map.1 hr
  obtain ⟨y, hy, rfl⟩ := List.mem_map.1 (List.mem_filter.1 (mem_limited' hx)).1
  exact asRead_line (h y hy) (reduced_sub _ _ _) hne

/-- **C64** `filter .. | filter ..`: the second command gets exactly the records that
the first one lets through, reduced to the fields asked for; records without a
field left are lost. -/
theorem C64_filter_filter (c d : FilterCmd) (files : List (String × Bytes)) (rs : List ByteRecord) (name : String)
    (hi : Input files rs) (s t : FilterOut) (n k : Nat) (h : c.run files = .ok (s, n))
    (h' : d.run [(name, s.out)] = .ok (t, k)) :
    t.out = (delivered d ((delivered c (rs.map (·.record))).filter (fun r => !r.isEmpty))).flatMap Record.write := by
  rw [filter_delivered c files rs hi s n h] at h'
  have h1 := (written_input name _ (delivered_lines c rs (input_lineRecord hi))).1
  rw [filter_delivered d _ _ h1 t k h']
  refine congrArg (fun l => (delivered d l).flatMap Record.write) ?_
  rw [List.map_map]
  exact List.map_id _

theorem reduced_nil (r : Record) : reduced [] [] r = r := by
  classical
  unfold reduced
  exact List.filter_eq_self.2 (fun f _ => by simp [Selected])

theorem delivered_plain (c : FilterCmd) (hl : c.limit = 0) (hd : c.discard = []) (hk : c.keep = []) (rs : List Record) :
    delivered c rs = rs.filter (fun r => @decide (Passes c r) (Classical.propDecidable _)) := by
  unfold delivered
  rw [hl, hd, hk, show reduced [] [] = id from funext reduced_nil, List.map_id]
  rfl

theorem passes_and (c d e : FilterCmd) (hE : d.E = c.E) (ho : d.o = c.o) (hE₀ : d.E₀ = c.E₀) (hs : d.set = c.set)
    (hci : c.invert = false) (hdi : d.invert = false)
    (he : e = { c with matcher := c.matcher.bitandAssign d.matcher }) (r : Record) :
    Passes e r ↔ Passes c r ∧ Passes d r := by
  subst he
  have h1 : c.matcher.bitandAssign d.matcher = c.matcher.bitand d.matcher := rfl
  have h2 := congrFun (FieldMatcher.eval_bitand c.E c.o c.matcher d.matcher) r
  unfold Passes
  dsimp only
  rw [h1, h2, hE, ho, hE₀, hs, hci, hdi]
  unfold dAnd
  cases hc : c.matcher.eval c.E c.o r with
  | none => simp
  | some b => cases b <;> simp <;> grind

/-- **C64** `filter X | filter Y` writes what `filter X --and Y` writes, if both
commands use the same lists and matcher options and nothing is inverted, reduced
or limited. -/
theorem C64_and (c d : FilterCmd) (hE : d.E = c.E) (ho : d.o = c.o) (hE₀ : d.E₀ = c.E₀) (hs : d.set = c.set)
    (hci : c.invert = false) (hdi : d.invert = false) (hcl : c.limit = 0) (hdl : d.limit = 0)
    (hcd : c.discard = []) (hck : c.keep = []) (hdd : d.discard = []) (hdk : d.keep = [])
    (files : List (String × Bytes)) (rs : List ByteRecord) (name : String) (hi : Input files rs)
    (hc : c.skip = true ∨ AllValid files)
    (hlist : ∀ r ∈ rs, (c.set.path.values c.E₀ ⟨false⟩ r.record).isSome)
    (hm : ∀ r ∈ rs, (c.matcher.eval c.E c.o r.record).isSome)
    (hm' : ∀ r ∈ rs, (d.matcher.eval c.E c.o r.record).isSome) :
    ∃ s n t k u l, c.run files = .ok (s, n) ∧ d.run [(name, s.out)] = .ok (t, k) ∧
      { c with matcher := c.matcher.bitandAssign d.matcher }.run files = .ok (u, l) ∧ u.out = t.out ∧ l = k := by
  classical
  obtain ⟨s, n, h1⟩ := C28_finishes c files rs hi hc hlist hm
  have hout := filter_delivered c files rs hi s n h1
  obtain ⟨hi2, hv2⟩ := written_input name _ (delivered_lines c rs (input_lineRecord hi))
  rw [← hout] at hi2 hv2
  have hsub : ∀ r ∈ (delivered c (rs.map (·.record))).filter (fun r => !r.isEmpty), ∃ x ∈ rs, x.record = r := by
    intro r hr
    rw [delivered_plain c hcl hcd hck] at hr
    obtain ⟨x, hx, rfl⟩ := List.mem_map.1 (List.mem_filter.1 (List.mem_filter.1 hr).1).1
    exact ⟨x, hx, rfl⟩
  obtain ⟨t, k, h2⟩ := C28_finishes d [(name, s.out)] _ hi2 (.inr hv2)
    (by
      intro r hr
      obtain ⟨y, hy, rfl⟩ := List.mem_map.1 hr
      obtain ⟨x, hx, rfl⟩ := hsub y hy
      rw [hs, hE₀]
      exact hlist x hx)
    (by
      intro r hr
      obtain ⟨y, hy, rfl⟩ := List.mem_map.1 hr
      obtain ⟨x, hx, rfl⟩ := hsub y hy
      rw [hE, ho]
      exact hm' x hx)
  obtain ⟨u, l, h3⟩ := C28_finishes { c with matcher := c.matcher.bitandAssign d.matcher } files rs hi hc hlist
    (by
      intro r hr
      show ((c.matcher.bitand d.matcher).eval c.E c.o r.record).isSome = true
      rw [congrFun (FieldMatcher.eval_bitand c.E c.o c.matcher d.matcher) r.record]
      unfold dAnd
      have h4 := hm r hr
      have h5 := hm' r hr
      revert h4
      cases c.matcher.eval c.E c.o r.record with
      | none => simp
      | some b => cases b <;> simp [h5])
  have hne : ∀ r ∈ delivered c (rs.map (·.record)), r ≠ [] := by
    intro r hr
    rw [delivered_plain c hcl hcd hck] at hr
    obtain ⟨x, hx, rfl⟩ := List.mem_map.1 (List.mem_filter.1 hr).1
    obtain ⟨b, hb⟩ := input_fromBytes hi x hx
    exact (Record.fromBytes_eq_some.1 (ByteRecord.fromBytes_eq_some.1 hb).1).1
  have hf : (delivered c (rs.map (·.record))).filter (fun r => !r.isEmpty) = delivered c (rs.map (·.record)) :=
    List.filter_eq_self.2 (fun r hr => by simpa using hne r hr)
  have hd1 : delivered d (delivered c (rs.map (·.record))) =
      delivered { c with matcher := c.matcher.bitandAssign d.matcher } (rs.map (·.record)) := by
    rw [delivered_plain c hcl hcd hck, delivered_plain d hdl hdd hdk,
      delivered_plain { c with matcher := c.matcher.bitandAssign d.matcher } hcl hcd hck, List.filter_filter]
    apply List.filter_congr
    intro r _
    rw [← Bool.decide_and, decide_eq_decide, passes_and c d _ hE ho hE₀ hs hci hdi rfl, and_comm]
  refine ⟨s, n, t, k, u, l, h1, h2, h3, ?_, ?_⟩
  · rw [C64_filter_filter c d files rs name hi s t n k h1 h2, hf, hd1, filter_delivered _ files rs hi u l h3]
  · rw [(C28_output _ files rs hi u l h3).2.2, (C28_output d _ _ hi2 t k h2).2.2, hf]
    have e1 : ∀ (f : FilterCmd) (xs : List ByteRecord), f.limit = 0 → f.discard = [] → f.keep = [] →
        (limited f.limit (xs.filter (fun r => decide (Passes f r.record)))).length =
          (delivered f (xs.map (·.record))).length := by
      intro f xs h1 h2 h3
      rw [delivered_plain f h1 h2 h3, h1, List.filter_map, List.length_map]
      unfold limited
      rw [if_pos rfl]
      refine congrArg List.length (List.filter_congr ?_)
      intro r _
      rfl
    rw [e1 { c with matcher := c.matcher.bitandAssign d.matcher } rs hcl hcd hck, e1 d _ hdl hdd hdk, List.map_map, ← hd1]
    exact congrArg (fun l => (delivered d l).length) (List.map_id _).symm

/-- **C64** `filter X | count` prints what `count --where X` prints. -/
theorem C64_count (c : FilterCmd) (hci : c.invert = false) (hcl : c.limit = 0) (hcd : c.discard = []) (hck : c.keep = [])
    (k k' : CountCmd) (hk : ∀ r, Picked k.sel r) (hk' : k'.sel = ⟨c.E₀, c.E, c.o, c.set, some c.matcher⟩)
    (files : List (String × Bytes)) (rs : List ByteRecord) (name : String) (hi : Input files rs)
    (s : FilterOut) (n : Nat) (h : c.run files = .ok (s, n)) (x y : CountState)
    (hx : k.loop [(name, s.out)] = .ok x) (hy : k'.loop files = .ok y) : x = y := by
  classical
  have hout := filter_delivered c files rs hi s n h
  obtain ⟨hi2, _⟩ := written_input name _ (delivered_lines c rs (input_lineRecord hi))
  rw [← hout] at hi2
  have hne : ∀ r ∈ delivered c (rs.map (·.record)), r ≠ [] := by
    intro r hr
    rw [delivered_plain c hcl hcd hck] at hr
    obtain ⟨x, hx, rfl⟩ := List.mem_map.1 (List.mem_filter.1 hr).1
    obtain ⟨b, hb⟩ := input_fromBytes hi x hx
    exact (Record.fromBytes_eq_some.1 (ByteRecord.fromBytes_eq_some.1 hb).1).1
  have hf : (delivered c (rs.map (·.record))).filter (fun r => !r.isEmpty) = delivered c (rs.map (·.record)) :=
    List.filter_eq_self.2 (fun r hr => by simpa using hne r hr)
  rw [hf] at hi2
  obtain ⟨a1, a2, a3⟩ := C37_exact k _ _ hi2 x hx
  obtain ⟨b1, b2, b3⟩ := C37_exact k' _ _ hi y hy
  have hp : picked k.sel ((delivered c (rs.map (·.record))).map asRead) = (delivered c (rs.map (·.record))).map asRead :=
    List.filter_eq_self.2 (fun r _ => by simpa using hk r.record)
  have hq : (delivered c (rs.map (·.record))) = (picked k'.sel rs).map (·.record) := by
    rw [delivered_plain c hcl hcd hck, List.filter_map]
    refine congrArg (List.map _) (List.filter_congr ?_)
    intro r _
    rw [Function.comp_apply, decide_eq_decide, hk']
    unfold Passes Picked
    simp [hci]
  rw [hp, hq, List.map_map] at a1 a2 a3
  obtain ⟨x1, x2, x3⟩ := x
  obtain ⟨y1, y2, y3⟩ := y
  dsimp only at a1 a2 a3 b1 b2 b3
  rw [a1, a2, a3, b1, b2, b3, List.length_map, List.map_map, List.map_map]
  rfl

/-- **C64** `concat FILES | filter` writes what `filter FILES` writes. -/
theorem C64_concat (k : ConcatCmd) (hu : k.unique = false) (c : FilterCmd) (files : List (String × Bytes))
    (rs : List ByteRecord) (name : String) (hi : Input files rs) (x : ConcatState) (hx : k.run files = .ok x)
    (s t : FilterOut) (n m : Nat) (h : c.run [(name, x.out)] = .ok (s, n)) (h' : c.run files = .ok (t, m)) :
    s.out = t.out ∧ n = m := by
  have h1 := ((C32_lossless k hu files rs hi).1 x hx).1
  have hi2 := input_of_records (fun _ => name) [rs] 0 (by
    intro l hl r hr
    simp only [List.mem_singleton] at hl
    subst hl
    exact input_lineRecord hi r hr)
  simp only [List.zipIdx_cons, List.zipIdx_nil, List.map_cons, List.map_nil, List.flatten_cons, List.flatten_nil,
    List.append_nil] at hi2
  rw [← h1] at hi2
  obtain ⟨a1, _, a3⟩ := C28_output c _ _ hi2 s n h
  obtain ⟨b1, _, b3⟩ := C28_output c _ _ hi t m h'
  exact ⟨by rw [a1, b1], by rw [a3, b3]⟩

/-- **C64** with `--limit` the output is the beginning of the output without. -/
theorem C64_limit (c : FilterCmd) (files : List (String × Bytes)) (rs : List ByteRecord) (hi : Input files rs)
    (s t : FilterOut) (n m : Nat) (h : c.run files = .ok (s, n)) (h' : { c with limit := 0 }.run files = .ok (t, m)) :
    s.out <+: t.out ∧ n = if c.limit = 0 then m else min c.limit m := by
  classical
  obtain ⟨a1, _, a3⟩ := C28_output c _ _ hi s n h
  obtain ⟨b1, _, b3⟩ := C28_output { c with limit := 0 } _ _ hi t m h'
  have e : ∀ r, Passes { c with limit := 0 } r ↔ Passes c r := fun _ => Iff.rfl
  simp only [e, limited, if_true] at b1 b3
  rw [a1, b1, a3, b3]
  unfold limited
  by_cases hl : c.limit = 0
  · simp only [hl, if_true]
    exact ⟨List.prefix_refl _, trivial⟩
  · simp only [hl, if_false]
    refine ⟨?_, by rw [List.length_take]⟩
    generalize rs.filter (fun r => decide (Passes c r.record)) = l
    refine ⟨(l.drop c.limit).flatMap (fun r => (reduced c.discard c.keep r.record).write), ?_⟩
    rw [← List.flatMap_append, List.take_append_drop]

/-- `filter TEXT`, without further options -/
def pipeSample (text : String) : Option FilterCmd := do
  let m ← fldM text
  some ⟨true, false, 0, false, toyEnv, toyEnv, ⟨false⟩, ⟨none, none, Path.ppnPath⟩, m, [], []⟩

/-- what a run has written -/
def outOf : LoopResult (FilterOut × Nat) → Bytes
  | .ok (s, _) => s.out
  | _ => []

example : (do
    let c ← pipeSample "003@{0 =^ '1'}"
    let d ← pipeSample "012A?"
    let e : FilterCmd := { c with matcher := c.matcher.bitandAssign d.matcher }
    some (d.run [("-", outOf (c.run filterInput))] = .ok
        (⟨bs "003@ " ++ [0x1F] ++ bs "012" ++ [0x1E] ++ bs "012A " ++ [0x1F] ++ bs "ax" ++ [0x1E, 0x0A], none⟩, 1) ∧
      outOf (e.run filterInput) = outOf (d.run [("-", outOf (c.run filterInput))]) : Bool)) = some true := by
  decide +kernel
/-- a command that drops all fields of the second record hides it from the next -/
example : (do
    let c ← pipeSample "003@?"
    let d ← pipeSample "003@? || 012A?"
    some (match { c with discard := pred003 }.run filterInput with
      | .ok (s, n) => n == 3 && (match d.run [("-", s.out)] with
        | .ok (_, k) => k == 1
        | _ => false)
      | _ => false : Bool)) = some true := by
  decide +kernel
/-- without options every record is selected -/
theorem noSelection_all (r : Record) : Picked noSelection r := by
  refine ⟨?_, fun m hm => by simp [noSelection] at hm⟩
  obtain ⟨vs, hv⟩ : ∃ vs, Path.ppnPath.values toyEnv ⟨false⟩ r = some vs := by
    unfold Path.values
    obtain ⟨l, hl⟩ : ∃ l, filterP (fieldTest toyEnv ⟨false⟩ Path.ppnPath.tag Path.ppnPath.occ Path.ppnPath.sub) r = some l :=
      ⟨_, filterP_of_total (fun _ _ => ⟨_, rfl⟩)⟩
    rw [hl]
    exact ⟨_, rfl⟩
  exact ⟨vs, hv, by simp [Admitted, noSelection]⟩

example : (do
      let c ← pipeSample "003@{0 =^ '1'}"
      some ((countSample .plain).loop [("-", outOf (c.run filterInput))] ==
        { (countSample .plain) with sel := ⟨toyEnv, toyEnv, ⟨false⟩, ⟨none, none, Path.ppnPath⟩, some c.matcher⟩ }.loop
          filterInput)) = some true ∧ (do
      let c ← pipeSample "003@{0 =^ '1'}"
      some (match (concatSample false .idn).run filterInput with
        | .ok x => outOf (c.run [("-", x.out)]) == outOf (c.run filterInput)
        | _ => false)) = some true := by
  decide +kernel

end Pica.Props
