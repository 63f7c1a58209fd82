import Verif.Props.Query
import Verif.Props.Format
import Verif.Props.Path

/-! C08: paths, formats and queries on string records -/

namespace Pica.Props
open Pica Spec

theorem isUtf8_nil : IsUtf8 [] := (utf8Valid_iff _).1 (by decide)

theorem isUtf8_append {a b : Bytes} (ha : IsUtf8 a) (hb : IsUtf8 b) : IsUtf8 (a ++ b) := by
  rw [← utf8Valid_iff] at ha hb ⊢
  rw [utf8Valid_append ha, hb]

theorem isUtf8_flatten {l : List Bytes} (h : ∀ x ∈ l, IsUtf8 x) : IsUtf8 l.flatten := by
  induction l with
  | nil => exact isUtf8_nil
  | cons x l ih => exact isUtf8_append (h x (by simp)) (ih (fun y hy => h y (by simp [hy])))

theorem isUtf8_erase {x : Byte} (hx : x < 0x80) {v : Bytes} (h : IsUtf8 v) : IsUtf8 (v.erase x) := by
  by_cases hm : x ∈ v
  · obtain ⟨a, b, hab, he, hr⟩ := List.exists_erase_eq hm
    rw [hr]
    rw [← utf8Valid_iff, he, utf8Valid_cut a b hx] at h
    simp only [Bool.and_eq_true] at h
    exact isUtf8_append ((utf8Valid_iff _).1 h.1) ((utf8Valid_iff _).1 h.2)
  · rw [List.erase_of_not_mem hm]
    exact h

theorem isUtf8_filter {x : Byte} (hx : x < 0x80) : ∀ (n : Nat) (v : Bytes), v.length ≤ n → IsUtf8 v →
    IsUtf8 (v.filter (fun b => decide (b ≠ x))) := by
  intro n
  induction n with
  | zero =>
    intro v hn _
    have : v = [] := List.length_eq_zero_iff.1 (by omega)
    rw [this]
    exact isUtf8_nil
  | succ n ih =>
    intro v hn h
    by_cases hm : x ∈ v
    · obtain ⟨a, b, hab, he, -⟩ := List.exists_erase_eq hm
      subst he
      rw [← utf8Valid_iff, utf8Valid_cut a b hx] at h
      simp only [Bool.and_eq_true] at h
      rw [List.filter_append, List.filter_cons_of_neg (by simp)]
      refine isUtf8_append ?_ (ih b (by simp at hn; omega) ((utf8Valid_iff _).1 h.2))
      rw [List.filter_eq_self.2]
      · exact (utf8Valid_iff _).1 h.1
      · intro y hy
        simp only [ne_eq, decide_not, Bool.not_eq_eq_eq_not, Bool.not_true, decide_eq_false_iff_not]
        rintro rfl
        exact hab hy
    · rw [List.filter_eq_self.2]
      · exact h
      · intro y hy
        simp only [ne_eq, decide_not, Bool.not_eq_eq_eq_not, Bool.not_true, decide_eq_false_iff_not]
        rintro rfl
        exact hm hy

/-- the functions on texts yield texts -/
def TextEnv (E : FmtEnv) : Prop :=
  ∀ v, IsUtf8 v → IsUtf8 (E.lower v) ∧ IsUtf8 (E.upper v) ∧ IsUtf8 (E.trim v)

/-- the values of the field are texts -/
def TextField (f : Field) : Prop := ∀ s ∈ f.subfields, IsUtf8 s.value

theorem modText_utf8 {E : FmtEnv} (hE : TextEnv E) {t : Bytes} {m : Bytes → Bytes} (h : ModText E t m) {v : Bytes}
    (hv : IsUtf8 v) : IsUtf8 (m v) := by
  cases h with
  | none => exact hv
  | @some ls _ _ =>
    have on : ∀ (c : Char) (f : Bytes → Bytes), (∀ v, IsUtf8 v → IsUtf8 (f v)) → ∀ v, IsUtf8 v →
        IsUtf8 (if UInt8.ofNat c.toNat ∈ ls then f v else v) := by
      intro c f hf v hv
      split
      · exact hf v hv
      · exact hv
    unfold modified
    exact on _ _ (fun v hv => (hE v hv).2.1) _ (on _ _ (fun v hv => (hE v hv).1) _
      (on _ _ (fun v hv => isUtf8_filter (by decide) _ v (Nat.le_refl _) hv) _
        (on _ _ (fun v hv => (hE v hv).2.2) _ (on _ _ (fun v hv => isUtf8_erase (by decide) hv) _ hv))))

theorem affix_utf8 {t s : Bytes} (h : AffixText t s) : IsUtf8 s := by
  cases h with
  | none => exact isUtf8_nil
  | some h =>
    obtain ⟨_, _, _, _, _, h, _⟩ := h
    exact stringText_utf8 h

theorem taken_utf8 {strip : Bool} {cs : Bytes} {n : Nat} {pre suf : Bytes} (hp : IsUtf8 pre) (hs : IsUtf8 suf)
    {f : Field} (hf : TextField f) : IsUtf8 (taken strip cs n pre suf f) := by
  unfold taken
  apply isUtf8_flatten
  intro x hx
  obtain ⟨s, h1, rfl⟩ := List.mem_map.1 hx
  have h2 := hf s (List.mem_filter.1 (List.mem_of_mem_take h1)).1
  refine isUtf8_append (isUtf8_append hp ?_) hs
  split
  · exact isUtf8_erase (by decide) h2
  · exact h2

theorem valueText_utf8 {E : FmtEnv} {o : FmtOpts} (hE : TextEnv E) {t : Bytes} {g : Field → Bytes}
    (h : ValueText E o t g) {f : Field} (hf : TextField f) : IsUtf8 (g f) := by
  cases h with
  | mk h1 _ h2 _ _ h3 =>
    obtain ⟨_, _, _, _, _, h1, _⟩ := h1
    exact modText_utf8 hE h1 (taken_utf8 (affix_utf8 h2) (affix_utf8 h3) hf)

theorem andThen_utf8 {gs : List (Field → Bytes)} {f : Field} (h : ∀ g ∈ gs, IsUtf8 (g f)) : IsUtf8 (andThen gs f) := by
  unfold andThen
  apply isUtf8_flatten
  intro x hx
  obtain ⟨g, hg, rfl⟩ := List.mem_map.1 ((List.takeWhile_sublist _).subset hx)
  exact h g hg

theorem concat_utf8 {gs : List (Field → Bytes)} {f : Field} (h : ∀ g ∈ gs, IsUtf8 (g f)) : IsUtf8 (concat gs f) := by
  unfold concat
  apply isUtf8_flatten
  intro x hx
  obtain ⟨g, hg, rfl⟩ := List.mem_map.1 hx
  exact h g hg

theorem parts_one {f : Field} {g : Field → Bytes} (h : IsUtf8 (g f)) : ∀ x ∈ [g], IsUtf8 (x f) := by
  simpa using h

theorem parts_cons {f : Field} {g : Field → Bytes} {gs : List (Field → Bytes)} (h : IsUtf8 (g f))
    (h' : ∀ x ∈ gs, IsUtf8 (x f)) : ∀ x ∈ g :: gs, IsUtf8 (x f) := by
  intro x hx
  rcases List.mem_cons.1 hx with rfl | hx
  · exact h
  · exact h' x hx

mutual
theorem groupText_utf8 {E : FmtEnv} {o : FmtOpts} (hE : TextEnv E) {f : Field} (hf : TextField f) {t : Bytes}
    {g : Field → Bytes} : GroupText E o t g → IsUtf8 (g f)
  | .mk _ h1 h2 _ _ _ _ => modText_utf8 hE h1 (innerText_utf8 hE hf h2)
theorem innerText_utf8 {E : FmtEnv} {o : FmtOpts} (hE : TextEnv E) {f : Field} (hf : TextField f) {t : Bytes}
    {g : Field → Bytes} : InnerText E o t g → IsUtf8 (g f)
  | .list _ h _ => fmtListText_utf8 hE hf h
  | .value _ h _ => valueText_utf8 hE h hf
theorem fmtListText_utf8 {E : FmtEnv} {o : FmtOpts} (hE : TextEnv E) {f : Field} (hf : TextField f) {t : Bytes}
    {g : Field → Bytes} : FmtListText E o t g → IsUtf8 (g f)
  | .cons h _ => concat_utf8 (consText_utf8 hE hf h)
  | .andThen h _ => andThen_utf8 (andText_utf8 hE hf h)
theorem andText_utf8 {E : FmtEnv} {o : FmtOpts} (hE : TextEnv E) {f : Field} (hf : TextField f) {t : Bytes}
    {gs : List (Field → Bytes)} : AndText E o t gs → ∀ g ∈ gs, IsUtf8 (g f)
  | .one h => parts_one (partText_utf8 hE hf h)
  | .more h _ h' => parts_cons (partText_utf8 hE hf h) (andText_utf8 hE hf h')
theorem consText_utf8 {E : FmtEnv} {o : FmtOpts} (hE : TextEnv E) {f : Field} (hf : TextField f) {t : Bytes}
    {gs : List (Field → Bytes)} : ConsText E o t gs → ∀ g ∈ gs, IsUtf8 (g f)
  | .one h => parts_one (consPartText_utf8 hE hf h)
  | .more h _ h' => parts_cons (consPartText_utf8 hE hf h) (consText_utf8 hE hf h')
theorem partText_utf8 {E : FmtEnv} {o : FmtOpts} (hE : TextEnv E) {f : Field} (hf : TextField f) {t : Bytes}
    {g : Field → Bytes} : PartText E o t g → IsUtf8 (g f)
  | .group h => groupText_utf8 hE hf h
  | .value h => valueText_utf8 hE h hf
theorem consPartText_utf8 {E : FmtEnv} {o : FmtOpts} (hE : TextEnv E) {f : Field} (hf : TextField f) {t : Bytes}
    {g : Field → Bytes} : ConsPartText E o t g → IsUtf8 (g f)
  | .andThen h _ => andThen_utf8 (andText_utf8 hE hf h)
  | .item h => partText_utf8 hE hf h
end

theorem formatText_utf8 {rx : Bytes → Bool} {E : FmtEnv} {o : FmtOpts} (hE : TextEnv E) {t : Bytes} {sel : Field → Prop}
    {v : Den (List Subfield)} {g : Field → Bytes} (h : FormatText rx E o t sel v g) {r : Record}
    (hr : ∀ f ∈ r, TextField f) : ∀ x ∈ rendered sel v g r, IsUtf8 x := by
  intro x hx
  unfold rendered at hx
  obtain ⟨f, hf, rfl⟩ := List.mem_map.1 (List.mem_filter.1 hx).1
  have hf := hr f (List.mem_filter.1 hf).1
  cases h with
  | mk _ _ h _ _ =>
    cases h with
    | inner h => exact innerText_utf8 hE hf h
    | group _ h _ => exact groupText_utf8 hE hf h

/-- **C08** on a string record, a path yields the values of the byte record: the `unwrap` of each of
them succeeds. -/
theorem C08_path (E : Env) (o : Opts) (p : Path) (x : ByteRecord) (h : StringReach x) :
    p.stringValues E o x.record = p.values E o x.record ∧
    ∀ vs, p.values E o x.record = some vs → ∀ v ∈ vs, IsUtf8 v := by
  refine ⟨C23_string E o p x h, fun vs hvs v hv => ?_⟩
  have h1 := C23_string E o p x h
  rcases Classical.em (IsUtf8 v) with h2 | h2
  · exact h2
  · have := (C23_unwrap E o p x.record vs hvs).1.2 ⟨v, hv, h2⟩
    rw [this, hvs] at h1
    simp at h1

/-- **C08** on a string record, a format yields texts, so that nothing is lost by making strings of
them. -/
theorem C08_format (rx : Bytes → Bool) (s s' : Levels) (text : Bytes) (fm : Format)
    (h : Format.new rx s text = (some fm, s')) (E : FmtEnv) (hE : TextEnv E) (o : FmtOpts)
    (hr : RegexOk rx E.toEnv o.opts) (x : ByteRecord) (hx : StringReach x) :
    ∃ vs, fm.run E o x.record = some vs ∧ ∀ v ∈ vs, IsUtf8 v := by
  obtain ⟨sel, v, g, h1, h2⟩ := C27_text rx s s' text fm h E o hr
  exact ⟨_, h2 _, formatText_utf8 hE h1 (C08_values_utf8 x hx)⟩

/-! ## queries -/

theorem join_utf8 {sep : Bytes} (hs : IsUtf8 sep) : ∀ {xs : List Bytes}, (∀ x ∈ xs, IsUtf8 x) → IsUtf8 (join sep xs)
  | [], _ => isUtf8_nil
  | [x], h => h x (by simp)
  | x :: y :: xs, h => by
    rw [join]
    exact isUtf8_append (isUtf8_append (h x (by simp)) hs) (join_utf8 hs (fun z hz => h z (List.mem_cons_of_mem _ hz)))

/-- every cell is a text -/
def TextRows (rows : List (List Bytes)) : Prop := ∀ row ∈ rows, ∀ v ∈ row, IsUtf8 v

theorem product_text : ∀ {Rs : List (List (List Bytes))}, (∀ R ∈ Rs, TextRows R) → TextRows (product Rs)
  | [], _ => by
    intro row hrow v hv
    rw [product, List.mem_singleton] at hrow
    subst hrow
    simp at hv
  | R :: Rs, h => by
    intro row hrow v hv
    rw [product] at hrow
    obtain ⟨a, ha, hrow⟩ := List.mem_flatMap.1 hrow
    obtain ⟨b, hb, rfl⟩ := List.mem_map.1 hrow
    rcases List.mem_append.1 hv with hv | hv
    · exact h R (by simp) a ha v hv
    · exact product_text (fun R hR => h R (by simp [hR])) b hb v hv

theorem fragText_text {rx : Bytes → Bool} {E : FmtEnv} {o : QueryOpts} (hE : TextEnv E) (hs : IsUtf8 o.separator)
    {t : Bytes} {n : Nat} {m : Record → List (List Bytes)} (h : FragText rx E o t n m) {r : Record}
    (hr : ∀ f ∈ r, TextField f) : TextRows (m r) := by
  cases h with
  | @path sel v css h _ =>
    have hcol : ∀ f ∈ hits sel v r, ∀ cs, ∀ x ∈ columnValues f cs, IsUtf8 x := by
      intro f hf cs x hx
      obtain ⟨s, hsf, rfl⟩ := List.mem_map.1 hx
      exact hr f (List.mem_filter.1 hf).1 s (List.mem_filter.1 hsf).1
    unfold pathRows
    split
    · intro row hrow x hx
      rw [List.mem_singleton.1 hrow] at hx
      obtain ⟨_, _, rfl⟩ := List.mem_map.1 hx
      exact isUtf8_nil
    · split
      · intro row hrow x hx
        obtain ⟨f, hf, rfl⟩ := List.mem_map.1 hrow
        obtain ⟨cs, _, rfl⟩ := List.mem_map.1 hx
        exact join_utf8 hs (hcol f hf cs)
      · intro row hrow x hx
        obtain ⟨f, hf, hrow⟩ := List.mem_flatMap.1 hrow
        refine product_text ?_ row hrow x hx
        intro R hR
        obtain ⟨cs, _, rfl⟩ := List.mem_map.1 hR
        intro row hrow x hx
        obtain ⟨y, hy, rfl⟩ := List.mem_map.1 hrow
        rw [List.mem_singleton.1 hx]
        unfold cells at hy
        split at hy
        · rw [List.mem_singleton.1 hy]; exact isUtf8_nil
        · exact hcol f hf cs y hy
  | literal h =>
    intro row hrow x hx
    rw [List.mem_singleton.1 hrow] at hx
    rw [List.mem_singleton.1 hx]
    exact stringText_utf8 h
  | format h =>
    have hf := formatText_utf8 hE h hr
    intro row hrow x hx
    dsimp only at hrow
    unfold stringRows at hrow
    split at hrow
    · rw [List.mem_singleton.1 hrow] at hx
      rw [List.mem_singleton.1 hx]
      exact isUtf8_nil
    · obtain ⟨y, hy, rfl⟩ := List.mem_map.1 hrow
      rw [List.mem_singleton.1 hx]
      exact hf y hy

theorem queryText_text {rx : Bytes → Bool} {E : FmtEnv} {o : QueryOpts} (hE : TextEnv E) (hs : IsUtf8 o.separator)
    {r : Record} (hr : ∀ f ∈ r, TextField f) {t : Bytes} {ms : List (Nat × (Record → List (List Bytes)))}
    (h : QueryText rx E o t ms) : ∀ m ∈ ms, TextRows (m.2 r) := by
  induction h with
  | one h =>
    intro m hm
    rw [List.mem_singleton.1 hm]
    exact fragText_text hE hs h hr
  | more h _ _ ih =>
    intro m hm
    rcases List.mem_cons.1 hm with rfl | hm
    · exact fragText_text hE hs h hr
    · exact ih m hm

/-- **C08** on a string record, every cell of the table of a query is a text. -/
theorem C08_query (rx : Bytes → Bool) (s s' : Levels) (text : Bytes) (q : Query)
    (h : Query.new rx s text = (some q, s')) (E : FmtEnv) (hE : TextEnv E) (o : QueryOpts) (hs : IsUtf8 o.separator)
    (hr : RegexOk rx E.toEnv o.opts) (x : ByteRecord) (hx : StringReach x) :
    ∃ rows, q.run E o x.record = some rows ∧ ∀ row ∈ rows, ∀ v ∈ row, IsUtf8 v := by
  obtain ⟨ms, h1, h2⟩ := C25_text rx s s' text q h E o hr
  refine ⟨_, h2 _, product_text ?_⟩
  intro R hR
  obtain ⟨m, hm, rfl⟩ := List.mem_map.1 hR
  have ht := queryText_text hE hs (C08_values_utf8 x hx) h1 m hm
  split
  · intro row hrow v hv
    unfold merged at hrow
    rw [List.mem_singleton.1 hrow] at hv
    obtain ⟨j, _, rfl⟩ := List.mem_map.1 hv
    refine join_utf8 hs ?_
    intro y hy
    obtain ⟨row, hrow, rfl⟩ := List.mem_map.1 hy
    rw [List.getD_eq_getElem?_getD]
    cases hj : row[j]? with
    | none => exact isUtf8_nil
    | some z => exact ht row hrow z (List.mem_of_getElem? hj)
  · exact ht

/-! ## examples -/

/-- functions on texts for the examples: they make texts longer and shorter -/
def textFmt : FmtEnv := { toyFmt with lower := fun v => v ++ bs "ß", upper := fun _ => bs "Ä", trim := fun v => v }

theorem textFmt_ok : TextEnv textFmt := fun _ hv =>
  ⟨isUtf8_append hv ((utf8Valid_iff _).1 (by decide +kernel)),
    (utf8Valid_iff (bs "Ä")).1 (by decide +kernel), hv⟩

/-- the sample, as a string record with one field -/
def textSample : ByteRecord := (ByteRecord.mk (some sampleBytes) sample).retain (fun f => f.tag == bs "012A")

theorem textSample_reach : StringReach textSample :=
  .retain _ (.tryFrom (b := ⟨some sampleBytes, sample⟩) (by decide +kernel))

example (p : Path) := C08_path toyEnv ⟨false⟩ p _ textSample_reach

example : ∃ fm, fmtM "012A/*{?l a <*> 'ü' b}" = some fm ∧
    ∃ vs, fm.run textFmt ⟨false, false⟩ textSample.record = some vs ∧ ∀ v ∈ vs, IsUtf8 v := by
  obtain ⟨fm, h⟩ := Option.isSome_iff_exists.1
    (by decide +kernel : (fmtM "012A/*{?l a <*> 'ü' b}").isSome)
  exact ⟨fm, h, C08_format _ _ _ _ fm (Prod.ext h rfl) textFmt textFmt_ok ⟨false, false⟩
    ⟨fun _ _ => rfl, fun _ _ => rfl⟩ _ textSample_reach⟩

example : (fmtM "012A/*{?l a <*> 'ü' b}").bind (fun m => m.run textFmt ⟨false, false⟩ textSample.record)
    = some [bs "1ßü"] := by decide +kernel

example : ∃ q, queryM "012A/*.a, 012A/*{?u b}, 'ö'" = some q ∧
    ∃ rows, q.run textFmt ⟨false, bs "|", false, false⟩ textSample.record = some rows ∧
      ∀ row ∈ rows, ∀ v ∈ row, IsUtf8 v := by
  obtain ⟨q, h⟩ := Option.isSome_iff_exists.1
    (by decide +kernel : (queryM "012A/*.a, 012A/*{?u b}, 'ö'").isSome)
  exact ⟨q, h, C08_query _ _ _ _ q (Prod.ext h rfl) textFmt textFmt_ok ⟨false, bs "|", false, false⟩
    ((utf8Valid_iff (bs "|")).1 (by decide +kernel)) ⟨fun _ _ => rfl, fun _ _ => rfl⟩ _ textSample_reach⟩

example : (queryM "012A/*.a, 012A/*{?u b}, 'ö'").bind (fun q => q.run textFmt ⟨false, bs "|", false, false⟩
    textSample.record) = some [[bs "1", bs "Ä", bs "ö"]] := by decide +kernel

end Pica.Props
