import Verif.Model.Explode
import Verif.Spec.Explode

namespace Pica
open Spec

theorem pushRecord_eq (recs : List Record) (main loc acc : Record) :
    pushRecord recs main loc acc = recs ++ (if acc = [] then [] else [main ++ loc ++ acc]) := by
  unfold pushRecord; cases acc <;> simp

/-! ## Cuts -/

/-- a cut exists for every relation -/
theorem cut_exists {α : Type} (R : α → α → Prop) (l : List α) : ∃ segs, CutAt R l segs := by
  induction l with
  | nil => exact ⟨[], ⟨rfl, by simp, by simp, by intro u s t v h; simp at h⟩⟩
  | cons a l ih =>
    obtain ⟨segs, h⟩ := ih
    cases segs with
    | nil =>
      have : l = [] := by simpa using h.whole.symm
      subst this
      refine ⟨[[a]], ⟨rfl, by simp, ?_, ?_⟩⟩
      · intro s hs u x y v e
        simp only [List.mem_singleton] at hs
        subst hs
        have := congrArg List.length e
        simp at this; omega
      · intro u s t v e
        have := congrArg List.length e
        simp at this; omega
    | cons s ss =>
      have hs : s ≠ [] := h.nonempty s (by simp)
      obtain ⟨b, s', rfl⟩ : ∃ b s', s = b :: s' := by cases s with
        | nil => exact absurd rfl hs
        | cons b s' => exact ⟨b, s', rfl⟩
      by_cases hR : R a b
      · refine ⟨[a] :: (b :: s') :: ss, ⟨by rw [← h.whole]; rfl, ?_, ?_, ?_⟩⟩
        · intro t ht; simp only [List.mem_cons] at ht
          rcases ht with rfl | ht
          · simp
          · exact h.nonempty t (by simpa using ht)
        · intro t ht u x y v e
          simp only [List.mem_cons] at ht
          rcases ht with rfl | ht
          · have := congrArg List.length e
            simp at this; omega
          · exact h.inside t (by simpa using ht) u x y v e
        · intro u t t' v e
          cases u with
          | nil => simp at e; obtain ⟨rfl, rfl, rfl⟩ := e; exact ⟨a, b, rfl, rfl, hR⟩
          | cons u0 u => simp at e; exact h.between u t t' v (by simpa using e.2)
      · refine ⟨(a :: b :: s') :: ss, ⟨by rw [← h.whole]; rfl, ?_, ?_, ?_⟩⟩
        · intro t ht; simp only [List.mem_cons] at ht
          rcases ht with rfl | ht
          · simp
          · exact h.nonempty t (by simp [ht])
        · intro t ht u x y v e
          simp only [List.mem_cons] at ht
          rcases ht with rfl | ht
          · cases u with
            | nil => simp at e; obtain ⟨rfl, rfl, rfl⟩ := e; exact hR
            | cons u0 u => simp at e; exact h.inside (b :: s') (by simp) u x y v e.2
          · exact h.inside t (by simp [ht]) u x y v e
        · intro u t t' v e
          cases u with
          | nil =>
            simp at e
            obtain ⟨rfl, rfl⟩ := e
            obtain ⟨x, y, h1, h2, h3⟩ := h.between [] (b :: s') t' v rfl
            exact ⟨x, y, by simpa using h1, h2, h3⟩
          | cons u0 u => simp at e; exact h.between ((b :: s') :: u) t t' v (by simp [e.2])

theorem Spec.CutAt.tail {α : Type} {R : α → α → Prop} {l : List α} {s ss} (h : CutAt R l (s :: ss)) :
    CutAt R ss.flatten ss :=
  ⟨rfl, fun t ht => h.nonempty t (by simp [ht]), fun t ht => h.inside t (by simp [ht]),
    fun u x y v e => h.between (s :: u) x y v (by simp [e])⟩

/-- no copy field is followed by a local field -/
def NoCut (l : List Field) : Prop := ∀ u a b v, l = u ++ a :: b :: v → ¬ NewLocal a b

theorem NoCut.tail {a : Field} {l : List Field} (h : NoCut (a :: l)) : NoCut l :=
  fun u x y v e => h (a :: u) x y v (by simp [e])

theorem NoCut.prefix {l l' : List Field} (h : NoCut (l ++ l')) : NoCut l :=
  fun u x y v e => h u x y (v ++ l') (by simp [e])

/-- all levels are defined -/
def Leveled (l : List Field) : Prop := ∀ f ∈ l, ∃ k, f.level = some k

theorem peekLocal_cons {f : Field} {k : Level} (h : f.level = some k) (fs : List Field) :
    peekLocal (f :: fs) = some (decide (k = .local)) := by simp [peekLocal, h]

theorem peekLocal_false {f : Field} {fs : List Field} (hf : f.level = some .copy)
    (hl : Leveled fs) (h : NoCut (f :: fs)) : peekLocal fs = some false := by
  cases fs with
  | nil => rfl
  | cons g fs =>
    obtain ⟨k, hk⟩ := hl g (by simp)
    rw [peekLocal_cons hk]
    have := h [] f g fs rfl
    cases k <;> simp_all [NewLocal]

theorem NoCut.peek {f : Field} {p rest : List Field} (h : NoCut (f :: p ++ rest.take 1)) :
    ∀ fs, p ++ rest = fs → NoCut (f :: fs.take 1) := by
  rintro fs rfl
  intro u a b v e
  cases p with
  | nil => exact h u a b v (by simpa using e)
  | cons g p =>
    simp only [List.cons_append, List.take_succ_cons, List.take_zero] at e
    rcases u with _ | ⟨u0, u⟩
    · simp only [List.nil_append, List.cons.injEq] at e
      obtain ⟨rfl, rfl, _⟩ := e
      exact h [] f g (p ++ rest.take 1) rfl
    · have := congrArg List.length e
      simp at this; omega

theorem peekLocal_take (fs : List Field) : peekLocal (fs.take 1) = peekLocal fs := by
  cases fs <;> rfl

theorem NoCut.peekLocal {f : Field} {p rest : List Field} (hf : f.level = some .copy)
    (hl : Leveled (p ++ rest)) (h : NoCut (f :: p ++ rest.take 1)) :
    Pica.peekLocal (p ++ rest) = some false := by
  rw [← peekLocal_take]
  exact peekLocal_false hf (fun g hg => hl g (List.mem_of_mem_take hg)) (h.peek _ rfl)

/-! ## Local level -/

theorem localLoop_run : ∀ (p : List Field) (rest main acc recs), Leveled (p ++ rest) →
    NoCut (p ++ rest.take 1) →
    localLoop (p ++ rest) main acc recs =
      localLoop rest (main ++ ofLevel .main p) (acc ++ belowMain p) recs := by
  intro p
  induction p with
  | nil => intro rest main acc recs _ _; simp [ofLevel, belowMain]
  | cons f p ih =>
    intro rest main acc recs hl hn
    have hl' : Leveled (p ++ rest) := fun g hg => hl g (by simp only [List.cons_append, List.mem_cons, hg, or_true])
    obtain ⟨k, hk⟩ := hl f (by simp)
    rw [List.cons_append, localLoop, hk]
    cases k with
    | main =>
      dsimp only
      rw [ih rest _ _ _ hl' hn.tail]
      simp [ofLevel, belowMain, hk]
    | «local» =>
      dsimp only
      rw [ih rest _ _ _ hl' hn.tail]
      simp [ofLevel, belowMain, hk]
    | copy =>
      simp only [hn.peekLocal hk hl']
      rw [ih rest _ _ _ hl' hn.tail]
      simp [ofLevel, belowMain, hk]

theorem localLoop_cut {f g : Field} (fs main acc recs) (hf : f.level = some .copy)
    (hg : g.level = some .local) :
    localLoop (f :: g :: fs) main acc recs =
      localLoop (g :: fs) main [] (pushRecord recs main [] (acc ++ [f])) := by
  rw [localLoop, hf]
  simp [peekLocal_cons hg]

theorem getLast?_eq_some_append {α : Type} {l : List α} {a : α} (h : l.getLast? = some a) :
    ∃ u, l = u ++ [a] := by
  rcases List.eq_nil_or_concat l with rfl | ⟨u, b, rfl⟩
  · simp at h
  · simp at h; exact ⟨u, by simp [h]⟩

theorem head?_eq_some_cons {α : Type} {l : List α} {a : α} (h : l.head? = some a) :
    ∃ u, l = a :: u := by
  cases l with
  | nil => simp at h
  | cons b l => simp at h; exact ⟨l, by rw [h]⟩

theorem ofLevel_append (k : Level) (a b : List Field) : ofLevel k (a ++ b) = ofLevel k a ++ ofLevel k b := by
  simp [ofLevel]

theorem belowMain_append (a b : List Field) : belowMain (a ++ b) = belowMain a ++ belowMain b := by
  simp [belowMain]

theorem localLoop_segs : ∀ (segs : List (List Field)) (l main recs), CutAt NewLocal l segs →
    Leveled l → localLoop l main [] recs = some (recs ++ localRecords main segs) := by
  intro segs
  induction segs with
  | nil =>
    intro l main recs h _
    have : l = [] := by simpa using h.whole.symm
    subst this
    simp [localLoop, pushRecord, localRecords]
  | cons s ss ih =>
    intro l main recs h hl
    have hwhole : s ++ ss.flatten = l := by simpa using h.whole
    have hin : NoCut s := h.inside s (by simp)
    have hl2 : Leveled (s ++ ss.flatten) := hwhole ▸ hl
    have hltail : Leveled ss.flatten := fun f hf => hl2 f (List.mem_append.2 (.inr hf))
    cases ss with
    | nil =>
      have e : l = s ++ [] := by simpa using hwhole.symm
      subst e
      rw [localLoop_run s [] main [] recs hl (by simpa using hin)]
      simp [localLoop, pushRecord_eq, localRecords]
    | cons t ss =>
      obtain ⟨a, b, ha, hb, hR⟩ := h.between [] s t ss rfl
      obtain ⟨u, rfl⟩ := getLast?_eq_some_append ha
      obtain ⟨t', rfl⟩ := head?_eq_some_cons hb
      rw [← hwhole, List.append_assoc]
      rw [List.append_assoc] at hl2
      rw [localLoop_run u _ main [] recs hl2 (by simpa using hin)]
      simp only [List.flatten_cons, List.cons_append, List.nil_append]
      rw [localLoop_cut _ _ _ _ hR.1 hR.2]
      have := ih ((b :: t') :: ss).flatten (main ++ ofLevel .main u) (pushRecord recs (main ++ ofLevel .main u) []
        (belowMain u ++ [a])) h.tail hltail
      simp only [List.flatten_cons, List.cons_append] at this
      rw [this, pushRecord_eq]
      have e1 : belowMain (u ++ [a]) = belowMain u ++ [a] := by
        rw [belowMain_append]; simp [belowMain, hR.1]
      have e2 : ofLevel .main (u ++ [a]) = ofLevel .main u := by
        rw [ofLevel_append]; simp [ofLevel, hR.1]
      simp only [localRecords, e1, e2]
      simp

/-! ## Copy level -/

/-- the occurrence of the last copy field -/
def cntOf (count : Option Bytes) : List Field → Option Bytes
  | [] => count
  | f :: fs => cntOf (if f.level = some .copy then f.occ else count) fs

theorem cntOf_same {o count : Option Bytes} : ∀ {p : List Field},
    (∀ f ∈ ofLevel .copy p, f.occ = o) → count = o ∨ ofLevel .copy p ≠ [] → cntOf count p = o := by
  intro p
  induction p generalizing count with
  | nil => intro _ h; rcases h with h | h <;> simp_all [cntOf, ofLevel]
  | cons f p ih =>
    intro h1 h2
    rw [cntOf]
    by_cases hf : f.level = some .copy
    · rw [if_pos hf]
      exact ih (fun g hg => h1 g (by simp only [ofLevel, List.mem_filter] at hg ⊢; simp [hg])) 
        (.inl (h1 f (by simp [ofLevel, hf])))
    · rw [if_neg hf]
      refine ih (fun g hg => h1 g (by simp only [ofLevel, List.mem_filter] at hg ⊢; simp [hg])) ?_
      simpa [ofLevel, hf] using h2

theorem copyLoop_run : ∀ (p : List Field) (rest main loc cp count recs), Leveled (p ++ rest) →
    NoCut (p ++ rest.take 1) →
    (∀ f ∈ ofLevel .copy p, ∀ g ∈ ofLevel .copy p, f.occ = g.occ) →
    (cp = [] ∨ ∀ f ∈ ofLevel .copy p, f.occ = count) →
    copyLoop (p ++ rest) main loc cp count recs =
      copyLoop rest (main ++ ofLevel .main p) (loc ++ ofLevel .local p) (cp ++ ofLevel .copy p)
        (cntOf count p) recs := by
  intro p
  induction p with
  | nil => intro rest main loc cp count recs _ _ _ _; simp [ofLevel, cntOf]
  | cons f p ih =>
    intro rest main loc cp count recs hl hn hs hc
    have hl' : Leveled (p ++ rest) := fun g hg => hl g (by simp only [List.cons_append, List.mem_cons, hg, or_true])
    have hmem : ∀ g ∈ ofLevel .copy p, g ∈ ofLevel .copy (f :: p) := fun g hg => by
      simp only [ofLevel, List.mem_filter] at hg ⊢; simp [hg]
    have hs' : ∀ f ∈ ofLevel .copy p, ∀ g ∈ ofLevel .copy p, f.occ = g.occ :=
      fun a ha b hb => hs a (hmem a ha) b (hmem b hb)
    have hc' : cp = [] ∨ ∀ f ∈ ofLevel .copy p, f.occ = count := hc.imp id (fun h g hg => h g (hmem g hg))
    obtain ⟨k, hk⟩ := hl f (by simp)
    rw [List.cons_append, copyLoop, hk]
    cases k with
    | main =>
      dsimp only
      rw [ih rest _ _ _ _ _ hl' hn.tail hs' hc']
      simp [ofLevel, hk, cntOf]
    | «local» =>
      dsimp only
      rw [ih rest _ _ _ _ _ hl' hn.tail hs' hc']
      simp [ofLevel, hk, cntOf]
    | copy =>
      have hf : f ∈ ofLevel .copy (f :: p) := by simp [ofLevel, hk]
      simp only [hn.peekLocal hk hl']
      have e1 : (if count ≠ f.occ then pushRecord recs main loc cp else recs) = recs := by
        split
        · rename_i hne
          rcases hc with rfl | hc
          · rfl
          · exact absurd (hc f hf).symm hne
        · rfl
      have e2 : (if count ≠ f.occ then f.occ else count) = f.occ := by
        split
        · rfl
        · rename_i h; exact Classical.not_not.1 h
      have e3 : (if count ≠ f.occ then [] else cp) = cp := by
        split
        · rename_i hne
          rcases hc with rfl | hc
          · rfl
          · exact absurd (hc f hf).symm hne
        · rfl
      rw [e1, e2, e3, ih rest _ _ _ _ _ hl' hn.tail hs' (.inr (fun g hg => hs g (hmem g hg) f hf))]
      simp [ofLevel, hk, cntOf]

/-- a copy field with a new occurrence ends the piece -/
theorem copyLoop_new {g : Field} (fs main loc cp count recs) (hg : g.level = some .copy)
    (hc : count ≠ g.occ) :
    copyLoop (g :: fs) main loc cp count recs =
      copyLoop (g :: fs) main loc [] count (pushRecord recs main loc cp) := by
  rw [copyLoop, copyLoop, hg]
  simp only [hc, ne_eq, not_false_eq_true, if_true]
  rfl

/-- a copy field before a local field ends the segment -/
theorem copyLoop_cut {f g : Field} (fs main loc cp count recs) (hf : f.level = some .copy)
    (hg : g.level = some .local) (hc : cp = [] ∨ count = f.occ) :
    copyLoop (f :: g :: fs) main loc cp count recs =
      copyLoop (g :: fs) main [] [] none (pushRecord recs main loc (cp ++ [f])) := by
  rw [copyLoop, hf]
  simp only [peekLocal_cons hg, decide_true]
  congr 1
  by_cases h : count = f.occ
  · simp [h]
  · have : cp = [] := hc.resolve_right h
    subst this
    simp [h, pushRecord]

theorem Spec.Pieces.tail {s p q v} (h : Pieces s (p :: q :: v)) : Pieces (q :: v).flatten (q :: v) :=
  ⟨rfl, fun x hx => h.same x (List.mem_cons_of_mem _ hx),
    fun u x y w e => h.begins (p :: u) x y w (by simp [e])⟩

/-- the pieces of the last segment -/
theorem copyLoop_last : ∀ (ps : List (List Field)) (s main loc count recs), Pieces s ps →
    Leveled s → NoCut s →
    copyLoop s main loc [] count recs = some (recs ++ pieceRecords main loc ps) := by
  intro ps
  induction ps with
  | nil =>
    intro s main loc count recs h _ _
    have : s = [] := by simpa using h.whole.symm
    subst this; simp [copyLoop, pushRecord, pieceRecords]
  | cons p v ih =>
    intro s main loc count recs h hl hn
    have hwhole : p ++ v.flatten = s := by simpa using h.whole
    subst hwhole
    have hn1 : NoCut (p ++ (v.flatten).take 1) := by
      have : p ++ v.flatten = (p ++ (v.flatten).take 1) ++ (v.flatten).drop 1 := by
        rw [List.append_assoc, List.take_append_drop]
      rw [this] at hn
      exact hn.prefix
    rw [copyLoop_run p v.flatten main loc [] count recs hl hn1 (h.same p (by simp)) (.inl rfl)]
    cases v with
    | nil => simp [copyLoop, pushRecord_eq, pieceRecords]
    | cons q v =>
      obtain ⟨f, g, hf, hg, hgl, hne⟩ := h.begins [] p q v rfl
      obtain ⟨q', rfl⟩ := head?_eq_some_cons hg
      have hcnt : cntOf count p = f.occ := cntOf_same (fun x hx => h.same p (by simp) x hx f hf)
        (.inr (fun hn => by rw [hn] at hf; simp at hf))
      rw [hcnt]
      have := ih ((g :: q') :: v).flatten (main ++ ofLevel .main p) (loc ++ ofLevel .local p) f.occ
        (pushRecord recs (main ++ ofLevel .main p) (loc ++ ofLevel .local p) (ofLevel .copy p)) h.tail
        (fun x hx => hl x (List.mem_append.2 (.inr hx)))
        (fun u a b w e => hn (p ++ u) a b w (by rw [e]; simp))
      simp only [List.flatten_cons, List.cons_append] at this ⊢
      rw [copyLoop_new _ _ _ _ _ _ hgl hne, List.nil_append, this, pushRecord_eq]
      simp [pieceRecords]

/-- the pieces of a segment followed by another one -/
theorem copyLoop_seg : ∀ (ps : List (List Field)) (s rest main loc count recs) (a b : Field), Pieces s ps →
    Leveled (s ++ b :: rest) → NoCut s → s.getLast? = some a → a.level = some .copy →
    b.level = some .local →
    copyLoop (s ++ b :: rest) main loc [] count recs =
      copyLoop (b :: rest) (main ++ ofLevel .main s) [] [] none (recs ++ pieceRecords main loc ps) := by
  intro ps
  induction ps with
  | nil =>
    intro s rest main loc count recs a b h _ _ ha
    have : s = [] := by simpa using h.whole.symm
    subst this; simp at ha
  | cons p v ih =>
    intro s rest main loc count recs a b h hl hn ha hac hbl
    have hwhole : p ++ v.flatten = s := by simpa using h.whole
    cases v with
    | nil =>
      obtain ⟨u, hu⟩ := getLast?_eq_some_append ha
      have hp : p = u ++ [a] := by simpa [hu] using hwhole
      subst hu
      have hin : ∀ x ∈ ofLevel .copy u, x ∈ ofLevel .copy p := fun x hx => by
        rw [hp, ofLevel_append]; exact List.mem_append.2 (.inl hx)
      have hap : a ∈ ofLevel .copy p := by
        rw [hp, ofLevel_append]; exact List.mem_append.2 (.inr (by simp [ofLevel, hac]))
      have hs := h.same p (by simp)
      rw [List.append_assoc] at hl ⊢
      rw [copyLoop_run u _ main loc [] count recs hl (by simpa using hn)
        (fun x hx y hy => hs x (hin x hx) y (hin y hy)) (.inl rfl)]
      simp only [List.singleton_append, List.nil_append]
      have hc : ofLevel .copy u = [] ∨ cntOf count u = a.occ := by
        by_cases he : ofLevel .copy u = []
        · exact .inl he
        · exact .inr (cntOf_same (fun x hx => hs x (hin x hx) a hap) (.inr he))
      rw [copyLoop_cut _ _ _ _ _ _ hac hbl hc, pushRecord_eq]
      have e1 : ofLevel .copy (u ++ [a]) = ofLevel .copy u ++ [a] := by
        rw [ofLevel_append]; simp [ofLevel, hac]
      have e2 : ofLevel .main (u ++ [a]) = ofLevel .main u := by
        rw [ofLevel_append]; simp [ofLevel, hac]
      have e3 : ofLevel .local (u ++ [a]) = ofLevel .local u := by
        rw [ofLevel_append]; simp [ofLevel, hac]
      subst hp
      simp only [pieceRecords, e1, e2, e3, List.append_nil]
    | cons q v =>
      subst hwhole
      obtain ⟨f, g, hf, hg, hgl, hne⟩ := h.begins [] p q v rfl
      obtain ⟨q', rfl⟩ := head?_eq_some_cons hg
      have hcnt : cntOf count p = f.occ := cntOf_same (fun x hx => h.same p (by simp) x hx f hf)
        (.inr (fun hn => by rw [hn] at hf; simp at hf))
      have hn1 : NoCut (p ++ (((g :: q') :: v).flatten ++ b :: rest).take 1) := by
        have e : (((g :: q') :: v).flatten ++ b :: rest).take 1 = (((g :: q') :: v).flatten).take 1 := by simp
        rw [e]
        have e : p ++ ((g :: q') :: v).flatten = (p ++ (((g :: q') :: v).flatten).take 1) ++
          (((g :: q') :: v).flatten).drop 1 := by
            rw [List.append_assoc, List.take_append_drop]
        rw [e] at hn
        exact hn.prefix
      rw [List.append_assoc] at hl ⊢
      rw [copyLoop_run p _ main loc [] count recs hl hn1 (h.same p (by simp)) (.inl rfl), hcnt]
      have ha' : (((g :: q') :: v).flatten).getLast? = some a := by
        rw [List.getLast?_append] at ha
        cases hz : (((g :: q') :: v).flatten).getLast? with
        | none => simp at hz
        | some z => rw [hz] at ha; simpa using ha
      have := ih ((g :: q') :: v).flatten rest (main ++ ofLevel .main p) (loc ++ ofLevel .local p) f.occ
        (pushRecord recs (main ++ ofLevel .main p) (loc ++ ofLevel .local p) (ofLevel .copy p)) a b h.tail
        (fun x hx => hl x (List.mem_append.2 (.inr hx)))
        (fun u a b w e => hn (p ++ u) a b w (by rw [e]; simp)) ha' hac hbl
      simp only [List.flatten_cons, List.cons_append] at this ⊢
      rw [copyLoop_new _ _ _ _ _ _ hgl hne, List.nil_append, this, pushRecord_eq]
      simp [pieceRecords, ofLevel_append]

theorem copyLoop_segs : ∀ (segs : List (List (List Field))) (l main recs),
    CutAt NewLocal l (segs.map List.flatten) → (∀ s ∈ segs, Pieces s.flatten s) → Leveled l →
    copyLoop l main [] [] none recs = some (recs ++ copyRecords main segs) := by
  intro segs
  induction segs with
  | nil =>
    intro l main recs h _ _
    have : l = [] := by simpa using h.whole.symm
    subst this
    simp [copyLoop, pushRecord, copyRecords]
  | cons s ss ih =>
    intro l main recs h hp hl
    rw [List.map_cons] at h
    have hwhole : s.flatten ++ (ss.map List.flatten).flatten = l := by simpa using h.whole
    have hin : NoCut s.flatten := h.inside s.flatten (by simp)
    have hl2 : Leveled (s.flatten ++ (ss.map List.flatten).flatten) := hwhole ▸ hl
    have hltail : Leveled (ss.map List.flatten).flatten := fun f hf => hl2 f (List.mem_append.2 (.inr hf))
    cases ss with
    | nil =>
      have e : l = s.flatten := by simpa using hwhole.symm
      subst e
      rw [copyLoop_last s _ main [] none recs (hp s (by simp)) hl hin]
      simp [copyRecords]
    | cons t ss =>
      obtain ⟨a, b, ha, hb, hR⟩ := h.between [] s.flatten t.flatten (ss.map List.flatten) rfl
      obtain ⟨t', ht'⟩ := head?_eq_some_cons hb
      have ht := ih ((t :: ss).map List.flatten).flatten (main ++ ofLevel .main s.flatten)
        (recs ++ pieceRecords main [] s) h.tail (fun x hx => hp x (List.mem_cons_of_mem _ hx)) hltail
      rw [List.map_cons, List.flatten_cons, ht', List.cons_append] at ht hl2 hwhole
      rw [← hwhole, copyLoop_seg s s.flatten _ main [] none recs a b (hp s (by simp)) hl2 hin ha hR.1 hR.2,
        ht]
      simp [copyRecords]

/-- a segment has pieces -/
theorem pieces_exists (s : List Field) : ∃ ps, Pieces s ps := by
  have hcons : ∀ (f : Field) (p : List Field) (v : List (List Field)) (s : List Field),
      Pieces s (p :: v) → (∀ g ∈ ofLevel .copy p, f.level = some .copy → f.occ = g.occ) →
      Pieces (f :: s) ((f :: p) :: v) := by
    intro f p v s h hf
    have hsub : ∀ g ∈ ofLevel .copy (f :: p), (g = f ∧ f.level = some .copy) ∨ g ∈ ofLevel .copy p := by
      intro g hg
      simp only [ofLevel, List.mem_filter, List.mem_cons, decide_eq_true_eq] at hg ⊢
      rcases hg with ⟨rfl | hg, h2⟩
      · exact .inl ⟨rfl, h2⟩
      · exact .inr ⟨hg, h2⟩
    refine ⟨by rw [← h.whole]; rfl, ?_, ?_⟩
    · intro x hx
      simp only [List.mem_cons] at hx
      rcases hx with rfl | hx
      · intro a ha b hb
        rcases hsub a ha with ⟨e1, h1⟩ | ha' <;> rcases hsub b hb with ⟨e2, h2⟩ | hb'
        · rw [e1, e2]
        · rw [e1]; exact hf b hb' h1
        · rw [e2]; exact (hf a ha' h2).symm
        · exact h.same p (by simp) a ha' b hb'
      · exact h.same x (by simp [hx])
    · intro u x y w e
      cases u with
      | nil =>
        simp at e
        obtain ⟨rfl, rfl⟩ := e
        obtain ⟨a, b, ha, hb⟩ := h.begins [] p y w rfl
        refine ⟨a, b, ?_, hb⟩
        simp only [ofLevel, List.mem_filter, List.mem_cons] at ha ⊢
        exact ⟨.inr ha.1, ha.2⟩
      | cons u0 u =>
        simp at e
        exact h.begins (p :: u) x y w (by simp [e.2])
  induction s with
  | nil => exact ⟨[], ⟨rfl, by simp, by intro u p q v h; simp at h⟩⟩
  | cons f s ih =>
    obtain ⟨ps, h⟩ := ih
    cases ps with
    | nil =>
      have hs : s = [] := by simpa using h.whole.symm
      subst hs
      refine ⟨[[f]], ⟨rfl, ?_, ?_⟩⟩
      · intro p hp a ha b hb
        simp only [List.mem_singleton] at hp
        subst hp
        simp only [ofLevel, List.mem_filter, List.mem_singleton] at ha hb
        rw [ha.1, hb.1]
      · intro u x y w e
        have := congrArg List.length e
        simp at this; omega
    | cons p v =>
      by_cases hc : ∀ g ∈ ofLevel .copy p, f.level = some .copy → f.occ = g.occ
      · exact ⟨_, hcons f p v s h hc⟩
      · have hc2 : ∃ g ∈ ofLevel .copy p, f.level = some .copy ∧ f.occ ≠ g.occ := by
          simpa [Classical.not_forall] using hc
        obtain ⟨g, hg, hf, hne⟩ := hc2
        let P : Field → Bool := fun x => decide (x.level ≠ some .copy)
        have hsplit := List.takeWhile_append_dropWhile (p := P) (l := p)
        have htw : ofLevel .copy (p.takeWhile P) = [] := by
          rw [ofLevel, List.filter_eq_nil_iff]
          intro x hx
          have := List.all_takeWhile (p := P) (l := p)
          rw [List.all_eq_true] at this
          have := this x hx
          simp only [P, ne_eq, decide_eq_true_eq] at this ⊢
          exact this
        have hdw : ofLevel .copy (p.dropWhile P) = ofLevel .copy p := by
          have e := congrArg (ofLevel .copy) hsplit
          rw [ofLevel_append, htw] at e
          simpa using e
        have hhead : ∃ k, (p.dropWhile P).head? = some k ∧ k.level = some .copy := by
          cases hd : p.dropWhile P with
          | nil => rw [hd] at hdw; rw [← hdw] at hg; simp [ofLevel] at hg
          | cons k r =>
            refine ⟨k, rfl, ?_⟩
            have := List.head?_dropWhile_not P p
            rw [hd] at this
            simpa [P] using this
        obtain ⟨k, hk, hkl⟩ := hhead
        have hkp : k ∈ ofLevel .copy p := by
          rw [← hdw]
          obtain ⟨r, hr⟩ := head?_eq_some_cons hk
          rw [hr]; simp [ofLevel, hkl]
        refine ⟨(f :: p.takeWhile P) :: p.dropWhile P :: v, ⟨?_, ?_, ?_⟩⟩
        · rw [← h.whole]
          simp only [List.flatten_cons, List.cons_append]
          rw [← List.append_assoc, hsplit]
        · intro x hx
          simp only [List.mem_cons] at hx
          have e : ofLevel .copy (f :: p.takeWhile P) = [f] := by
            have : f :: p.takeWhile P = [f] ++ p.takeWhile P := rfl
            rw [this, ofLevel_append, htw]; simp [ofLevel, hf]
          rcases hx with rfl | rfl | hx
          · rw [e]; intro a ha b hb; simp at ha hb; rw [ha, hb]
          · rw [hdw]; exact h.same p (by simp)
          · exact h.same x (by simp [hx])
        · intro u x y w e
          rcases u with _ | ⟨u0, u⟩
          · simp at e
            obtain ⟨rfl, rfl, _⟩ := e
            refine ⟨f, k, by simp [ofLevel, hf], hk, hkl, ?_⟩
            rw [h.same p (by simp) k hkp g hg]; exact hne
          · simp at e
            rcases u with _ | ⟨u1, u⟩
            · simp at e
              obtain ⟨_, rfl, rfl⟩ := e
              rw [hdw]; exact h.begins [] p y w rfl
            · simp at e
              exact h.begins (p :: u) x y w (by simp [e.2.2])

end Pica
