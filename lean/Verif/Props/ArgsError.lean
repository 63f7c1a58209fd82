import Verif.Props.Args

/-! C60: when `filter` cannot be prepared -/

namespace Pica.Props
open Pica Spec

/-- a list of field predicates that is given and has a component which is no predicate -/
def BadPreds (trim : Bytes → Bytes) (text : Option Bytes) : Prop :=
  ∃ t, text = some t ∧ ∀ parts, Parts t parts → ∃ x ∈ parts, trim x ≠ [] ∧ ∀ p, ¬ PredText (trim x) p

theorem all2_of {α β : Type} {R : α → β → Prop} : ∀ {l : List α}, (∀ a ∈ l, ∃ b, R a b) → ∃ l', All2 R l l'
  | [], _ => ⟨[], .nil⟩
  | a :: l, h => by
    obtain ⟨b, hb⟩ := h a (by simp)
    obtain ⟨l', hl⟩ := all2_of (l := l) (fun x hx => h x (by simp [hx]))
    exact ⟨b :: l', .cons hb hl⟩

theorem badPreds_of {trim : Bytes → Bytes} {text : Option Bytes} (h : FilterArgs.predicates trim text = none) :
    BadPreds trim text := by
  unfold FilterArgs.predicates at h
  split at h
  · simp at h
  · rename_i t
    refine ⟨t, rfl, fun parts hp => ?_⟩
    rcases Classical.em (∃ x ∈ parts, trim x ≠ [] ∧ ∀ p, ¬ PredText (trim x) p) with h1 | h1
    · exact h1
    · exfalso
      have hall : ∀ a ∈ (parts.map trim).filter (fun s => !s.isEmpty), ∃ p, PredText a p := by
        intro a ha
        obtain ⟨ha, hne⟩ := List.mem_filter.1 ha
        obtain ⟨x, hx, rfl⟩ := List.mem_map.1 ha
        rcases Classical.em (∃ p, PredText (trim x) p) with h2 | h2
        · exact h2
        · exact absurd ⟨x, hx, by rintro e; simp [e] at hne, fun p hp => h2 ⟨p, hp⟩⟩ h1
      obtain ⟨ps, hps⟩ := all2_of hall
      rw [(C53_accepts trim t parts hp ps).2 hps] at h
      simp at h

/-- **C60** (`filter`) preparing fails only if `--discard` or `--keep` has a component that is no predicate,
or if one of the expressions is rejected after it has been normalised. -/
theorem C60_filter_error (rx : Bytes → Bool) (trim : Bytes → Bytes) (tr : NForm → Bytes → Bytes) (cfg : Config)
    (E₀ E : Env) (o : Opts) (set : FilterSet) (s : Levels) (a : FilterArgs)
    (h : a.prepare rx trim tr cfg E₀ E o set s = none) :
    BadPreds trim a.discard ∨ BadPreds trim a.keep ∨
      ∃ x y s1 s2, (x = a.sources.1 ∧ s1 = s ∨ s1.fld = 0 ∧ (x ∈ a.and ∨ x ∈ a.or ∨ x ∈ a.not)) ∧
        Normalised tr cfg.normalization x y ∧ FieldMatcher.new rx s1 y = (none, s2) := by
  unfold FilterArgs.prepare at h
  split at h
  · rename_i hd
    exact .inl (badPreds_of hd)
  · rename_i discard hd
    split at h
    · rename_i hk
      exact .inr (.inl (badPreds_of hk))
    · rename_i keep hk
      split at h
      · rename_i hm
        right; right
        generalize hb : buildMatcher rx (translit tr cfg.normalization) s a.sources.1 a.and a.or a.not = z at hm
        obtain ⟨z1, s1⟩ := z
        dsimp only at hm
        subst hm
        unfold buildMatcher at hb
        obtain ⟨y, s2, s3, h1, h2⟩ := C15_error rx s s1 _ _ hb
        rcases h2 with ⟨rfl, rfl⟩ | ⟨h0, c, hc, hy⟩
        · exact ⟨_, _, s2, s3, .inl ⟨rfl, rfl⟩, normalised_iff.2 rfl, h1⟩
        · simp only [List.mem_cons, List.not_mem_nil, or_false] at hc
          rcases hc with rfl | rfl | rfl
          · obtain ⟨x, hx, rfl⟩ := List.mem_map.1 hy
            exact ⟨x, _, s2, s3, .inr ⟨h0, .inl hx⟩, normalised_iff.2 rfl, h1⟩
          · obtain ⟨x, hx, rfl⟩ := List.mem_map.1 hy
            exact ⟨x, _, s2, s3, .inr ⟨h0, .inr (.inl hx)⟩, normalised_iff.2 rfl, h1⟩
          · obtain ⟨x, hx, rfl⟩ := List.mem_map.1 hy
            exact ⟨x, _, s2, s3, .inr ⟨h0, .inr (.inr hx)⟩, normalised_iff.2 rfl, h1⟩
      · simp at h

/-- the expression is accepted, but `--and` is not -/
example := C60_filter_error (fun _ => true) id (fun _ => id) ⟨true, none⟩ toyEnv toyEnv ⟨false⟩
  ⟨none, none, Path.ppnPath⟩ ⟨0, 0, 0⟩ { argsSample none [bs "003@?"] with and := [bs "003@.0?", bs "003@."] }
  (by decide +kernel)
/-- the expressions are accepted, but `--keep` is not -/
example := C60_filter_error (fun _ => true) id (fun _ => id) ⟨true, none⟩ toyEnv toyEnv ⟨false⟩
  ⟨none, none, Path.ppnPath⟩ ⟨0, 0, 0⟩ { argsSample none [bs "003@?"] with keep := some (bs "003@,,x") }
  (by decide +kernel)

end Pica.Props
