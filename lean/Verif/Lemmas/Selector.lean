import Verif.Lemmas.Reads
import Verif.Lemmas.TagMatcher
import Verif.Lemmas.OccMatcher

/-! Tag patterns and occurrence selectors inside longer texts: what is read is
what the parsers would read from the consumed text alone. -/

namespace Pica
open Spec Parser

theorem pTagFragment_prefix {al i p r} (hal : NoSpecial al) (h : pTagFragment al i = some (p, r)) :
    ∃ t, i = t ++ r ∧ t ≠ [] ∧ ∀ r', pTagFragment al (t ++ r') = some (p, r') := by
  obtain ⟨h1, h2, h3, h4⟩ := hal
  unfold pTagFragment at h ⊢
  rcases alt_eq_some.1 h with h | ⟨_, h⟩
  · obtain ⟨c, ho, rfl⟩ := map_eq_some.1 h
    obtain ⟨rfl, hc⟩ := oneOf_eq_some.1 ho
    exact ⟨[c], rfl, by simp, fun r' => alt_left (map_run (oneOf_eq_some.2 ⟨rfl, hc⟩))⟩
  · rcases alt_eq_some.1 h with h | ⟨_, h⟩
    · obtain ⟨rfl, c, hb⟩ := value_eq_some.1 h
      obtain ⟨rfl, rfl⟩ := byte_eq_some.1 hb
      refine ⟨[0x2E], rfl, by simp, fun r' => ?_⟩
      rw [alt_right]
      · exact alt_left (value_eq_some.2 ⟨rfl, 0x2E, byte_cons_self _ _⟩)
      · simp [map, oneOf, h1]
    · obtain ⟨a, r1, c, r2, h5, h6, h7⟩ := delimited_eq_some.1 h
      obtain ⟨rfl, rfl⟩ := byte_eq_some.1 h5
      obtain ⟨rfl, rfl⟩ := byte_eq_some.1 h7
      obtain ⟨xs, h8, rfl⟩ := map_eq_some.1 h6
      obtain ⟨t, rfl, hne, hsp⟩ := repeat1_spells (fun _ _ _ h => pClassItem_sound h) h8
      refine ⟨0x5B :: (t ++ [0x5D]), by simp, by simp, fun r' => ?_⟩
      refine alt_eq_some.2 (.inr ⟨?_, alt_eq_some.2 (.inr ⟨?_, ?_⟩)⟩)
      · simp [map, oneOf, h2]
      · simp [value, map, byte, oneOf]
      · refine delimited_eq_some.2 ⟨0x5B, t ++ 0x5D :: r', 0x5D, 0x5D :: r', ?_, ?_, byte_cons_self _ _⟩
        · simp [byte, oneOf]
        · refine map_eq_some.2 ⟨xs, ?_, rfl⟩
          refine repeat1_of_spells NoDash (fun a t r hR hF => pClassItem_complete r hR hF) ?_ ?_ ?_ ?_ hne hsp
          · rintro a t r (⟨c, hc, _, rfl⟩ | ⟨c, d, hc, _, _, _, rfl⟩) t' heq <;>
            · simp at heq; rw [heq.1] at hc; exact h4 hc
          · rintro a t (⟨c, hc, _, rfl⟩ | ⟨c, d, hc, _, _, _, rfl⟩) <;> simp
          · intro t' h; simp at h
          · simp [pClassItem, alt, map, verify, separatedPair, seq, oneOf, h3]

theorem take_of_append (t r : Bytes) : (t ++ r).take ((t ++ r).length - r.length) = t := by simp

theorem pTagPattern_prefix {i m r} (h : pTagPattern i = some (m, r)) :
    ∃ t, i = t ++ r ∧ 4 ≤ t.length ∧ ∀ r', pTagPattern (t ++ r') = some (m, r') := by
  unfold pTagPattern at h ⊢
  obtain ⟨⟨⟨p0, p1, p2, p3⟩, raw⟩, h0, rfl⟩ := map_eq_some.1 h
  obtain ⟨h0, hraw⟩ := withTaken_eq_some.1 h0
  obtain ⟨r1, h1, h0⟩ := seq_eq_some.1 h0
  obtain ⟨r2, h2, h0⟩ := seq_eq_some.1 h0
  obtain ⟨r3, h3, h4⟩ := seq_eq_some.1 h0
  obtain ⟨t1, rfl, n1, g1⟩ := pTagFragment_prefix noSpecial0 h1
  obtain ⟨t2, rfl, n2, g2⟩ := pTagFragment_prefix noSpecialDigit h2
  obtain ⟨t3, rfl, n3, g3⟩ := pTagFragment_prefix noSpecialDigit h3
  obtain ⟨t4, rfl, n4, g4⟩ := pTagFragment_prefix noSpecial3 h4
  rw [← List.length_pos_iff] at n1 n2 n3 n4
  refine ⟨t1 ++ t2 ++ t3 ++ t4, by simp, by simp; omega, fun r' => ?_⟩
  have e : t1 ++ t2 ++ t3 ++ t4 ++ r' = t1 ++ (t2 ++ (t3 ++ (t4 ++ r'))) := by simp
  rw [e]
  have : raw = t1 ++ (t2 ++ (t3 ++ t4)) := by
    rw [hraw, show t1 ++ (t2 ++ (t3 ++ (t4 ++ r))) = (t1 ++ (t2 ++ (t3 ++ t4))) ++ r by simp]
    exact take_of_append _ _
  subst this
  exact map_run (withTaken_run (seq_run (g1 _) (seq_run (g2 _) (seq_run (g3 _) (g4 _)))) (by simp))

theorem isTag_length {t : Bytes} (h : IsTag t) : t.length = 4 := by
  obtain ⟨a, b, c, d, rfl, _⟩ := h; rfl

theorem pTagMatcher_prefix {i m r} (h : pTagMatcher i = some (m, r)) :
    ∃ t, i = t ++ r ∧ 4 ≤ t.length ∧ ∀ r', pTagMatcher (t ++ r') = some (m, r') := by
  unfold pTagMatcher at h ⊢
  rcases alt_eq_some.1 h with h | ⟨hn, h⟩
  · obtain ⟨t, h1, rfl⟩ := map_eq_some.1 h
    obtain ⟨h2, rfl⟩ := pTag_eq_some.1 h1
    exact ⟨t, rfl, by rw [isTag_length h2]; omega,
      fun r' => alt_left (map_run (pTag_eq_some.2 ⟨h2, rfl⟩))⟩
  · obtain ⟨t, rfl, hl, hp⟩ := pTagPattern_prefix h
    refine ⟨t, rfl, hl, fun r' => ?_⟩
    rw [alt_right]
    · exact hp r'
    · apply map_none
      rw [Option.eq_none_iff_forall_ne_some]
      rintro ⟨u, r2⟩ h'
      obtain ⟨h2, h3⟩ := pTag_eq_some.1 h'
      have hu : u <+: t := by
        have : u <+: t ++ r' := ⟨r2, h3.symm⟩
        exact List.prefix_of_prefix_length_le this ⟨r', rfl⟩ (by rw [isTag_length h2]; omega)
      obtain ⟨z, rfl⟩ := hu
      have : pTag (u ++ z ++ r) = some (u, z ++ r) := pTag_eq_some.2 ⟨h2, by simp⟩
      rw [map_run this] at hn
      cases hn

theorem pOccMatcher_end {i m r} (h : pOccMatcher i = some (m, r)) :
    ∃ t, i = t ++ r ∧ pOccMatcher t = some (m, []) := by
  unfold pOccMatcher at h
  rcases alt_eq_some.1 h with h | ⟨_, h⟩
  · obtain ⟨b, r1, h1, h2⟩ := preceded_eq_some.1 h
    obtain ⟨rfl, rfl⟩ := byte_eq_some.1 h1
    rcases alt_eq_some.1 h2 with h | ⟨_, h⟩
    · unfold pOccRange at h
      obtain ⟨⟨a, b⟩, h3, rfl⟩ := map_eq_some.1 h
      obtain ⟨h4, h5⟩ := verify_eq_some.1 h3
      obtain ⟨r2, x, r3, h6, h7, h8⟩ := separatedPair_eq_some.1 h4
      obtain ⟨ha, rfl⟩ := pOccurrence_sound h6
      obtain ⟨rfl, rfl⟩ := byte_eq_some.1 h7
      obtain ⟨hb, rfl⟩ := pOccurrence_sound h8
      refine ⟨SLASH :: (a ++ 0x2D :: b), by simp, ?_⟩
      unfold pOccMatcher
      refine alt_left (preceded_run (byte_cons_self _ _) (alt_left (map_run (verify_run ?_ h5))))
      refine separatedPair_eq_some.2 ⟨0x2D :: b, 0x2D, b, ?_, byte_cons_self _ _, ?_⟩
      · exact pOccurrence_complete ha (by rintro _ _ ⟨⟩; rfl)
      · simpa using pOccurrence_complete (r := []) hb (by simp)
    · rcases alt_eq_some.1 h with h | ⟨_, h⟩
      · unfold pOccExact at h
        obtain ⟨n, h3, rfl⟩ := map_eq_some.1 h
        obtain ⟨h4, h5⟩ := verify_eq_some.1 h3
        obtain ⟨hn, rfl⟩ := pOccurrence_sound h4
        refine ⟨SLASH :: n, rfl, ?_⟩
        unfold pOccMatcher
        refine alt_left (preceded_run (byte_cons_self _ _) ?_)
        rw [alt_right (pOccRange_none_of_exact hn)]
        refine alt_left (map_run (verify_run ?_ h5))
        simpa using pOccurrence_complete (r := []) hn (by simp)
      · rcases alt_eq_some.1 h with h | ⟨_, h⟩
        · obtain ⟨rfl, u, h⟩ := value_eq_some.1 h
          have := lit_eq_some.1 h
          subst this
          exact ⟨[0x2F, 0x30, 0x30], rfl, by decide⟩
        · obtain ⟨rfl, u, h⟩ := value_eq_some.1 h
          have := lit_eq_some.1 h
          subst this
          exact ⟨[0x2F, 0x2A], rfl, by decide⟩
  · simp only [Option.some.injEq, Prod.mk.injEq] at h
    obtain ⟨rfl, rfl⟩ := h
    exact ⟨[], rfl, by decide⟩

theorem pTagMatcher_reads : Reads pTagMatcher (fun m t => TagMatcher.new t = some m) := by
  intro i m r h
  obtain ⟨t, rfl, _, h1⟩ := pTagMatcher_prefix h
  exact ⟨t, rfl, parseAll_eq_some.2 (by simpa using h1 [])⟩

theorem pOccMatcher_reads : Reads pOccMatcher (fun m t => OccMatcher.new t = some m) := by
  intro i m r h
  obtain ⟨t, rfl, h1⟩ := pOccMatcher_end h
  exact ⟨t, rfl, parseAll_eq_some.2 h1⟩

end Pica
