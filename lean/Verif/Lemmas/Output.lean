import Verif.Model.Output
import Verif.Lemmas.Stream

/-! # Lemmas on writers: nothing is lost or reordered between the buffers -/

namespace Pica

variable {W : Type}

/-- the bytes that have been taken are those that have arrived followed by those that are
held back, in the order in which they came -/
structure Out.Lawful (o : Out W) (arrived pending : W → Bytes) : Prop where
  took : ∀ d w n w', o.write d w = (.took n, w') →
    n ≤ d.length ∧ arrived w' ++ pending w' = arrived w ++ pending w ++ d.take n
  same : ∀ d w r w', o.write d w = (r, w') → (∀ n, r ≠ .took n) →
    arrived w' ++ pending w' = arrived w ++ pending w
  flush : ∀ w, arrived (o.flush w).2 ++ pending (o.flush w).2 = arrived w ++ pending w ∧
    ((o.flush w).1 = none → pending (o.flush w).2 = [])
  close : ∀ w, arrived (o.close w) ++ pending (o.close w) = arrived w ++ pending w
  calm : ∀ w, pending w = [] → pending (o.close w) = []

theorem writeLoop_lawful {o : Out W} {a p : W → Bytes} (h : o.Lawful a p) (n : Nat) (d : Bytes)
    (w : W) :
    a (writeLoop o n d w).2.2 ++ p (writeLoop o n d w).2.2 ++ (writeLoop o n d w).2.1 =
      a w ++ p w ++ d ∧
      ((writeLoop o n d w).1 = none → (writeLoop o n d w).2.1 = []) := by
  induction n generalizing d w with
  | zero =>
    cases d with
    | nil => simp [writeLoop]
    | cons c d => simp [writeLoop]
  | succ n ih =>
    cases d with
    | nil => simp [writeLoop]
    | cons c d =>
      rw [writeLoop]
      simp only [List.isEmpty_cons, Bool.false_eq_true, if_false]
      rcases hw : o.write (c :: d) w with ⟨r, w'⟩
      cases r with
      | took k =>
        obtain ⟨_, ht⟩ := h.took _ _ _ _ hw
        cases k with
        | zero => simp [ht]
        | succ k =>
          simp only
          refine ⟨?_, (ih _ _).2⟩
          rw [(ih _ _).1, ht, List.append_assoc, List.take_append_drop]
      | interrupted =>
        have ht := h.same _ _ _ _ hw (by intro n e; cases e)
        simp only
        refine ⟨?_, (ih _ _).2⟩
        rw [(ih _ _).1, ht]
      | fail k =>
        have ht := h.same _ _ _ _ hw (by intro n e; cases e)
        simp [ht]

theorem writeLoop_rest (o : Out W) (n : Nat) (d : Bytes) (w : W) :
    (writeLoop o n d w).2.1 <:+ d := by
  induction n generalizing d w with
  | zero => exact List.suffix_rfl
  | succ n ih =>
    rw [writeLoop]
    split
    · exact List.nil_suffix
    · split
      · exact List.suffix_rfl
      · exact (ih _ _).trans (List.drop_suffix _ _)
      · exact ih _ _
      · exact List.suffix_rfl

theorem writeAll_lawful {o : Out W} {a p : W → Bytes} (h : o.Lawful a p) (d : Bytes) (w : W) :
    a (o.writeAll d w).2.2 ++ p (o.writeAll d w).2.2 ++ (o.writeAll d w).2.1 = a w ++ p w ++ d ∧
      ((o.writeAll d w).1 = none → (o.writeAll d w).2.1 = []) :=
  writeLoop_lawful h _ d w

theorem writeAll_nil (o : Out W) (w : W) : o.writeAll [] w = (none, [], w) := by
  simp [Out.writeAll, writeLoop]

/-- the file -/
theorem sink_lawful : sinkOut.Lawful Sink.got (fun _ => []) where
  took d w n w' h := by
    obtain ⟨got, ev⟩ := w
    cases ev with
    | nil =>
      simp only [sinkOut, Prod.mk.injEq, WriteResult.took.injEq] at h
      obtain ⟨rfl, rfl⟩ := h
      simp
    | cons e es =>
      cases e with
      | accept m =>
        simp only [sinkOut, Prod.mk.injEq, WriteResult.took.injEq] at h
        obtain ⟨rfl, rfl⟩ := h
        refine ⟨by omega, ?_⟩
        simp only [List.append_nil, List.append_cancel_left_eq]
        rw [Nat.min_def]
        split
        · rfl
        · rw [List.take_of_length_le (by omega), List.take_of_length_le (Nat.le_refl _)]
      | interrupted => simp [sinkOut] at h
      | fail k => simp [sinkOut] at h
  same d w r w' h hr := by
    obtain ⟨got, ev⟩ := w
    cases ev with
    | nil =>
      simp only [sinkOut, Prod.mk.injEq] at h
      exact absurd h.1.symm (hr _)
    | cons e es =>
      cases e with
      | accept m =>
        simp only [sinkOut, Prod.mk.injEq] at h
        exact absurd h.1.symm (hr _)
      | interrupted =>
        simp only [sinkOut, Prod.mk.injEq] at h
        rw [← h.2]
      | fail k =>
        simp only [sinkOut, Prod.mk.injEq] at h
        rw [← h.2]
  flush w := ⟨rfl, fun _ => rfl⟩
  close w := rfl
  calm w h := rfl

/-- what a buffer has passed on -/
def Buffered.arrived (a : W → Bytes) (b : Buffered W) : Bytes := a b.inner

/-- what a buffer and the writer behind it hold back -/
def Buffered.pending (p : W → Bytes) (b : Buffered W) : Bytes := p b.inner ++ b.buf

section
variable {o : Out W} {a p : W → Bytes}

theorem flushBuf_lawful (h : o.Lawful a p) (b : Buffered W) :
    Buffered.arrived a (b.flushBuf o).2 ++ Buffered.pending p (b.flushBuf o).2 =
      Buffered.arrived a b ++ Buffered.pending p b ∧
      ((b.flushBuf o).1 = none → (b.flushBuf o).2.buf = []) := by
  have := writeAll_lawful h b.buf b.inner
  simp only [Buffered.flushBuf, Buffered.arrived, Buffered.pending, ← List.append_assoc]
  exact this

theorem put_took (h : o.Lawful a p) {d : Bytes} {b b' : Buffered W} {n : Nat}
    (hb : b.buf = [] ∨ d.length = b.cap - b.buf.length) (he : b.put o d = (.took n, b')) :
    n ≤ d.length ∧ Buffered.arrived a b' ++ Buffered.pending p b' =
      Buffered.arrived a b ++ Buffered.pending p b ++ d.take n := by
  unfold Buffered.put at he
  split at he
  · rcases hw : o.write d b.inner with ⟨r, w⟩
    rw [hw] at he
    simp only [Prod.mk.injEq] at he
    obtain ⟨rfl, rfl⟩ := he
    obtain ⟨h1, h2⟩ := h.took _ _ _ _ hw
    refine ⟨h1, ?_⟩
    by_cases hbuf : b.buf = []
    · simp only [Buffered.arrived, Buffered.pending, hbuf, List.append_nil]
      exact h2
    · have hd : d = [] := by
        rcases hb with hb | hb
        · exact absurd hb hbuf
        · have : 0 < b.buf.length := List.length_pos_iff.2 hbuf
          exact List.eq_nil_of_length_eq_zero (by omega)
      subst hd
      simp only [List.take_nil, List.append_nil] at h2 ⊢
      simp only [Buffered.arrived, Buffered.pending, ← List.append_assoc, h2]
  · simp only [Prod.mk.injEq, WriteResult.took.injEq] at he
    obtain ⟨rfl, rfl⟩ := he
    simp [Buffered.arrived, Buffered.pending]

theorem put_same (h : o.Lawful a p) {d : Bytes} {b b' : Buffered W} {r : WriteResult}
    (he : b.put o d = (r, b')) (hr : ∀ n, r ≠ .took n) :
    Buffered.arrived a b' ++ Buffered.pending p b' =
      Buffered.arrived a b ++ Buffered.pending p b := by
  unfold Buffered.put at he
  split at he
  · rcases hw : o.write d b.inner with ⟨r', w⟩
    rw [hw] at he
    simp only [Prod.mk.injEq] at he
    obtain ⟨rfl, rfl⟩ := he
    have h2 := h.same _ _ _ _ hw hr
    simp only [Buffered.arrived, Buffered.pending, ← List.append_assoc]
    rw [h2]
  · simp only [Prod.mk.injEq] at he
    exact absurd he.1.symm (hr _)

theorem bufWrite_took (h : o.Lawful a p) {d : Bytes} {b b' : Buffered W} {n : Nat}
    (he : b.write o d = (.took n, b')) :
    n ≤ d.length ∧ Buffered.arrived a b' ++ Buffered.pending p b' =
      Buffered.arrived a b ++ Buffered.pending p b ++ d.take n := by
  unfold Buffered.write at he
  split at he
  · simp only [Prod.mk.injEq, WriteResult.took.injEq] at he
    obtain ⟨rfl, rfl⟩ := he
    simp [Buffered.arrived, Buffered.pending]
  · rename_i h1
    split at he
    · obtain ⟨f1, f2⟩ := flushBuf_lawful h b
      rcases hf : b.flushBuf o with ⟨e, b1⟩
      rw [hf] at he f1 f2
      cases e with
      | some k => simp at he
      | none =>
        obtain ⟨g1, g2⟩ := put_took h (Or.inl (f2 rfl)) he
        exact ⟨g1, by rw [g2, f1]⟩
    · exact put_took h (Or.inr (by omega)) he

theorem bufWrite_same (h : o.Lawful a p) {d : Bytes} {b b' : Buffered W} {r : WriteResult}
    (he : b.write o d = (r, b')) (hr : ∀ n, r ≠ .took n) :
    Buffered.arrived a b' ++ Buffered.pending p b' =
      Buffered.arrived a b ++ Buffered.pending p b := by
  unfold Buffered.write at he
  split at he
  · simp only [Prod.mk.injEq] at he
    exact absurd he.1.symm (hr _)
  · split at he
    · obtain ⟨f1, f2⟩ := flushBuf_lawful h b
      rcases hf : b.flushBuf o with ⟨e, b1⟩
      rw [hf] at he f1 f2
      cases e with
      | some k =>
        simp only [Prod.mk.injEq] at he
        rw [← he.2]
        exact f1
      | none =>
        rw [put_same h he hr, f1]
    · exact put_same h he hr

theorem bufFlush_lawful (h : o.Lawful a p) (b : Buffered W) :
    Buffered.arrived a (b.flush o).2 ++ Buffered.pending p (b.flush o).2 =
      Buffered.arrived a b ++ Buffered.pending p b ∧
      ((b.flush o).1 = none → Buffered.pending p (b.flush o).2 = []) := by
  obtain ⟨f1, f2⟩ := flushBuf_lawful h b
  unfold Buffered.flush
  rcases hf : b.flushBuf o with ⟨e, b1⟩
  rw [hf] at f1 f2
  cases e with
  | some k => exact ⟨f1, fun e => by cases e⟩
  | none =>
    obtain ⟨g1, g2⟩ := h.flush b1.inner
    have hb : b1.buf = [] := f2 rfl
    refine ⟨?_, ?_⟩
    · rw [← f1]
      simp only [Buffered.arrived, Buffered.pending, ← List.append_assoc, g1]
    · intro e
      simp only [Buffered.pending, g2 e, hb, List.append_nil]

theorem bufClose_lawful (h : o.Lawful a p) (b : Buffered W) :
    Buffered.arrived a (b.close o) ++ Buffered.pending p (b.close o) =
      Buffered.arrived a b ++ Buffered.pending p b := by
  rw [← (flushBuf_lawful h b).1]
  simp only [Buffered.close, Buffered.arrived, Buffered.pending, ← List.append_assoc, h.close]

theorem bufClose_calm (h : o.Lawful a p) (b : Buffered W) (hb : Buffered.pending p b = []) :
    Buffered.pending p (b.close o) = [] := by
  simp only [Buffered.pending, List.append_eq_nil_iff] at hb ⊢
  obtain ⟨cap, buf, w⟩ := b
  obtain ⟨h1, rfl⟩ := hb
  simp only [Buffered.close, Buffered.flushBuf, writeAll_nil]
  exact ⟨h.calm _ h1, trivial⟩

/-- a buffer over a writer -/
theorem buf_lawful (h : o.Lawful a p) :
    (bufOut o).Lawful (Buffered.arrived a) (Buffered.pending p) where
  took _ _ _ _ he := bufWrite_took h he
  same _ _ _ _ he hr := bufWrite_same h he hr
  flush := bufFlush_lawful h
  close := bufClose_lawful h
  calm := bufClose_calm h

theorem lineTail_prefix (cap n idx : Nat) (d : Bytes) : lineTail cap n idx d <+: d.drop n := by
  unfold lineTail
  split
  · exact List.prefix_rfl
  · split
    · rw [List.drop_take]
      exact List.take_prefix _ _
    · simp only
      split
      · exact (List.take_prefix _ _).trans (List.take_prefix _ _)
      · exact List.take_prefix _ _

theorem writeLines_took (h : o.Lawful a p) {d : Bytes} {b b' : Buffered W} {n : Nat}
    (he : b.writeLines o d = (.took n, b')) :
    n ≤ d.length ∧ Buffered.arrived a b' ++ Buffered.pending p b' =
      Buffered.arrived a b ++ Buffered.pending p b ++ d.take n := by
  unfold Buffered.writeLines at he
  obtain ⟨f1, f2⟩ := flushBuf_lawful h b
  rcases hf : b.flushBuf o with ⟨e, b1⟩
  rw [hf] at he f1 f2
  cases e with
  | some k => simp at he
  | none =>
    have hb : b1.buf = [] := f2 rfl
    rcases hw : o.write (d.take (lastLine d)) b1.inner with ⟨r, w⟩
    simp only at he
    rw [hw] at he
    cases r with
    | interrupted => simp at he
    | fail k => simp at he
    | took m =>
      obtain ⟨g1, g2⟩ := h.took _ _ _ _ hw
      rw [List.length_take] at g1
      rw [List.take_take, Nat.min_eq_left (by omega)] at g2
      rw [← f1]
      simp only [Buffered.arrived, Buffered.pending, hb, List.append_nil] at *
      cases m with
      | zero =>
        simp only [Prod.mk.injEq, WriteResult.took.injEq] at he
        obtain ⟨rfl, rfl⟩ := he
        simpa [hb] using g2
      | succ m =>
        simp only [Prod.mk.injEq, WriteResult.took.injEq, List.length_nil, Nat.sub_zero,
          List.nil_append] at he
        obtain ⟨rfl, rfl⟩ := he
        have ht : (lineTail b1.cap (m + 1) (lastLine d) d).take b1.cap <+: d.drop (m + 1) :=
          (List.take_prefix _ _).trans (lineTail_prefix _ _ _ _)
        refine ⟨?_, ?_⟩
        · have := ht.length_le
          rw [List.length_drop] at this
          omega
        · generalize (lineTail b1.cap (m + 1) (lastLine d) d).take b1.cap = t at ht ⊢
          obtain ⟨u, hu⟩ := ht
          rw [List.take_add, ← hu, List.take_left, ← List.append_assoc, g2]
          simp only [List.append_assoc]

theorem writeLines_same (h : o.Lawful a p) {d : Bytes} {b b' : Buffered W} {r : WriteResult}
    (he : b.writeLines o d = (r, b')) (hr : ∀ n, r ≠ .took n) :
    Buffered.arrived a b' ++ Buffered.pending p b' =
      Buffered.arrived a b ++ Buffered.pending p b := by
  unfold Buffered.writeLines at he
  obtain ⟨f1, f2⟩ := flushBuf_lawful h b
  rcases hf : b.flushBuf o with ⟨e, b1⟩
  rw [hf] at he f1 f2
  rw [← f1]
  cases e with
  | some k =>
    simp only [Prod.mk.injEq] at he
    rw [← he.2]
  | none =>
    rcases hw : o.write (d.take (lastLine d)) b1.inner with ⟨r', w⟩
    simp only at he
    rw [hw] at he
    cases r' with
    | took m =>
      cases m with
      | zero =>
        simp only [Prod.mk.injEq] at he
        exact absurd he.1.symm (hr _)
      | succ m =>
        simp only [Prod.mk.injEq] at he
        exact absurd he.1.symm (hr _)
    | interrupted =>
      simp only [Prod.mk.injEq] at he
      obtain ⟨rfl, rfl⟩ := he
      have g := h.same _ _ _ _ hw hr
      simp only [Buffered.arrived, Buffered.pending, ← List.append_assoc, g]
    | fail k =>
      simp only [Prod.mk.injEq] at he
      obtain ⟨rfl, rfl⟩ := he
      have g := h.same _ _ _ _ hw hr
      simp only [Buffered.arrived, Buffered.pending, ← List.append_assoc, g]

/-- a line buffer over a writer -/
theorem line_lawful (h : o.Lawful a p) :
    (lineOut o).Lawful (Buffered.arrived a) (Buffered.pending p) where
  took d b n b' he := by
    simp only [lineOut, Buffered.lineWrite] at he
    split at he
    · exact writeLines_took h he
    · split at he
      · obtain ⟨f1, f2⟩ := flushBuf_lawful h b
        rcases hf : b.flushBuf o with ⟨e, b1⟩
        rw [hf] at he f1 f2
        cases e with
        | some k => simp at he
        | none => rw [← f1]; exact bufWrite_took h he
      · exact bufWrite_took h he
  same d b r b' he hr := by
    simp only [lineOut, Buffered.lineWrite] at he
    split at he
    · exact writeLines_same h he hr
    · split at he
      · obtain ⟨f1, f2⟩ := flushBuf_lawful h b
        rcases hf : b.flushBuf o with ⟨e, b1⟩
        rw [hf] at he f1 f2
        rw [← f1]
        cases e with
        | some k =>
          simp only [Prod.mk.injEq] at he
          rw [← he.2]
        | none => exact bufWrite_same h he hr
      · exact bufWrite_same h he hr
  flush := bufFlush_lawful h
  close := bufClose_lawful h
  calm := bufClose_calm h

theorem writePieces_lawful (h : o.Lawful a p) (ps : List Bytes) (w : W) :
    (∃ q, q <+: ps.flatten ∧ a (writePieces o ps w).2 ++ p (writePieces o ps w).2 = a w ++ p w ++ q ∧
      ((writePieces o ps w).1 = none → q = ps.flatten)) := by
  induction ps generalizing w with
  | nil => exact ⟨[], List.prefix_rfl, by simp [writePieces], fun _ => rfl⟩
  | cons d ps ih =>
    rw [writePieces]
    obtain ⟨f1, f2⟩ := writeAll_lawful h d w
    rcases hf : o.writeAll d w with ⟨e, rest, w'⟩
    rw [hf] at f1 f2
    simp only at f1 f2
    cases e with
    | some k =>
      simp only
      have hd : ∃ q, q ++ rest = d ∧ a w' ++ p w' = a w ++ p w ++ q := by
        have hs : rest <:+ d := by
          have := writeLoop_rest o (d.length + o.left w + 1) d w
          rw [show writeLoop o (d.length + o.left w + 1) d w = (some k, rest, w') from hf] at this
          exact this
        obtain ⟨q, rfl⟩ := hs
        refine ⟨q, rfl, ?_⟩
        rw [← List.append_assoc] at f1
        exact List.append_cancel_right f1
      obtain ⟨q, hq, e⟩ := hd
      refine ⟨q, ?_, e, fun e => by cases e⟩
      rw [List.flatten_cons, ← hq, List.append_assoc]
      exact List.prefix_append _ _
    | none =>
      simp only
      obtain ⟨q, h1, h2, h3⟩ := ih w'
      rw [f2 rfl, List.append_nil] at f1
      refine ⟨d ++ q, ?_, ?_, fun e => by rw [h3 e]; rfl⟩
      · rw [List.flatten_cons]
        exact (List.prefix_append_right_inj d).2 h1
      · rw [h2, f1, List.append_assoc (_ ++ _)]
end

/-! ## devices that do not fail -/

/-- no call fails: each takes a byte or is an interruption, of which there are finitely many;
`p` is what is held back -/
structure Out.Steady (o : Out W) (p : W → Bytes) (good : W → Prop) : Prop where
  write : ∀ d w, good w → d ≠ [] → good (o.write d w).2 ∧ o.left (o.write d w).2 ≤ o.left w ∧
    ((o.write d w).1 = .interrupted ∧ o.left (o.write d w).2 < o.left w ∨
      ∃ n, (o.write d w).1 = .took (n + 1))
  flush : ∀ w, good w → (o.flush w).1 = none ∧ good (o.flush w).2
  close : ∀ w, good w → p (o.close w) = []

section
variable {o : Out W} {p : W → Bytes} {good : W → Prop}

theorem writeLoop_steady (h : o.Steady p good) (n : Nat) (d : Bytes) (w : W) (hw : good w)
    (hn : d.length + o.left w < n) :
    (writeLoop o n d w).1 = none ∧ (writeLoop o n d w).2.1 = [] ∧ good (writeLoop o n d w).2.2 ∧
      o.left (writeLoop o n d w).2.2 ≤ o.left w := by
  induction n generalizing d w with
  | zero => omega
  | succ n ih =>
    cases d with
    | nil => simp [writeLoop, hw]
    | cons c d =>
      rw [writeLoop]
      simp only [List.isEmpty_cons, Bool.false_eq_true, if_false]
      obtain ⟨g1, g2, g3⟩ := h.write (c :: d) w hw (by simp)
      rcases he : o.write (c :: d) w with ⟨r, w'⟩
      rw [he] at g1 g2 g3
      simp only at g1 g2 g3
      rcases g3 with ⟨rfl, g3⟩ | ⟨k, rfl⟩
      · simp only
        obtain ⟨i1, i2, i3, i4⟩ := ih (c :: d) w' g1 (by simp only [List.length_cons] at *; omega)
        exact ⟨i1, i2, i3, by omega⟩
      · simp only
        obtain ⟨i1, i2, i3, i4⟩ := ih ((c :: d).drop (k + 1)) w' g1
          (by simp only [List.length_cons, List.drop_succ_cons, List.length_drop] at *; omega)
        exact ⟨i1, i2, i3, by omega⟩

theorem writeAll_steady (h : o.Steady p good) (d : Bytes) (w : W) (hw : good w) :
    (o.writeAll d w).1 = none ∧ (o.writeAll d w).2.1 = [] ∧ good (o.writeAll d w).2.2 ∧
      o.left (o.writeAll d w).2.2 ≤ o.left w :=
  writeLoop_steady h _ d w hw (by omega)

/-- no call fails: each is an interruption or takes a byte -/
def Sink.Works (s : Sink) : Prop := ∀ e ∈ s.events, e = .interrupted ∨ ∃ n, e = .accept (n + 1)

theorem sink_steady : sinkOut.Steady (fun _ => []) Sink.Works where
  write d w hw hd := by
    obtain ⟨got, ev⟩ := w
    obtain ⟨c, d, rfl⟩ := List.exists_cons_of_ne_nil hd
    cases ev with
    | nil => exact ⟨fun k hk => absurd hk List.not_mem_nil, Nat.le_refl _, Or.inr ⟨d.length, rfl⟩⟩
    | cons e es =>
      have hes : ∀ g : Bytes, Sink.Works ⟨g, es⟩ := fun g k hk => hw k (List.mem_cons_of_mem _ hk)
      rcases hw e List.mem_cons_self with rfl | ⟨m, rfl⟩
      · exact ⟨hes _, Nat.le_succ _, Or.inl ⟨rfl, Nat.lt_succ_self _⟩⟩
      · exact ⟨hes _, Nat.le_succ _, Or.inr ⟨min m d.length, by
          simp only [sinkOut, WriteResult.took.injEq, List.length_cons]; omega⟩⟩
  flush w hw := ⟨rfl, hw⟩
  close w _ := rfl

theorem flushBuf_steady (h : o.Steady p good) (b : Buffered W) (hb : good b.inner) :
    (b.flushBuf o).1 = none ∧ (b.flushBuf o).2.buf = [] ∧ good (b.flushBuf o).2.inner ∧
      o.left (b.flushBuf o).2.inner ≤ o.left b.inner :=
  writeAll_steady h b.buf b.inner hb

theorem put_steady (h : o.Steady p good) (d : Bytes) (b : Buffered W) (hb : good b.inner)
    (hd : d ≠ []) :
    good (b.put o d).2.inner ∧ o.left (b.put o d).2.inner ≤ o.left b.inner ∧
      ((b.put o d).1 = .interrupted ∧ o.left (b.put o d).2.inner < o.left b.inner ∨
        ∃ n, (b.put o d).1 = .took (n + 1)) := by
  unfold Buffered.put
  split
  · exact h.write d b.inner hb hd
  · obtain ⟨c, d, rfl⟩ := List.exists_cons_of_ne_nil hd
    exact ⟨hb, Nat.le_refl _, Or.inr ⟨d.length, rfl⟩⟩

theorem bufWrite_steady (h : o.Steady p good) (d : Bytes) (b : Buffered W) (hb : good b.inner)
    (hd : d ≠ []) :
    good (b.write o d).2.inner ∧ o.left (b.write o d).2.inner ≤ o.left b.inner ∧
      ((b.write o d).1 = .interrupted ∧ o.left (b.write o d).2.inner < o.left b.inner ∨
        ∃ n, (b.write o d).1 = .took (n + 1)) := by
  unfold Buffered.write
  split
  · obtain ⟨c, d, rfl⟩ := List.exists_cons_of_ne_nil hd
    exact ⟨hb, Nat.le_refl _, Or.inr ⟨d.length, rfl⟩⟩
  · split
    · obtain ⟨f1, f2, f3, f4⟩ := flushBuf_steady h b hb
      rcases hf : b.flushBuf o with ⟨e, b1⟩
      rw [hf] at f1 f2 f3 f4
      simp only at f1 f2 f3 f4
      subst f1
      obtain ⟨g1, g2, g3⟩ := put_steady h d b1 f3 hd
      refine ⟨g1, by simp only; omega, ?_⟩
      rcases g3 with ⟨g3, g4⟩ | g3
      · exact Or.inl ⟨g3, by simp only; omega⟩
      · exact Or.inr g3
    · exact put_steady h d b hb hd

theorem bufFlush_steady (h : o.Steady p good) (b : Buffered W) (hb : good b.inner) :
    (b.flush o).1 = none ∧ good (b.flush o).2.inner := by
  unfold Buffered.flush
  obtain ⟨f1, f2, f3, f4⟩ := flushBuf_steady h b hb
  rcases hf : b.flushBuf o with ⟨e, b1⟩
  rw [hf] at f1 f2 f3 f4
  simp only at f1 f2 f3 f4
  subst f1
  exact h.flush _ f3

theorem bufClose_steady (h : o.Steady p good) (b : Buffered W) (hb : good b.inner) :
    Buffered.pending p (b.close o) = [] := by
  obtain ⟨f1, f2, f3, f4⟩ := flushBuf_steady h b hb
  simp only [Buffered.pending, Buffered.close, f2, h.close _ f3, List.append_nil]

theorem buf_steady (h : o.Steady p good) :
    (bufOut o).Steady (Buffered.pending p) (fun b => good b.inner) where
  write d b hb hd := bufWrite_steady h d b hb hd
  flush b hb := bufFlush_steady h b hb
  close b hb := bufClose_steady h b hb

theorem lastLine_pos {d : Bytes} (h : LF ∈ d) : d.take (lastLine d) ≠ [] := by
  intro he
  have hl : lastLine d = 0 ∨ d = [] := by
    rcases List.take_eq_nil_iff.1 he with h | h
    · exact Or.inl h
    · exact Or.inr h
  rcases hl with hl | rfl
  · have hp := List.takeWhile_prefix (fun c => c != LF) (l := d.reverse)
    have hlen := hp.length_le
    rw [List.length_reverse] at hlen
    have : (d.reverse.takeWhile (fun c => c != LF)).length = d.reverse.length := by
      rw [List.length_reverse]
      exact Nat.le_antisymm hlen (Nat.sub_eq_zero_iff_le.1 hl)
    have heq := hp.eq_of_length this
    have hm : LF ∈ d.reverse := List.mem_reverse.2 h
    rw [← heq] at hm
    have := List.all_takeWhile (p := fun c => c != LF) (l := d.reverse)
    rw [List.all_eq_true] at this
    have := this _ hm
    simp at this
  · cases h

theorem writeLines_steady (h : o.Steady p good) (d : Bytes) (b : Buffered W) (hb : good b.inner)
    (hd : LF ∈ d) :
    good (b.writeLines o d).2.inner ∧ o.left (b.writeLines o d).2.inner ≤ o.left b.inner ∧
      ((b.writeLines o d).1 = .interrupted ∧ o.left (b.writeLines o d).2.inner < o.left b.inner ∨
        ∃ n, (b.writeLines o d).1 = .took (n + 1)) := by
  unfold Buffered.writeLines
  obtain ⟨f1, f2, f3, f4⟩ := flushBuf_steady h b hb
  rcases hf : b.flushBuf o with ⟨e, b1⟩
  rw [hf] at f1 f2 f3 f4
  simp only at f1 f2 f3 f4
  subst f1
  obtain ⟨g1, g2, g3⟩ := h.write (d.take (lastLine d)) b1.inner f3 (lastLine_pos hd)
  simp only
  rcases hw : o.write (d.take (lastLine d)) b1.inner with ⟨r, w⟩
  rw [hw] at g1 g2 g3
  simp only at g1 g2 g3
  rcases g3 with ⟨rfl, g3⟩ | ⟨k, rfl⟩
  · exact ⟨g1, by simp only; omega, Or.inl ⟨rfl, by simp only; omega⟩⟩
  · refine ⟨g1, by simp only; omega, Or.inr ?_⟩
    simp only [WriteResult.took.injEq]
    exact ⟨k + _, Nat.add_right_comm _ _ _⟩

theorem line_steady (h : o.Steady p good) :
    (lineOut o).Steady (Buffered.pending p) (fun b => good b.inner) where
  write d b hb hd := by
    simp only [lineOut, Buffered.lineWrite]
    split
    · rename_i hc
      exact writeLines_steady h d b hb (by simpa using hc)
    · split
      · obtain ⟨f1, f2, f3, f4⟩ := flushBuf_steady h b hb
        rcases hf : b.flushBuf o with ⟨e, b1⟩
        rw [hf] at f1 f2 f3 f4
        simp only at f1 f2 f3 f4
        subst f1
        obtain ⟨g1, g2, g3⟩ := bufWrite_steady h d b1 f3 hd
        refine ⟨g1, by simp only; omega, ?_⟩
        rcases g3 with ⟨g3, g4⟩ | g3
        · exact Or.inl ⟨g3, by simp only; omega⟩
        · exact Or.inr g3
      · exact bufWrite_steady h d b hb hd
  flush b hb := bufFlush_steady h b hb
  close b hb := bufClose_steady h b hb

theorem writePieces_steady (h : o.Steady p good) (ps : List Bytes) (w : W) (hw : good w) :
    (writePieces o ps w).1 = none ∧ good (writePieces o ps w).2 := by
  induction ps generalizing w with
  | nil => exact ⟨rfl, hw⟩
  | cons d ps ih =>
    rw [writePieces]
    obtain ⟨f1, f2, f3, f4⟩ := writeAll_steady h d w hw
    rcases hf : o.writeAll d w with ⟨e, rest, w'⟩
    rw [hf] at f1 f2 f3 f4
    simp only at f1 f2 f3 f4
    subst f1
    exact ih w' f3
end

/-! ## what has arrived stays -/

/-- nothing that has arrived is taken back -/
structure Out.Mono (o : Out W) (a : W → Bytes) : Prop where
  write : ∀ d w, a w <+: a (o.write d w).2
  flush : ∀ w, a w <+: a (o.flush w).2
  close : ∀ w, a w <+: a (o.close w)

section
variable {o : Out W} {a : W → Bytes}

theorem writeLoop_mono (h : o.Mono a) (n : Nat) (d : Bytes) (w : W) :
    a w <+: a (writeLoop o n d w).2.2 := by
  induction n generalizing d w with
  | zero => exact List.prefix_rfl
  | succ n ih =>
    rw [writeLoop]
    have hm := h.write d w
    rcases hw : o.write d w with ⟨r, w'⟩
    rw [hw] at hm
    split
    · exact List.prefix_rfl
    · split
      · rename_i e; cases e; exact hm
      · rename_i e; cases e; exact hm.trans (ih _ _)
      · rename_i e; cases e; exact hm.trans (ih _ _)
      · rename_i e; cases e; exact hm

theorem sink_mono : sinkOut.Mono Sink.got where
  write d w := by
    obtain ⟨got, ev⟩ := w
    rcases ev with _ | ⟨e | _ | _, es⟩
    · exact List.prefix_append _ _
    · exact List.prefix_append _ _
    · exact List.prefix_rfl
    · exact List.prefix_rfl
  flush w := List.prefix_rfl
  close w := List.prefix_rfl

theorem flushBuf_mono (h : o.Mono a) (b : Buffered W) :
    a b.inner <+: a (b.flushBuf o).2.inner :=
  writeLoop_mono h _ _ _

theorem put_mono (h : o.Mono a) (d : Bytes) (b : Buffered W) :
    a b.inner <+: a (b.put o d).2.inner := by
  unfold Buffered.put
  split
  · exact h.write _ _
  · exact List.prefix_rfl

theorem bufWrite_mono (h : o.Mono a) (d : Bytes) (b : Buffered W) :
    a b.inner <+: a (b.write o d).2.inner := by
  unfold Buffered.write
  split
  · exact List.prefix_rfl
  · split
    · have hm := flushBuf_mono h b
      rcases hf : b.flushBuf o with ⟨e, b1⟩
      rw [hf] at hm
      cases e with
      | some k => exact hm
      | none => exact hm.trans (put_mono h d b1)
    · exact put_mono h d b

theorem bufFlush_mono (h : o.Mono a) (b : Buffered W) :
    a b.inner <+: a (b.flush o).2.inner := by
  unfold Buffered.flush
  have hm := flushBuf_mono h b
  rcases hf : b.flushBuf o with ⟨e, b1⟩
  rw [hf] at hm
  cases e with
  | some k => exact hm
  | none => exact hm.trans (h.flush _)

theorem bufClose_mono (h : o.Mono a) (b : Buffered W) :
    a b.inner <+: a (b.close o).inner :=
  (flushBuf_mono h b).trans (h.close _)

theorem buf_mono (h : o.Mono a) : (bufOut o).Mono (Buffered.arrived a) where
  write d b := bufWrite_mono h d b
  flush b := bufFlush_mono h b
  close b := bufClose_mono h b

theorem writeLines_mono (h : o.Mono a) (d : Bytes) (b : Buffered W) :
    a b.inner <+: a (b.writeLines o d).2.inner := by
  unfold Buffered.writeLines
  have hm := flushBuf_mono h b
  rcases hf : b.flushBuf o with ⟨e, b1⟩
  rw [hf] at hm
  cases e with
  | some k => exact hm
  | none =>
    have hm' := h.write (d.take (lastLine d)) b1.inner
    simp only
    rcases hw : o.write (d.take (lastLine d)) b1.inner with ⟨r, w⟩
    rw [hw] at hm'
    rcases r with (_ | k) | _ | _ <;> exact hm.trans hm'

theorem line_mono (h : o.Mono a) : (lineOut o).Mono (Buffered.arrived a) where
  write d b := by
    simp only [lineOut, Buffered.lineWrite, Buffered.arrived]
    split
    · exact writeLines_mono h d b
    · split
      · have hm := flushBuf_mono h b
        rcases hf : b.flushBuf o with ⟨e, b1⟩
        rw [hf] at hm
        cases e with
        | some k => exact hm
        | none => exact hm.trans (bufWrite_mono h d b1)
      · exact bufWrite_mono h d b
  flush b := bufFlush_mono h b
  close b := bufClose_mono h b

theorem writePieces_mono (h : o.Mono a) (ps : List Bytes) (w : W) :
    a w <+: a (writePieces o ps w).2 := by
  induction ps generalizing w with
  | nil => exact List.prefix_rfl
  | cons d ps ih =>
    rw [writePieces]
    have hm : a w <+: a (o.writeAll d w).2.2 := writeLoop_mono h _ d w
    rcases hf : o.writeAll d w with ⟨e, rest, w'⟩
    rw [hf] at hm
    cases e with
    | some k => exact hm
    | none => exact hm.trans (ih w')

theorem writeOut_mono (h : o.Mono a) (fl : Bool) (ps : List Bytes) (w : W) :
    a w <+: a (writeOut o fl ps w).2 := by
  unfold writeOut
  have hm := writePieces_mono h ps w
  rcases hf : writePieces o ps w with ⟨e, w'⟩
  rw [hf] at hm
  cases e with
  | some k => exact hm
  | none =>
    cases fl with
    | false => exact hm
    | true => exact hm.trans (h.flush w')
end

/-! ## who reports a closed pipe -/

/-- the pipe is reported as closed only if it is: `c` says that it will be closed at one of
the calls to come -/
structure Out.Blames (o : Out W) (c : W → Prop) : Prop where
  write : ∀ d w, ((o.write d w).1 = .fail .brokenPipe → c w) ∧ (c (o.write d w).2 → c w)
  flush : ∀ w, ((o.flush w).1 = some .brokenPipe → c w) ∧ (c (o.flush w).2 → c w)

section
variable {o : Out W} {c : W → Prop}

theorem writeLoop_blames (h : o.Blames c) (n : Nat) (d : Bytes) (w : W) :
    ((writeLoop o n d w).1 = some .brokenPipe → c w) ∧ (c (writeLoop o n d w).2.2 → c w) := by
  induction n generalizing d w with
  | zero =>
    rw [writeLoop]
    refine ⟨fun he => ?_, id⟩
    cases d <;> simp at he
  | succ n ih =>
    rw [writeLoop]
    have hm := h.write d w
    rcases hw : o.write d w with ⟨r, w'⟩
    rw [hw] at hm
    split
    · exact ⟨fun he => by simp at he, id⟩
    · split
      · rename_i e; cases e; exact ⟨fun he => by simp at he, hm.2⟩
      · rename_i e; cases e; exact ⟨fun he => hm.2 ((ih _ _).1 he), fun he => hm.2 ((ih _ _).2 he)⟩
      · rename_i e; cases e; exact ⟨fun he => hm.2 ((ih _ _).1 he), fun he => hm.2 ((ih _ _).2 he)⟩
      · rename_i e; cases e
        exact ⟨fun he => hm.1 (by simpa using he), hm.2⟩

theorem sink_blames : sinkOut.Blames (fun s => .fail .brokenPipe ∈ s.events) where
  write d w := by
    obtain ⟨got, ev⟩ := w
    rcases ev with _ | ⟨e | _ | k, es⟩
    · exact ⟨fun he => by simp [sinkOut] at he, id⟩
    · exact ⟨fun he => by simp [sinkOut] at he, List.mem_cons_of_mem _⟩
    · exact ⟨fun he => by simp [sinkOut] at he, List.mem_cons_of_mem _⟩
    · exact ⟨fun he => by simp [sinkOut] at he; simp [he], List.mem_cons_of_mem _⟩
  flush w := ⟨fun he => by simp [sinkOut] at he, id⟩

theorem flushBuf_blames (h : o.Blames c) (b : Buffered W) :
    ((b.flushBuf o).1 = some .brokenPipe → c b.inner) ∧ (c (b.flushBuf o).2.inner → c b.inner) :=
  writeLoop_blames h _ _ _

theorem put_blames (h : o.Blames c) (d : Bytes) (b : Buffered W) :
    ((b.put o d).1 = .fail .brokenPipe → c b.inner) ∧ (c (b.put o d).2.inner → c b.inner) := by
  unfold Buffered.put
  split
  · exact h.write _ _
  · exact ⟨fun he => by simp at he, id⟩

theorem bufWrite_blames (h : o.Blames c) (d : Bytes) (b : Buffered W) :
    ((b.write o d).1 = .fail .brokenPipe → c b.inner) ∧ (c (b.write o d).2.inner → c b.inner) := by
  unfold Buffered.write
  split
  · exact ⟨fun he => by simp at he, id⟩
  · split
    · have hm := flushBuf_blames h b
      rcases hf : b.flushBuf o with ⟨e, b1⟩
      rw [hf] at hm
      cases e with
      | some k => exact ⟨fun he => hm.1 (by simpa using he), hm.2⟩
      | none => exact ⟨fun he => hm.2 ((put_blames h d b1).1 he), fun he => hm.2 ((put_blames h d b1).2 he)⟩
    · exact put_blames h d b

theorem bufFlush_blames (h : o.Blames c) (b : Buffered W) :
    ((b.flush o).1 = some .brokenPipe → c b.inner) ∧ (c (b.flush o).2.inner → c b.inner) := by
  unfold Buffered.flush
  have hm := flushBuf_blames h b
  rcases hf : b.flushBuf o with ⟨e, b1⟩
  rw [hf] at hm
  cases e with
  | some k => exact ⟨fun he => hm.1 (by simpa using he), hm.2⟩
  | none => exact ⟨fun he => hm.2 ((h.flush _).1 he), fun he => hm.2 ((h.flush _).2 he)⟩

theorem buf_blames (h : o.Blames c) : (bufOut o).Blames (fun b => c b.inner) where
  write d b := bufWrite_blames h d b
  flush b := bufFlush_blames h b

theorem writeLines_blames (h : o.Blames c) (d : Bytes) (b : Buffered W) :
    ((b.writeLines o d).1 = .fail .brokenPipe → c b.inner) ∧
      (c (b.writeLines o d).2.inner → c b.inner) := by
  unfold Buffered.writeLines
  have hm := flushBuf_blames h b
  rcases hf : b.flushBuf o with ⟨e, b1⟩
  rw [hf] at hm
  cases e with
  | some k => exact ⟨fun he => hm.1 (by simpa using he), hm.2⟩
  | none =>
    have hw := h.write (d.take (lastLine d)) b1.inner
    simp only
    rcases he : o.write (d.take (lastLine d)) b1.inner with ⟨r, w⟩
    rw [he] at hw
    rcases r with (_ | n) | _ | k
    · exact ⟨fun he => by simp at he, fun he => hm.2 (hw.2 he)⟩
    · exact ⟨fun he => by simp at he, fun he => hm.2 (hw.2 he)⟩
    · exact ⟨fun he => by simp at he, fun he => hm.2 (hw.2 he)⟩
    · exact ⟨fun he => hm.2 (hw.1 (by simpa using he)), fun he => hm.2 (hw.2 he)⟩

theorem line_blames (h : o.Blames c) : (lineOut o).Blames (fun b => c b.inner) where
  write d b := by
    simp only [lineOut, Buffered.lineWrite]
    split
    · exact writeLines_blames h d b
    · split
      · have hm := flushBuf_blames h b
        rcases hf : b.flushBuf o with ⟨e, b1⟩
        rw [hf] at hm
        cases e with
        | some k => exact ⟨fun he => hm.1 (by simpa using he), hm.2⟩
        | none =>
          exact ⟨fun he => hm.2 ((bufWrite_blames h d b1).1 he), fun he => hm.2 ((bufWrite_blames h d b1).2 he)⟩
      · exact bufWrite_blames h d b
  flush b := bufFlush_blames h b

theorem writePieces_blames (h : o.Blames c) (ps : List Bytes) (w : W) :
    ((writePieces o ps w).1 = some .brokenPipe → c w) ∧ (c (writePieces o ps w).2 → c w) := by
  induction ps generalizing w with
  | nil => exact ⟨fun he => by simp [writePieces] at he, id⟩
  | cons d ps ih =>
    rw [writePieces]
    have hm : ((o.writeAll d w).1 = some .brokenPipe → c w) ∧ (c (o.writeAll d w).2.2 → c w) :=
      writeLoop_blames h _ _ _
    rcases hf : o.writeAll d w with ⟨e, rest, w'⟩
    rw [hf] at hm
    cases e with
    | some k => exact ⟨fun he => hm.1 (by simpa using he), hm.2⟩
    | none => exact ⟨fun he => hm.2 ((ih w').1 he), fun he => hm.2 ((ih w').2 he)⟩

theorem writeOut_blames (h : o.Blames c) (fl : Bool) (ps : List Bytes) (w : W) :
    (writeOut o fl ps w).1 = some .brokenPipe → c w := by
  unfold writeOut
  have hm := writePieces_blames h ps w
  rcases hf : writePieces o ps w with ⟨e, w'⟩
  rw [hf] at hm
  cases e with
  | some k => exact fun he => hm.1 (by simpa using he)
  | none =>
    cases fl with
    | true => exact fun he => hm.2 ((h.flush w').1 he)
    | false => exact fun he => by simp at he

theorem closing_blames (h : o.Blames c) (a : W → Bytes) (fl : Bool) (ps : List Bytes) (w : W)
    (k : WriterKind)
    (he : (closing o a (k.ended (writeOut o fl ps w).1) (writeOut o fl ps w).2).1 = .err .brokenPipe) :
    c w := by
  apply writeOut_blames h fl ps w
  cases hw : (writeOut o fl ps w).1 with
  | none => rw [hw] at he; simp [closing, WriterKind.ended] at he
  | some e =>
    rw [hw] at he
    cases k <;> simp [closing, WriterKind.ended] at he <;> rw [he]
end

end Pica
