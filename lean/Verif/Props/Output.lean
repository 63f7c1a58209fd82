import Verif.Lemmas.Output
import Verif.Props.Writer

/-!
# C74: a command that succeeds has written its output

The device may take the data in parts, interrupt calls, and fail at any of them.  The
data come in any pieces, the buffers have any size.
-/

namespace Pica.Props

open Pica

/-- the writers that do not flush and hold data back -/
def Unflushed (k : WriterKind) : Prop :=
  k = .xmlFile ∨ k = .xmlStdout ∨ k = .gzipStdout

section
variable {W : Type} {o : Out W} {a p : W → Bytes}

theorem writeOut_lawful (h : o.Lawful a p) (fl : Bool) (ps : List Bytes) (w : W) :
    ∃ q, q <+: ps.flatten ∧ a (writeOut o fl ps w).2 ++ p (writeOut o fl ps w).2 = a w ++ p w ++ q ∧
      ((writeOut o fl ps w).1 = none → q = ps.flatten ∧
        (fl = true → p (writeOut o fl ps w).2 = [])) := by
  obtain ⟨q, h1, h2, h3⟩ := writePieces_lawful h ps w
  unfold writeOut
  rcases hw : writePieces o ps w with ⟨e, w'⟩
  rw [hw] at h2 h3
  cases e with
  | some k => exact ⟨q, h1, h2, fun e => by cases e⟩
  | none =>
    cases fl with
    | false => exact ⟨q, h1, h2, fun e => ⟨h3 rfl, fun e => by cases e⟩⟩
    | true =>
      obtain ⟨g1, g2⟩ := h.flush w'
      exact ⟨q, h1, by simp only [if_true]; rw [g1]; exact h2, fun e => ⟨h3 rfl, fun _ => g2 e⟩⟩

/-- what arrives is a beginning of what was written -/
theorem closing_prefix (h : o.Lawful a p) (hm : o.Mono a) (fl : Bool) (ps : List Bytes) (w : W)
    (hp : p w = []) (f : Option IoKind → OutEnd) :
    ∃ q, q <+: ps.flatten ∧
      (closing o a (f (writeOut o fl ps w).1) (writeOut o fl ps w).2).2 = a w ++ q := by
  obtain ⟨q, h1, h2, _⟩ := writeOut_lawful h fl ps w
  rw [hp, List.append_nil] at h2
  have hmono := writeOut_mono hm fl ps w
  have key : ∀ x y : Bytes, x ++ y = a w ++ q → a w <+: x →
      ∃ q', q' <+: ps.flatten ∧ x = a w ++ q' := by
    intro x y e hx
    obtain ⟨z, rfl⟩ := hx
    rw [List.append_assoc] at e
    have hz : z <+: q := ⟨y, List.append_cancel_left e⟩
    exact ⟨z, hz.trans h1, rfl⟩
  have hc : ∀ e : OutEnd, (closing o a e (writeOut o fl ps w).2).2 = a (writeOut o fl ps w).2 ∨
      (closing o a e (writeOut o fl ps w).2).2 = a (o.close (writeOut o fl ps w).2) := by
    intro e
    cases e
    · exact Or.inr rfl
    · exact Or.inr rfl
    · exact Or.inl rfl
  rcases hc (f (writeOut o fl ps w).1) with e | e
  · rw [e]
    exact key _ _ h2 hmono
  · rw [e]
    exact key _ _ ((h.close _).trans h2) (hmono.trans (hm.close _))

/-- a writer that is flushed, or does not hold anything back -/
theorem closing_complete (h : o.Lawful a p) (fl : Bool) (ps : List Bytes) (w : W)
    (hp : p w = []) (k : WriterKind) (hfl : fl = true ∨ ∀ w, p w = []) {got : Bytes}
    (he : closing o a (k.ended (writeOut o fl ps w).1) (writeOut o fl ps w).2 = (.ok, got)) :
    got = a w ++ ps.flatten := by
  obtain ⟨q, h1, h2, h3⟩ := writeOut_lawful h fl ps w
  rw [hp, List.append_nil] at h2
  rcases hw : writeOut o fl ps w with ⟨e, w'⟩
  rw [hw] at h2 h3 he
  cases e with
  | some e => cases k <;> simp [closing, WriterKind.ended] at he
  | none =>
    obtain ⟨rfl, h4⟩ := h3 rfl
    simp only [closing, WriterKind.ended, Prod.mk.injEq, true_and] at he
    have hp' : p w' = [] := by
      rcases hfl with hfl | hfl
      · exact h4 hfl
      · exact hfl _
    have := h.close w'
    rw [h.calm _ hp', h2, List.append_nil] at this
    rw [← he, this]

/-- a device that does not fail -/
theorem closing_steady (h : o.Lawful a p) {good : W → Prop} (hs : o.Steady p good)
    (fl : Bool) (ps : List Bytes) (w : W)
    (hp : p w = []) (hg : good w) (k : WriterKind) :
    closing o a (k.ended (writeOut o fl ps w).1) (writeOut o fl ps w).2 =
      (.ok, a w ++ ps.flatten) := by
  obtain ⟨q, h1, h2, h3⟩ := writeOut_lawful h fl ps w
  rw [hp, List.append_nil] at h2
  obtain ⟨g1, g2⟩ := writePieces_steady hs ps w hg
  have hw : (writeOut o fl ps w).1 = none ∧ good (writeOut o fl ps w).2 := by
    unfold writeOut
    rcases hw : writePieces o ps w with ⟨e, w'⟩
    rw [hw] at g1 g2
    simp only at g1 g2
    subst g1
    cases fl with
    | false => exact ⟨rfl, g2⟩
    | true => exact hs.flush _ g2
  obtain ⟨rfl, _⟩ := h3 hw.1
  rw [hw.1]
  have := h.close (writeOut o fl ps w).2
  rw [hs.close _ hw.2, h2, List.append_nil] at this
  simp only [closing, WriterKind.ended, this]
end

/-- A command that ends well has written all of its output, if its writer is flushed or
holds nothing back. -/
theorem C74_complete_partial (k : WriterKind) (hk : ¬ Unflushed k) (cap lcap : Nat)
    (ps : List Bytes) (s : Sink) {got : Bytes} (h : k.run cap lcap ps s = (.ok, got)) :
    got = s.got ++ ps.flatten := by
  cases k with
  | file => exact closing_complete (buf_lawful sink_lawful) true ps ⟨cap, [], s⟩ rfl .file (Or.inl rfl) h
  | stdout =>
    exact closing_complete (buf_lawful (line_lawful sink_lawful)) true ps ⟨cap, [], ⟨lcap, [], s⟩⟩ rfl
      .stdout (Or.inl rfl) h
  | gzipFile => exact closing_complete sink_lawful false ps s rfl .gzipFile (Or.inr fun _ => rfl) h
  | gzipStdout => exact absurd (Or.inr (Or.inr rfl)) hk
  | xmlFile => exact absurd (Or.inl rfl) hk
  | xmlStdout => exact absurd (Or.inr (Or.inl rfl)) hk
  | direct => exact closing_complete sink_lawful true ps s rfl .direct (Or.inl rfl) h
  | directStdout =>
    exact closing_complete (line_lawful sink_lawful) true ps ⟨lcap, [], s⟩ rfl .directStdout (Or.inl rfl) h
  | checkFile =>
    exact closing_complete (buf_lawful (buf_lawful sink_lawful)) true ps ⟨lcap, [], ⟨cap, [], s⟩⟩ rfl
      .checkFile (Or.inl rfl) h

/-- However it ends, what arrives is a beginning of the output: nothing is lost in between,
written twice or in another order. -/
theorem C74_prefix (k : WriterKind) (cap lcap : Nat) (ps : List Bytes) (s : Sink) :
    ∃ q, q <+: ps.flatten ∧ (k.run cap lcap ps s).2 = s.got ++ q := by
  have h1 := closing_prefix (buf_lawful sink_lawful) (buf_mono sink_mono)
  have h2 := closing_prefix (buf_lawful (line_lawful sink_lawful)) (buf_mono (line_mono sink_mono))
  have h3 := closing_prefix sink_lawful sink_mono
  have h4 := closing_prefix (line_lawful sink_lawful) (line_mono sink_mono)
  have h5 := closing_prefix (buf_lawful (buf_lawful sink_lawful)) (buf_mono (buf_mono sink_mono))
  cases k with
  | file => exact h1 true ps ⟨cap, [], s⟩ rfl _
  | stdout => exact h2 true ps ⟨cap, [], ⟨lcap, [], s⟩⟩ rfl _
  | gzipFile => exact h3 false ps s rfl _
  | gzipStdout => exact h4 false ps ⟨lcap, [], s⟩ rfl _
  | xmlFile => exact h1 false ps ⟨cap, [], s⟩ rfl _
  | xmlStdout => exact h2 false ps ⟨cap, [], ⟨lcap, [], s⟩⟩ rfl _
  | direct => exact h3 true ps s rfl _
  | directStdout => exact h4 true ps ⟨lcap, [], s⟩ rfl _
  | checkFile => exact h5 true ps ⟨lcap, [], ⟨cap, [], s⟩⟩ rfl _

/-- If no call fails, the command ends well and everything arrives, however small the
parts are that the device takes. -/
theorem C74_works (k : WriterKind) (cap lcap : Nat) (ps : List Bytes) (s : Sink)
    (hs : ∀ e ∈ s.events, e = .interrupted ∨ ∃ n, e = .accept (n + 1)) : k.run cap lcap ps s = (.ok, s.got ++ ps.flatten) := by
  have h1 := closing_steady (buf_lawful sink_lawful) (buf_steady sink_steady)
  have h2 := closing_steady (buf_lawful (line_lawful sink_lawful)) (buf_steady (line_steady sink_steady))
  have h3 := closing_steady sink_lawful sink_steady
  have h4 := closing_steady (line_lawful sink_lawful) (line_steady sink_steady)
  have h5 := closing_steady (buf_lawful (buf_lawful sink_lawful)) (buf_steady (buf_steady sink_steady))
  cases k with
  | file => exact h1 true ps ⟨cap, [], s⟩ rfl hs _
  | stdout => exact h2 true ps ⟨cap, [], ⟨lcap, [], s⟩⟩ rfl hs _
  | gzipFile => exact h3 false ps s rfl hs _
  | gzipStdout => exact h4 false ps ⟨lcap, [], s⟩ rfl hs _
  | xmlFile => exact h1 false ps ⟨cap, [], s⟩ rfl hs _
  | xmlStdout => exact h2 false ps ⟨cap, [], ⟨lcap, [], s⟩⟩ rfl hs _
  | direct => exact h3 true ps s rfl hs _
  | directStdout => exact h4 true ps ⟨lcap, [], s⟩ rfl hs _
  | checkFile => exact h5 true ps ⟨lcap, [], ⟨cap, [], s⟩⟩ rfl hs _

/-- the status of the process: `CliError::IO` (a panic has none) -/
def OutEnd.status : OutEnd → Option Nat
  | .ok => some (exitStatus (.ok ()))
  | .err e => some (exitStatus (.error (.io e)))
  | .panic => none

/-- A closed pipe is reported only if the reader has closed the pipe: a full device, or one
that takes nothing, is not taken for it. -/
theorem C74_pipe (k : WriterKind) (cap lcap : Nat) (ps : List Bytes) (s : Sink)
    (h : (k.run cap lcap ps s).1 = .err .brokenPipe) : .fail .brokenPipe ∈ s.events := by
  have h3 := sink_blames
  have h1 := buf_blames h3
  have h4 := line_blames h3
  have h2 := buf_blames h4
  have h5 := buf_blames h1
  cases k with
  | file => exact closing_blames h1 _ true ps ⟨cap, [], s⟩ _ h
  | stdout => exact closing_blames h2 _ true ps ⟨cap, [], ⟨lcap, [], s⟩⟩ _ h
  | gzipFile => exact closing_blames h3 _ false ps s _ h
  | gzipStdout => exact closing_blames h4 _ false ps ⟨lcap, [], s⟩ _ h
  | xmlFile => exact closing_blames h1 _ false ps ⟨cap, [], s⟩ _ h
  | xmlStdout => exact closing_blames h2 _ false ps ⟨cap, [], ⟨lcap, [], s⟩⟩ _ h
  | direct => exact closing_blames h3 _ true ps s _ h
  | directStdout => exact closing_blames h4 _ true ps ⟨lcap, [], s⟩ _ h
  | checkFile => exact closing_blames h5 _ true ps ⟨lcap, [], ⟨cap, [], s⟩⟩ _ h

/-- Status 0 means that everything has been written or that the reader has closed the
pipe. -/
theorem C74_status_partial (k : WriterKind) (hk : ¬ Unflushed k) (cap lcap : Nat) (ps : List Bytes)
    (s : Sink) (h : OutEnd.status (k.run cap lcap ps s).1 = some 0) :
    (k.run cap lcap ps s).2 = s.got ++ ps.flatten ∨
      (k.run cap lcap ps s).1 = .err .brokenPipe ∧ .fail .brokenPipe ∈ s.events := by
  rcases hr : k.run cap lcap ps s with ⟨e, got⟩
  rw [hr] at h
  cases e with
  | ok => exact Or.inl (C74_complete_partial k hk cap lcap ps s hr)
  | panic => simp [OutEnd.status] at h
  | err e =>
    have : e = .brokenPipe := by
      cases e
      · rfl
      · simp [OutEnd.status, exitStatus] at h
    subst this
    exact Or.inr ⟨rfl, C74_pipe k cap lcap ps s (by rw [hr])⟩

/-- Records that have been compressed into a new file can be decompressed if the command
has ended well, and otherwise what is there is a beginning of the compressed file. -/
theorem C74_gzip (z : Gzip) (d : Bytes) (ps : List Bytes) (hps : ps.flatten = z.compress d) (cap lcap : Nat)
    (ev : List WriteEvent) :
    (∃ got, WriterKind.gzipFile.run cap lcap ps ⟨[], ev⟩ = (.ok, got) ∧ z.firstMember got = d) ∨
    ∃ e q, q <+: z.compress d ∧ WriterKind.gzipFile.run cap lcap ps ⟨[], ev⟩ = (.err e, q) := by
  obtain ⟨q, h1, h2⟩ := C74_prefix .gzipFile cap lcap ps ⟨[], ev⟩
  rcases hr : WriterKind.gzipFile.run cap lcap ps ⟨[], ev⟩ with ⟨e, got⟩
  rw [hr] at h2
  cases e with
  | ok =>
    have hu : ¬ Unflushed .gzipFile := by
      rintro (h | h | h) <;> cases h
    have hg := C74_complete_partial .gzipFile hu cap lcap ps ⟨[], ev⟩ hr
    refine Or.inl ⟨got, rfl, ?_⟩
    have := z.decode d []
    rw [hg, hps, List.nil_append]
    rwa [List.append_nil] at this
  | err e =>
    rw [hps] at h1
    exact Or.inr ⟨e, q, h1, by rw [show got = q from h2]⟩
  | panic =>
    simp only [WriterKind.run] at hr
    rcases hw : (writeOut sinkOut false ps ⟨[], ev⟩).1 with _ | e <;>
      rw [hw] at hr <;> simp [WriterKind.ended, closing] at hr

/-- pieces that fit into a buffer stay there -/
theorem writePieces_fits {W : Type} (o : Out W) (ps : List Bytes) (cap : Nat) (buf : Bytes) (w : W)
    (h : buf.length + ps.flatten.length < cap) :
    writePieces (bufOut o) ps ⟨cap, buf, w⟩ = (none, ⟨cap, buf ++ ps.flatten, w⟩) := by
  induction ps generalizing buf with
  | nil => simp [writePieces]
  | cons d ps ih =>
    rw [List.flatten_cons, List.length_append] at h
    have hw : (bufOut o).writeAll d ⟨cap, buf, w⟩ = (none, [], ⟨cap, buf ++ d, w⟩) := by
      cases d with
      | nil => rw [writeAll_nil, List.append_nil]
      | cons c d =>
        have he : (bufOut o).write (c :: d) ⟨cap, buf, w⟩ =
            (.took (d.length + 1), ⟨cap, buf ++ c :: d, w⟩) := by
          simp only [bufOut, Buffered.write, List.length_cons] at h ⊢
          rw [if_pos (by omega)]
        rw [Out.writeAll, writeLoop]
        simp only [List.isEmpty_cons, Bool.false_eq_true, if_false, he]
        rw [List.drop_of_length_le (by simp)]
        cases hn : (c :: d).length + (bufOut o).left ⟨cap, buf, w⟩ with
        | zero => rfl
        | succ n => rfl
    rw [writePieces, hw]
    simp only
    rw [ih _ (by rw [List.length_append]; omega), List.append_assoc, List.flatten_cons]

/-- For the XML output the claim fails whenever the document is smaller than the buffer
and the device is full: the command ends well and nothing has been written. -/
theorem C74_xml_lost (cap lcap : Nat) (ps : List Bytes) (s : Sink) (k : IoKind)
    (es : List WriteEvent) (hs : s.events = .fail k :: es) (h : ps.flatten.length < cap) :
    WriterKind.xmlFile.run cap lcap ps s = (.ok, s.got) := by
  obtain ⟨got, ev⟩ := s
  subst hs
  have hp := writePieces_fits sinkOut ps cap [] ⟨got, .fail k :: es⟩ (by simpa using h)
  have hw : writeOut (bufOut sinkOut) false ps ⟨cap, [], ⟨got, .fail k :: es⟩⟩ =
      (none, ⟨cap, ps.flatten, ⟨got, .fail k :: es⟩⟩) := by
    simp only [writeOut, hp, List.nil_append]
    rfl
  simp only [WriterKind.run, hw, WriterKind.ended, closing, Prod.mk.injEq, true_and]
  simp only [bufOut, Buffered.close, Buffered.flushBuf, Out.writeAll]
  cases hps : ps.flatten with
  | nil => rfl
  | cons c d => rfl

/-- `pica convert --to xml -o /dev/full` -/
theorem C74_xml_false : ∃ (ps : List Bytes) (s : Sink) (got : Bytes),
    WriterKind.xmlFile.run 8192 1024 ps s = (.ok, got) ∧ got ≠ s.got ++ ps.flatten :=
  ⟨[bs "<collection>", bs "</collection>"], ⟨[], [.fail .other]⟩, [],
    C74_xml_lost 8192 1024 _ _ _ _ rfl (by decide +kernel), by decide +kernel⟩

/-- the same to standard output -/
theorem C74_xml_stdout_false : ∃ (ps : List Bytes) (s : Sink) (got : Bytes),
    WriterKind.xmlStdout.run 8192 1024 ps s = (.ok, got) ∧ got ≠ s.got ++ ps.flatten :=
  ⟨[bs "<collection>", [LF], bs "</collection>"], ⟨[], [.fail .other]⟩, [],
    by decide +kernel, by decide +kernel⟩

/-- compressed records on standard output are not flushed -/
theorem C74_gzip_stdout_false : ∃ (ps : List Bytes) (s : Sink) (got : Bytes),
    WriterKind.gzipStdout.run 8192 1024 ps s = (.ok, got) ∧ got ≠ s.got ++ ps.flatten :=
  ⟨[bs "abc"], ⟨[], [.fail .other]⟩, [], by decide +kernel, by decide +kernel⟩

/-- an XML document that does not fit into the buffer makes the process panic if the
device is full or the pipe closed, where the other formats end with an error -/
theorem C74_xml_panic (e : IoKind) :
    WriterKind.xmlFile.run 4 1024 [bs "abc", bs "def"] ⟨[], [.fail e]⟩ = (.panic, []) ∧
    WriterKind.file.run 4 1024 [bs "abc", bs "def"] ⟨[], [.fail e]⟩ = (.err e, bs "abc") := by
  cases e <;> decide +kernel

/-! ## examples -/

/-- the device takes three bytes, is interrupted, then has no space left -/
example : WriterKind.file.run 4 1024 [bs "abc", bs "de", bs "fghijk"] ⟨bs "x", [.accept 3, .interrupted]⟩ =
    (.ok, bs "xabcdefghijk") := by decide +kernel
example : WriterKind.file.run 4 1024 [bs "abc", bs "de", bs "fghijk"] ⟨bs "x", [.accept 3, .interrupted, .fail .other]⟩ =
    (.err .other, bs "xabcde") := by decide +kernel
example : WriterKind.stdout.run 4 8 [bs "abc", [LF], bs "fghijk"] ⟨[], [.accept 3, .interrupted]⟩ =
    (.ok, bs "abc" ++ LF :: bs "fghijk") := by decide +kernel
example : WriterKind.stdout.run 4 8 [bs "abc", [LF], bs "fghijk"] ⟨[], [.accept 3, .interrupted, .fail .brokenPipe]⟩ =
    (.err .brokenPipe, bs "abc" ++ [LF]) := by decide +kernel
example : OutEnd.status (WriterKind.stdout.run 4 8 [bs "abc", [LF], bs "fghijk"]
    ⟨[], [.accept 3, .interrupted, .fail .brokenPipe]⟩).1 = some 0 := by decide +kernel
/-- a device that takes nothing -/
example : WriterKind.stdout.run 4 8 [bs "abc", [LF], bs "fghijk"] ⟨[], [.accept 3, .accept 0]⟩ =
    (.err .other, bs "abc" ++ [LF]) := by decide +kernel
example : ¬ Unflushed .file := by rintro (h | h | h) <;> cases h
example : WriterKind.gzipFile.run 4 8 [toyGzip.compress (bs "ab")] ⟨[], [.accept 3]⟩ =
    (.ok, [1, 1, 0, 0x61, 0x62]) := by decide +kernel

end Pica.Props
