import Verif.Lemmas.Cases
import Verif.Model.Writer
import Verif.Props.Reader

/-! # C43 and C49: the writer options, and reading back what has been written -/

namespace Pica.Props
open Pica Spec

/-! ## C43 -/

/-- **C43** a call panics iff it switches one of the options on while the other is on -/
theorem C43_call (b : WBuilder) (c : WCall) :
    b.call c = none ↔ (c = .gzip true ∧ b.append = true) ∨ (c = .append true ∧ b.gzip = true) := by
  obtain ⟨a, g⟩ := b
  cases c with
  | gzip yes => cases yes <;> cases a <;> simp [WBuilder.call, WBuilder.setGzip]
  | append yes => cases yes <;> cases g <;> simp [WBuilder.call, WBuilder.setAppend]

/-- the value given last, `false` if none has been given -/
def lastGiven (p : WCall → Option Bool) : List WCall → Bool → Bool
  | [], v => v
  | c :: cs, v => lastGiven p cs ((p c).getD v)

/-- the value of a call of `gzip` -/
def gzipGiven : WCall → Option Bool
  | .gzip yes => some yes
  | .append _ => none

/-- the value of a call of `append` -/
def appendGiven : WCall → Option Bool
  | .gzip _ => none
  | .append yes => some yes

/-- **C43** no sequence of builder calls yields a builder with both options; the
options are those given last. -/
theorem C43_builder (cs : List WCall) (b : WBuilder) (h : WBuilder.calls cs WBuilder.new = some b) :
    ¬ (b.append = true ∧ b.gzip = true) ∧ b.gzip = lastGiven gzipGiven cs false ∧
      b.append = lastGiven appendGiven cs false := by
  have key : ∀ (cs : List WCall) (a : WBuilder), ¬ (a.append = true ∧ a.gzip = true) →
      WBuilder.calls cs a = some b →
      ¬ (b.append = true ∧ b.gzip = true) ∧ b.gzip = lastGiven gzipGiven cs a.gzip ∧
        b.append = lastGiven appendGiven cs a.append := by
    intro cs
    induction cs with
    | nil =>
      intro a ha h
      simp only [WBuilder.calls, Option.some.injEq] at h
      subst h
      exact ⟨ha, rfl, rfl⟩
    | cons c cs ih =>
      intro a ha h
      rw [WBuilder.calls] at h
      cases hc : a.call c with
      | none => rw [hc] at h; simp at h
      | some a' =>
        rw [hc] at h
        have hx : ¬ (a'.append = true ∧ a'.gzip = true) ∧ a'.gzip = (gzipGiven c).getD a.gzip ∧
            a'.append = (appendGiven c).getD a.append := by
          obtain ⟨x, y⟩ := a
          cases c with
          | gzip yes =>
            cases yes <;> cases x <;> cases y <;>
              simp_all [WBuilder.call, WBuilder.setGzip, gzipGiven, appendGiven] <;> subst hc <;> simp
          | append yes =>
            cases yes <;> cases x <;> cases y <;>
              simp_all [WBuilder.call, WBuilder.setAppend, gzipGiven, appendGiven] <;> subst hc <;> simp
        have := ih a' hx.1 h
        rw [hx.2.1, hx.2.2] at this
        exact this
  exact key cs WBuilder.new (by simp [WBuilder.new]) h

example : WBuilder.calls [.gzip true, .gzip false, .append true] WBuilder.new = some ⟨true, false⟩ := by decide

/-- **C43** every option combination that a command accepts yields a writer with these
options, except for `slice` with both options.  Missing: `slice --gzip --append`, see
`C43_slice_false`. -/
theorem C43_commands_partial (c : WCommand) (gzip append : Bool)
    (h : ¬ (c = .slice ∧ gzip = true ∧ append = true)) :
    c.writer gzip append = .usage ∨ c.writer gzip append = .writer ⟨append, gzip⟩ := by
  cases c <;> cases gzip <;> cases append <;> first | exact absurd ⟨rfl, rfl, rfl⟩ h | decide

/-- **C43** `slice --gzip --append` is accepted on the command line and panics. -/
theorem C43_slice_false : WCommand.slice.writer true true = .panic := by decide

/-- **C43** the assertions do not look at the file name: appending to a file whose name
ends with `.gz` gives a gzip writer in append mode. -/
theorem C43_extension_false (fs : FileMap) : WCommand.filter.writer false true = .writer ⟨true, false⟩ ∧
    ((⟨true, false⟩ : WBuilder).fromPath (bs "a.dat.gz") fs).1 = ⟨bs "a.dat.gz", true⟩ := by
  refine ⟨by decide, ?_⟩
  have : extension (bs "a.dat.gz") = some (bs "gz") := by decide +kernel
  simp [WBuilder.fromPath, this]

/-! ## C49 -/

/-- **C49** (content of the file) without `append`, the file has the new data; with
`append`, the new data follows the old data. -/
theorem C49_content (z : Gzip) (b : WBuilder) (path : Bytes) (rs : List Record) (fs : FileMap) :
    (b.writeFile z path rs fs path = some ((if b.append then (fs path).getD [] else []) ++
      (if b.gzip = true ∨ extension path = some (bs "gz") then z.compress (rs.flatMap Record.write)
        else rs.flatMap Record.write))) ∧
    ∀ p, p ≠ path → b.writeFile z path rs fs p = fs p := by
  constructor
  · unfold WBuilder.writeFile WBuilder.fromPath FileWriter.finish FileMap.set
    simp only [if_true, Option.getD_some, Option.some.injEq]
    congr 1
    simp
  · intro p hp
    unfold WBuilder.writeFile WBuilder.fromPath FileWriter.finish FileMap.set
    simp [hp]

/-- **C49** records written to a file, without `append`, are read back from the same
path: if the name ends with `.gz`, or `gzip` is off.  Missing: the names and options of
the theorems with suffix `_false`. -/
theorem C49_readback_partial (z : Gzip) (stdin : Bytes) (b : WBuilder) (path : Bytes) (rs : List Record) (fs : FileMap)
    (hb : b.append = false) (hgz : b.gzip = true → extension path = some (bs "gz")) (hp : path ≠ bs "-")
    (h : ∀ r ∈ rs, IsRecord r ∧ r ≠ []) (hlf : ∀ r ∈ rs, NoLF r) :
    readFile z stdin path (b.writeFile z path rs fs) = some (rs.map (fun r => .ok ⟨some r.write, r⟩)) := by
  unfold readFile openFile
  rw [(C49_content z b path rs fs).1, hb]
  by_cases he : extension path = some (bs "gz")
  · rw [if_pos he]
    simp only [he, or_true, if_true, Bool.false_eq_true, if_false, List.nil_append, Option.map_some]
    have := z.decode (rs.flatMap Record.write) []
    rw [List.append_nil] at this
    rw [this, C05_readback_partial rs none h hlf]
  · have hg : b.gzip = false := by
      cases hb : b.gzip with
      | false => rfl
      | true => exact absurd (hgz hb) he
    rw [if_neg he, if_neg hp]
    simp only [he, hg, Bool.false_eq_true, or_self, if_false, List.nil_append, Option.map_some]
    rw [C05_readback_partial rs none h hlf]

/-- **C49** records appended to a file that has been written before are read back after
those written before: if the file is not compressed. -/
theorem C49_append_partial (z : Gzip) (stdin : Bytes) (path : Bytes) (rs rs' : List Record) (fs : FileMap)
    (he : extension path ≠ some (bs "gz")) (hp : path ≠ bs "-")
    (h : ∀ r ∈ rs ++ rs', IsRecord r ∧ r ≠ []) (hlf : ∀ r ∈ rs ++ rs', NoLF r) :
    readFile z stdin path ((⟨true, false⟩ : WBuilder).writeFile z path rs' (WBuilder.new.writeFile z path rs fs)) =
      some ((rs ++ rs').map (fun r => .ok ⟨some r.write, r⟩)) := by
  unfold readFile openFile
  rw [(C49_content z ⟨true, false⟩ path rs' _).1, (C49_content z WBuilder.new path rs fs).1]
  rw [if_neg he, if_neg hp]
  simp only [WBuilder.new, he, Bool.false_eq_true, or_self, if_false, if_true, List.nil_append, Option.map_some,
    Option.getD_some]
  rw [← List.flatMap_append, C05_readback_partial (rs ++ rs') none h hlf]

/-- **C49** records appended to a compressed file are lost: the reader stops after the
first member of the file. -/
theorem C49_append_gz_false (z : Gzip) (stdin : Bytes) (path : Bytes) (rs rs' : List Record) (fs : FileMap)
    (he : extension path = some (bs "gz")) (h : ∀ r ∈ rs, IsRecord r ∧ r ≠ []) (hlf : ∀ r ∈ rs, NoLF r) :
    readFile z stdin path ((⟨true, false⟩ : WBuilder).writeFile z path rs' (WBuilder.new.writeFile z path rs fs)) =
      some (rs.map (fun r => .ok ⟨some r.write, r⟩)) := by
  unfold readFile openFile
  rw [(C49_content z ⟨true, false⟩ path rs' _).1, (C49_content z WBuilder.new path rs fs).1]
  rw [if_pos he]
  simp only [WBuilder.new, he, or_true, Bool.false_eq_true, if_false, if_true, List.nil_append, Option.map_some,
    Option.getD_some]
  rw [z.decode, C05_readback_partial rs none h hlf]

/-- **C49** a compressed file whose name does not end with `.gz` is read as it is: the
reader sees the compressed bytes. -/
theorem C49_gzip_name_false (z : Gzip) (stdin : Bytes) (path : Bytes) (rs : List Record) (fs : FileMap)
    (he : extension path ≠ some (bs "gz")) (hp : path ≠ bs "-") :
    openFile z stdin path ((⟨false, true⟩ : WBuilder).writeFile z path rs fs) =
      some (z.compress (rs.flatMap Record.write)) := by
  unfold openFile
  rw [(C49_content z ⟨false, true⟩ path rs fs).1, if_neg he, if_neg hp]
  simp

/-- **C49** the output `-` is a file with this name, but the input `-` is the standard
input. -/
theorem C49_dash_false (z : Gzip) (stdin : Bytes) (b : WBuilder) (rs : List Record) (fs : FileMap) :
    (∃ content, b.writeFile z (bs "-") rs fs (bs "-") = some content) ∧
      openFile z stdin (bs "-") (b.writeFile z (bs "-") rs fs) = some stdin := by
  refine ⟨⟨_, (C49_content z b (bs "-") rs fs).1⟩, ?_⟩
  have he : extension (bs "-") ≠ some (bs "gz") := by decide +kernel
  unfold openFile
  rw [if_neg he, if_pos rfl]

/-! ## standard output -/

/-- The claim is that the flags have no effect on standard output, as the comments of
`gzip` and `append` say; this is false, see `C73_gzip_false`. **C73** What holds: with a
path nothing goes to standard output; without a path no file is touched, `append` has no
effect, and standard output receives the records, compressed iff `gzip` is set. -/
theorem C73_stdout_partial (z : Gzip) (b : WBuilder) (rs : List Record) (fs : FileMap) (out : Bytes) :
    (∀ path, (b.writeOut z (some path) rs fs out).2 = out ∧
      (b.writeOut z (some path) rs fs out).1 = b.writeFile z path rs fs) ∧
    (b.writeOut z none rs fs out).1 = fs ∧
    (b.gzip = false → (b.writeOut z none rs fs out).2 = out ++ rs.flatMap Record.write) ∧
    (b.gzip = true → (b.writeOut z none rs fs out).2 = out ++ z.compress (rs.flatMap Record.write)) ∧
    (∀ b' : WBuilder, b'.gzip = b.gzip → b'.writeOut z none rs fs out = b.writeOut z none rs fs out) := by
  refine ⟨fun path => ⟨rfl, rfl⟩, ?_, fun h => ?_, fun h => ?_, fun b' h => ?_⟩
  · unfold WBuilder.writeOut
    cases b.gzip <;> rfl
  · unfold WBuilder.writeOut
    rw [h]; rfl
  · unfold WBuilder.writeOut
    rw [h]; rfl
  · unfold WBuilder.writeOut
    rw [h]

/-- **C73** whatever the compression, with `gzip` there are records for which standard
output does not receive the records as they are. -/
theorem C73_gzip_false (z : Gzip) (b : WBuilder) (hb : b.gzip = true) (r : Record) (hr : r ≠ []) (fs : FileMap)
    (out : Bytes) :
    ¬ ∀ rs, (∀ x ∈ rs, x = r) → (b.writeOut z none rs fs out).2 = out ++ rs.flatMap Record.write := by
  intro h
  have h0 := h [] (by simp)
  have h1 := h [r] (by simp)
  rw [(C73_stdout_partial z b _ fs out).2.2.2.1 hb] at h0 h1
  have h0' := List.append_cancel_left h0
  have h1' := List.append_cancel_left h1
  have d0 := z.decode ([].flatMap Record.write) ([r].flatMap Record.write)
  have d1 := z.decode ([r].flatMap Record.write) []
  rw [h0'] at d0
  rw [h1', List.append_nil] at d1
  have e : ([] : List Record).flatMap Record.write = [] := rfl
  rw [e, List.nil_append, d1] at d0
  simp [Record.write] at d0
  exact hr d0

/-- **C73** a command that reads the standard output of another one from `-` gets exactly
its records, unless the output is compressed: then it gets the compressed bytes. -/
theorem C73_pipe (z : Gzip) (b : WBuilder) (rs : List Record) (fs : FileMap)
    (h : ∀ r ∈ rs, IsRecord r ∧ r ≠ []) (hlf : ∀ r ∈ rs, NoLF r) :
    (b.gzip = false → readFile z (b.writeOut z none rs fs []).2 (bs "-") fs =
      some (rs.map (fun r => .ok ⟨some r.write, r⟩))) ∧
    (b.gzip = true → openFile z (b.writeOut z none rs fs []).2 (bs "-") fs =
      some (z.compress (rs.flatMap Record.write))) := by
  have he : extension (bs "-") ≠ some (bs "gz") := by decide +kernel
  refine ⟨fun hg => ?_, fun hg => ?_⟩
  · unfold readFile openFile
    rw [if_neg he, if_pos rfl, (C73_stdout_partial z b rs fs []).2.2.1 hg, List.nil_append, Option.map_some,
      C05_readback_partial rs none h hlf]
  · unfold openFile
    rw [if_neg he, if_pos rfl, (C73_stdout_partial z b rs fs []).2.2.2.1 hg, List.nil_append]

/-- **C73** which commands compress standard output: those with `--gzip` that may write
to it (split and partition always write to files). -/
theorem C73_commands (c : WCommand) (b : WBuilder) (append : Bool) (h : c.writer true append = .writer b) :
    b.gzip = true ∧ c ≠ .concat ∧ c ≠ .convert := by
  cases c <;> cases append <;> simp [WCommand.writer, WOutcome.ofCalls, WBuilder.calls, WBuilder.call,
    WBuilder.setGzip, WBuilder.setAppend, WBuilder.new] at h <;> subst h <;> simp

/-! ## cases -/

/-- a toy compression: the length in unary, then the data -/
def toyGzip : Gzip where
  compress d := List.replicate d.length 1 ++ 0 :: d
  firstMember f := (f.drop ((f.takeWhile (fun c => c == 1)).length + 1)).take (f.takeWhile (fun c => c == 1)).length
  decode d rest := by
    have h1 : ((List.replicate d.length (1 : Byte) ++ 0 :: d) ++ rest).takeWhile (fun c => c == 1) =
        List.replicate d.length 1 := by
      rw [List.append_assoc, List.takeWhile_append_of_pos (by simp)]
      simp
    rw [h1, List.length_replicate]
    have h2 : ((List.replicate d.length (1 : Byte) ++ 0 :: d) ++ rest).drop (d.length + 1) = d ++ rest := by
      have e : (List.replicate d.length (1 : Byte) ++ 0 :: d) ++ rest =
          (List.replicate d.length (1 : Byte) ++ [0]) ++ (d ++ rest) := by simp
      rw [e, List.drop_left' (by simp)]
    rw [h2, List.take_left]

example : extension (bs "out/a.dat.gz") = some (bs "gz") ∧ extension (bs "a.gz/b") = none ∧
    extension (bs ".gz") = none ∧ extension (bs "a.dat") = some (bs "dat") ∧ extension (bs "a.") = some [] := by
  decide +kernel

/-- the hypotheses of the theorems hold for this case; the second record is lost -/
example : readFile toyGzip [] (bs "a.gz") ((⟨true, false⟩ : WBuilder).writeFile toyGzip (bs "a.gz") [sample]
    (WBuilder.new.writeFile toyGzip (bs "a.gz") [sample] (fun _ => none))) =
      some [.ok ⟨some sample.write, sample⟩] ∧
    readFile toyGzip [] (bs "a.dat") ((⟨true, false⟩ : WBuilder).writeFile toyGzip (bs "a.dat") [sample]
    (WBuilder.new.writeFile toyGzip (bs "a.dat") [sample] (fun _ => none))) =
      some [.ok ⟨some sample.write, sample⟩, .ok ⟨some sample.write, sample⟩] := by
  decide +kernel

example : (⟨false, true⟩ : WBuilder).writeOut toyGzip none [sample] (fun _ => none) [] =
    ((fun _ => none), List.replicate sampleBytes.length 1 ++ 0 :: sampleBytes) := by
  have : sample.write = sampleBytes := by decide +kernel
  simp [WBuilder.writeOut, toyGzip, this]
example : WCommand.filter.writer true false = .writer ⟨false, true⟩ := by decide +kernel

/-! ## the theorems on concrete records -/

theorem sample_ok : ∀ r ∈ [sample], IsRecord r ∧ r ≠ [] := by
  simp only [List.mem_singleton, forall_eq]
  exact ⟨isRecord_of (b := sampleBytes) (by decide +kernel), by decide +kernel⟩

theorem sample_lf : ∀ r ∈ [sample], NoLF r := by unfold NoLF; decide +kernel

example := C43_commands_partial .slice true false (by simp)
example := C49_readback_partial toyGzip [] ⟨false, true⟩ (bs "a.gz") [sample] (fun _ => none) rfl (by decide +kernel)
  (by decide +kernel) sample_ok sample_lf
example := C49_append_partial toyGzip [] (bs "a.dat") [sample] [] (fun _ => none) (by decide +kernel) (by decide +kernel)
  sample_ok sample_lf
example := C49_append_gz_false toyGzip [] (bs "a.gz") [sample] [sample] (fun _ => none) (by decide +kernel) sample_ok sample_lf
example := C49_gzip_name_false toyGzip [] (bs "a.dat") [sample] (fun _ => none) (by decide +kernel) (by decide +kernel)
example := C73_gzip_false toyGzip ⟨false, true⟩ rfl sample (by decide +kernel) (fun _ => none) []
example := C73_pipe toyGzip ⟨false, false⟩ [sample] (fun _ => none) sample_ok sample_lf
example := C73_commands .filter ⟨false, true⟩ false (by decide +kernel)

end Pica.Props
