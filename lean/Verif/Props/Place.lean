import Verif.Model.Place
import Verif.Spec.Place
import Verif.Props.Partition

/-! # C84: the files of partition and split are in the output directory -/

namespace Pica.Props
open Pica Spec

theorem segments_ne_nil (a : Bytes) : segments a ≠ [] := by
  cases a with
  | nil => simp [segments]
  | cons c t =>
    unfold segments
    split
    · simp
    · split <;> simp

theorem segments_append (a b : Bytes) : segments (a ++ 0x2F :: b) = segments a ++ segments b := by
  induction a with
  | nil => simp [segments]
  | cons c t ih =>
    rw [List.cons_append, segments, segments.eq_2 c t]
    by_cases hc : c = 0x2F
    · rw [if_pos hc, if_pos hc, ih]; rfl
    · rw [if_neg hc, if_neg hc, ih]
      cases hs : segments t with
      | nil => exact absurd hs (segments_ne_nil t)
      | cons s r => rfl

theorem segments_one {a : Bytes} (h : (0x2F : Byte) ∉ a) : segments a = [a] := by
  induction a with
  | nil => rfl
  | cons c t ih =>
    rw [List.mem_cons, not_or] at h
    unfold segments
    rw [if_neg (fun he => h.1 he.symm), ih h.2]

/-- an absolute name: the directory does not matter -/
theorem located_absolute (cwd : List Bytes) (dir name : Bytes) (h : name.head? = some 0x2F) :
    located cwd (joinPath dir name) = located [] name := by
  unfold joinPath
  rw [if_pos h]
  unfold located
  rw [if_pos h, if_pos h]

/-- a relative name: one goes on from the directory -/
theorem located_relative (cwd : List Bytes) (dir name : Bytes) (h : name.head? ≠ some 0x2F) :
    located cwd (joinPath dir name) = (segments name).foldl walk (located cwd dir) := by
  have w0 : ∀ l, walk l [] = l := fun l => by simp [walk]
  unfold joinPath
  rw [if_neg h]
  by_cases hd : dir = []
  · subst hd
    rw [if_pos (.inl rfl), List.nil_append]
    unfold located
    rw [if_neg h]
    simp [segments, w0]
  by_cases hl : dir.getLast? = some 0x2F
  · rw [if_pos (.inr hl)]
    obtain ⟨a, rfl⟩ : ∃ a, dir = a ++ [0x2F] := by
      rw [List.getLast?_eq_some_iff] at hl
      exact hl
    have e : a ++ [0x2F] ++ name = a ++ 0x2F :: name := by simp
    have hh : (a ++ 0x2F :: name).head? = (a ++ [0x2F]).head? := by cases a <;> rfl
    unfold located
    rw [e, hh, segments_append, segments_append, List.foldl_append, List.foldl_append]
    simp [segments, w0]
  · rw [if_neg (by rintro (h | h); exact hd h; exact hl h)]
    have hh : (dir ++ 0x2F :: name).head? = dir.head? := by
      cases dir with
      | nil => exact absurd rfl hd
      | cons _ _ => rfl
    unfold located
    rw [hh, segments_append, List.foldl_append]

/-- a name that is a single part and none of the special ones -/
def PlainName (n : Bytes) : Prop := (0x2F : Byte) ∉ n ∧ n ≠ [] ∧ n ≠ bs "." ∧ n ≠ bs ".."

/-- **C84** (place) a plain name leads to an entry of the directory, and the entry has this name. -/
theorem C84_plain (cwd : List Bytes) (dir name : Bytes) (h : PlainName name) :
    located cwd (joinPath dir name) = located cwd dir ++ [name] := by
  obtain ⟨h1, h2, h3, h4⟩ := h
  rw [located_relative, segments_one h1]
  · simp [walk, h2, h3, h4]
  · intro hh
    cases name with
    | nil => exact h2 rfl
    | cons c t =>
      simp only [List.head?_cons, Option.some.injEq] at hh
      exact h1 (by simp [hh])

theorem mem_replaceBraces {x : Byte} {v t : Bytes} (h : x ∈ replaceBraces v t) : x ∈ v ∨ x ∈ t := by
  induction t using replaceBraces.induct with
  | case1 => simp [replaceBraces] at h
  | case2 c => exact .inr (by simpa [replaceBraces] using h)
  | case3 c d t hc ih =>
    rw [replaceBraces, if_pos hc] at h
    rcases List.mem_append.1 h with h | h
    · exact .inl h
    · exact (ih h).imp_right (fun h => by simp [h])
  | case4 c d t hc ih =>
    rw [replaceBraces, if_neg hc] at h
    rcases List.mem_cons.1 h with h | h
    · exact .inr (by simp [h])
    · exact (ih h).imp_right (fun h => by
        rcases List.mem_cons.1 h with h | h
        · simp [h]
        · simp [h])

theorem replaceBraces_mem {x : Byte} {v t : Bytes} (ht : HasBraces t) (h : x ∈ v) : x ∈ replaceBraces v t := by
  induction t using replaceBraces.induct with
  | case1 => obtain ⟨a, b, e⟩ := ht; simp at e
  | case2 c => obtain ⟨a, b, e⟩ := ht; cases a with
    | nil => simp at e
    | cons y a => simp at e
  | case3 c d t hc ih =>
    rw [replaceBraces, if_pos hc]
    exact List.mem_append_left _ h
  | case4 c d t hc ih =>
    rw [replaceBraces, if_neg hc]
    refine List.mem_cons_of_mem _ (ih ?_)
    obtain ⟨a, b, e⟩ := ht
    cases a with
    | nil =>
      simp only [List.nil_append, List.cons.injEq] at e
      exact absurd ⟨e.1, e.2.1⟩ hc
    | cons y a =>
      simp only [List.cons_append, List.cons.injEq] at e
      exact ⟨a, b, e.2⟩

theorem decimal_digit (n : Nat) : decimal n ≠ [] ∧ ∀ x ∈ decimal n, 0x30 ≤ x.toNat ∧ x.toNat ≤ 0x39 := by
  have dig : ∀ k, k < 10 → 0x30 ≤ ((0x30 : UInt8) + UInt8.ofNat k).toNat ∧ ((0x30 : UInt8) + UInt8.ofNat k).toNat ≤ 0x39 := by
    decide
  induction n using decimal.induct with
  | case1 n h =>
    rw [decimal, if_pos h]
    exact ⟨by simp, by simpa using dig n h⟩
  | case2 n h ih =>
    rw [decimal, if_neg h]
    refine ⟨by simp, fun x hx => ?_⟩
    rcases List.mem_append.1 hx with hx | hx
    · exact ih.2 x hx
    · rw [List.mem_singleton] at hx
      subst hx
      exact dig _ (Nat.mod_lt _ (by omega))

/-- **C84** (split) if the template is a plain name, all chunks are in the output directory. -/
theorem C84_split (c : SplitCmd) (cwd : List Bytes) (outdir : Bytes) (ht : PlainName c.template) (n : Nat) :
    located cwd (c.filePath outdir n) = located cwd outdir ++ [c.name n] := by
  refine C84_plain cwd outdir _ ?_
  obtain ⟨h1, h2, h3, h4⟩ := ht
  by_cases hb : HasBraces c.template
  · obtain ⟨hne, hd⟩ := decimal_digit n
    obtain ⟨x, hx⟩ := List.exists_mem_of_ne_nil _ hne
    have hm : x ∈ c.name n := replaceBraces_mem hb hx
    have hxd := hd x hx
    refine ⟨fun h => ?_, fun h => ?_, fun h => ?_, fun h => ?_⟩
    · rcases mem_replaceBraces h with h | h
      · have := hd _ h; revert this; decide
      · exact h1 h
    · rw [h] at hm; cases hm
    · rw [h] at hm
      have : x = 0x2E := by simpa [show bs "." = [0x2E] by decide +kernel] using hm
      subst this; revert hxd; decide
    · rw [h] at hm
      have : x = 0x2E := by simpa [show bs ".." = [0x2E, 0x2E] by decide +kernel] using hm
      subst this; revert hxd; decide
  · have : c.name n = c.template := replaceBraces_const hb _
    rw [this]
    exact ⟨h1, h2, h3, h4⟩

/-- **C84** (partition) if neither the template nor a value contains a slash, the file of the value is in
the output directory, unless its name is empty, `.` or `..`.
Missing: values with slashes and those that give one of these names (see below). -/
theorem C84_partition_partial (c : PartitionCmd) (cwd : List Bytes) (outdir v : Bytes)
    (ht : (0x2F : Byte) ∉ c.template) (hv : (0x2F : Byte) ∉ c.lossy v)
    (hn : c.name v ≠ [] ∧ c.name v ≠ bs "." ∧ c.name v ≠ bs "..") :
    located cwd (c.filePath outdir v) = located cwd outdir ++ [c.name v] :=
  C84_plain cwd outdir _ ⟨fun h => (mem_replaceBraces h).elim hv ht, hn.1, hn.2.1, hn.2.2⟩

theorem replaceBraces_const_tail {v t : Bytes} (ht : ¬ HasBraces t) :
    replaceBraces v (0x7B :: 0x7D :: t) = v ++ t := by
  rw [replaceBraces, if_pos ⟨rfl, rfl⟩, replaceBraces_const ht]

/-- the end of the default templates, partition.rs:71-75 -/
theorem default_templates : bs "{}.dat" = 0x7B :: 0x7D :: bs ".dat" ∧ bs "{}.dat.gz" = 0x7B :: 0x7D :: bs ".dat.gz" ∧
    ¬ HasBraces (bs ".dat") ∧ ¬ HasBraces (bs ".dat.gz") := by
  refine ⟨by decide +kernel, by decide +kernel, ?_, ?_⟩
  · rintro ⟨a, b, h⟩
    have : (0x7B : Byte) ∈ bs ".dat" := by rw [h]; simp
    revert this; decide +kernel
  · rintro ⟨a, b, h⟩
    have : (0x7B : Byte) ∈ bs ".dat.gz" := by rw [h]; simp
    revert this; decide +kernel

/-- **C84** (default template) with the templates `{}.dat` and `{}.dat.gz`, the file of every value without
a slash is in the output directory. -/
theorem C84_default_partial (c : PartitionCmd) (ht : c.template = bs "{}.dat" ∨ c.template = bs "{}.dat.gz")
    (cwd : List Bytes) (outdir v : Bytes) (hv : (0x2F : Byte) ∉ c.lossy v) : Inside cwd outdir (c.filePath outdir v) := by
  obtain ⟨e1, e2, n1, n2⟩ := default_templates
  have key : ∀ suffix : Bytes, 3 ≤ suffix.length → c.lossy v ++ suffix ≠ [] ∧ c.lossy v ++ suffix ≠ bs "." ∧
      c.lossy v ++ suffix ≠ bs ".." := by
    intro suffix hs
    have hl : 3 ≤ (c.lossy v ++ suffix).length := by rw [List.length_append]; omega
    refine ⟨fun h => ?_, fun h => ?_, fun h => ?_⟩ <;> rw [h] at hl <;> revert hl <;> decide +kernel
  refine ⟨c.name v, C84_partition_partial c cwd outdir v ?_ hv ?_⟩
  · rcases ht with h | h <;> rw [h] <;> decide +kernel
  · unfold PartitionCmd.name
    rcases ht with h | h
    · rw [h, e1, replaceBraces_const_tail n1]
      exact key _ (by decide +kernel)
    · rw [h, e2, replaceBraces_const_tail n2]
      exact key _ (by decide +kernel)

/-- **C84 is false**: a value that begins with a slash is a path of its own; the output directory does not
matter. -/
theorem C84_absolute_false (c : PartitionCmd) (ht : c.template = bs "{}.dat") (v : Bytes)
    (hv : (c.lossy v).head? = some 0x2F) (cwd : List Bytes) (outdir : Bytes) :
    c.filePath outdir v = c.lossy v ++ bs ".dat" ∧
    located cwd (c.filePath outdir v) = located [] (c.lossy v ++ bs ".dat") := by
  obtain ⟨e1, -, n1, -⟩ := default_templates
  have hn : c.name v = c.lossy v ++ bs ".dat" := by
    unfold PartitionCmd.name
    rw [ht, e1, replaceBraces_const_tail n1]
  have hh : (c.lossy v ++ bs ".dat").head? = some 0x2F := by
    cases hc : c.lossy v with
    | nil => rw [hc] at hv; cases hv
    | cons x t => rw [hc] at hv; exact hv
  unfold PartitionCmd.filePath
  rw [hn]
  refine ⟨?_, located_absolute cwd outdir _ hh⟩
  unfold joinPath
  rw [if_pos hh]

/-- **C84 is false**: a value that begins with `../` leads out of the output directory: the file is
beside the directory, not in it. -/
theorem C84_parent_false (c : PartitionCmd) (ht : c.template = bs "{}.dat") (v name : Bytes)
    (hv : c.lossy v = bs "../" ++ name) (hs : (0x2F : Byte) ∉ name) (cwd : List Bytes) (outdir : Bytes) :
    located cwd (c.filePath outdir v) = (located cwd outdir).dropLast ++ [name ++ bs ".dat"] ∧
    (located cwd outdir ≠ [] → ¬ Inside cwd outdir (c.filePath outdir v)) := by
  obtain ⟨e1, -, n1, -⟩ := default_templates
  have hn : c.name v = bs ".." ++ 0x2F :: (name ++ bs ".dat") := by
    unfold PartitionCmd.name
    rw [ht, e1, replaceBraces_const_tail n1, hv, show bs "../" = bs ".." ++ [0x2F] by decide +kernel]
    simp
  have hl : located cwd (c.filePath outdir v) = (located cwd outdir).dropLast ++ [name ++ bs ".dat"] := by
    unfold PartitionCmd.filePath
    rw [hn, located_relative _ _ _ (by
      rw [List.head?_append, show (bs "..").head? = some 0x2E by decide +kernel]
      simp),
      segments_append, segments_one (a := bs "..") (by decide +kernel), segments_one (a := name ++ bs ".dat") (by
        intro h
        rcases List.mem_append.1 h with h | h
        · exact hs h
        · revert h; decide +kernel)]
    have w1 : ∀ l, walk l (bs "..") = l.dropLast := by
      intro l
      unfold walk
      rw [if_neg (by decide +kernel), if_pos rfl]
    have hlen : 3 ≤ (name ++ bs ".dat").length := by
      rw [List.length_append, show (bs ".dat").length = 4 by decide +kernel]; omega
    have w2 : ∀ l, walk l (name ++ bs ".dat") = l ++ [name ++ bs ".dat"] := by
      intro l
      unfold walk
      rw [if_neg, if_neg]
      · intro h; rw [h] at hlen; revert hlen; decide +kernel
      · rintro (h | h) <;> rw [h] at hlen <;> revert hlen <;> decide +kernel
    simp only [List.cons_append, List.nil_append, List.foldl_cons, List.foldl_nil, w1, w2]
  refine ⟨hl, fun hne => ?_⟩
  rintro ⟨n, h⟩
  rw [hl] at h
  have := congrArg List.length h
  simp only [List.length_append, List.length_dropLast, List.length_singleton] at this
  have : 0 < (located cwd outdir).length := List.length_pos_iff.2 hne
  omega

/-- a run of partition on a record whose value leads out of the directory `out` -/
example : (partitionSample "{}.dat" 0).run [("a", recLine "../x"), ("b", recLine "/etc/y")] =
      .ok ⟨[(bs "../x", recLine "../x"), (bs "/etc/y", recLine "/etc/y")], 2⟩ ∧
    (partitionSample "{}.dat" 0).filePath (bs "out") (bs "../x") = bs "out/../x.dat" ∧
    (partitionSample "{}.dat" 0).filePath (bs "out") (bs "/etc/y") = bs "/etc/y.dat" ∧
    located [bs "home"] (bs "out/../x.dat") = [bs "home", bs "x.dat"] ∧
    located [bs "home"] (bs "/etc/y.dat") = [bs "etc", bs "y.dat"] := by decide +kernel

-- names that are fine, for `C84_default_partial` and `C84_split`
example : (0x2F : Byte) ∉ (partitionSample "{}.dat" 0).lossy (bs "Tb1") ∧
    located [bs "home"] ((partitionSample "{}.dat" 0).filePath (bs "./out/") (bs "Tb1")) =
      [bs "home", bs "out", bs "Tb1.dat"] := by decide +kernel
example : PlainName (splitSample "x{}.dat").template ∧
    located [] ((splitSample "x{}.dat").filePath (bs "/a//b/..") 12) = [bs "a", bs "x12.dat"] :=
  ⟨⟨by decide +kernel, by decide +kernel, by decide +kernel, by decide +kernel⟩, by decide +kernel⟩

end Pica.Props
