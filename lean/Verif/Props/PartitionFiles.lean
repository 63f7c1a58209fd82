import Verif.Model.Place
import Verif.Props.Partition

/-! # C33: the content of the files of partition -/

namespace Pica.Props
open Pica Spec

/-- the bytes of a file after a write -/
theorem writeAt_get {d b : Bytes} {p : Nat} (hb : b ≠ []) (i : Nat) : (writeAt d p b)[i]? =
    if i < p then (if i < d.length then d[i]? else some 0)
    else if i < p + b.length then b[i - p]? else d[i]? := by
  unfold writeAt
  rw [if_neg hb]
  by_cases hd : d.length ≤ p
  · rw [List.take_of_length_le hd, List.drop_eq_nil_of_le (by omega), List.append_nil]
    by_cases h1 : i < p
    · rw [if_pos h1, List.getElem?_append_left (by simp; omega)]
      by_cases h2 : i < d.length
      · rw [if_pos h2, List.getElem?_append_left h2]
      · rw [if_neg h2, List.getElem?_append_right (by omega), List.getElem?_replicate, if_pos (by omega)]
    · rw [if_neg h1, List.getElem?_append_right (by simp; omega)]
      have e : i - (d ++ List.replicate (p - d.length) 0).length = i - p := by simp; omega
      rw [e]
      by_cases h2 : i < p + b.length
      · rw [if_pos h2]
      · rw [if_neg h2, List.getElem?_eq_none (by omega), List.getElem?_eq_none (by omega)]
  · have e0 : p - d.length = 0 := by omega
    rw [e0, List.replicate_zero, List.append_nil]
    have hl : (d.take p).length = p := by simp; omega
    by_cases h1 : i < p
    · rw [if_pos h1, if_pos (by omega), List.append_assoc, List.getElem?_append_left (by omega),
        List.getElem?_take_of_lt h1]
    · rw [if_neg h1, List.append_assoc, List.getElem?_append_right (by omega), hl]
      by_cases h2 : i < p + b.length
      · rw [if_pos h2, List.getElem?_append_left (by omega)]
      · rw [if_neg h2, List.getElem?_append_right (by omega), List.getElem?_drop]
        congr 1; omega

theorem writeAt_length {d b : Bytes} {p : Nat} (hb : b ≠ []) :
    (writeAt d p b).length = max d.length (p + b.length) := by
  unfold writeAt
  rw [if_neg hb]
  simp only [List.length_append, List.length_take, List.length_replicate, List.length_drop]
  omega

/-- a write of a writer: what has been written before is still a part of its data -/
theorem set_get {cs : List Bytes} {h : Nat} {c b : Bytes} (hc : cs[h]? = some c) {i : Nat} {x : Byte}
    (hx : ∃ c ∈ cs, c[i]? = some x) : ∃ c' ∈ cs.set h (c ++ b), c'[i]? = some x := by
  obtain ⟨c', hm, hi⟩ := hx
  obtain ⟨j, hj⟩ := List.mem_iff_getElem?.1 hm
  by_cases e : h = j
  · subst e
    rw [hc] at hj
    cases hj
    refine ⟨c ++ b, List.mem_iff_getElem?.2 ⟨h, ?_⟩, ?_⟩
    · rw [List.getElem?_set_self (by
        rcases Nat.lt_or_ge h cs.length with hh | hh
        · exact hh
        · rw [List.getElem?_eq_none hh] at hc; cases hc)]
    · rw [List.getElem?_append_left]
      · exact hi
      · rcases Nat.lt_or_ge i c.length with hh | hh
        · exact hh
        · rw [List.getElem?_eq_none hh] at hi; cases hi
  · exact ⟨c', List.mem_iff_getElem?.2 ⟨j, by rw [List.getElem?_set_ne e]; exact hj⟩, hi⟩

theorem set_mem {cs : List Bytes} {h : Nat} {c b : Bytes} (hc : cs[h]? = some c) : c ++ b ∈ cs.set h (c ++ b) := by
  refine List.mem_iff_getElem?.2 ⟨h, ?_⟩
  rw [List.getElem?_set_self (by
    rcases Nat.lt_or_ge h cs.length with hh | hh
    · exact hh
    · rw [List.getElem?_eq_none hh] at hc; cases hc)]

/-- **C33** (shared files) Whatever the order in which the writers of one file write their pieces: each
byte of the file is the byte that one of the writers has at this place, or a zero byte of a gap; and the
file is not longer than the data of one of the writers. -/
theorem C33_shared {cs : List Bytes} {d : Bytes} (h : Shared cs d) :
    (∀ (i : Nat) (x : Byte), d[i]? = some x → x = 0 ∨ ∃ c ∈ cs, c[i]? = some x) ∧
    (d ≠ [] → ∃ c ∈ cs, d.length ≤ c.length) := by
  induction h with
  | start => simp
  | opened _ _ => simp
  | @wrote cs d h c b _ hc ih =>
    by_cases hb : b = []
    · subst hb
      have e : cs.set h (c ++ []) = cs := by
        rw [List.append_nil]
        refine List.ext_getElem? (fun j => ?_)
        by_cases hj : h = j
        · subst hj
          rw [List.getElem?_set_self (by
            rcases Nat.lt_or_ge h cs.length with hh | hh
            · exact hh
            · rw [List.getElem?_eq_none hh] at hc; cases hc), hc]
        · rw [List.getElem?_set_ne hj]
      rw [e]
      simpa [writeAt] using ih
    · constructor
      · intro i x hx
        rw [writeAt_get hb] at hx
        split at hx
        · split at hx
          · exact (ih.1 i x hx).imp_right (set_get hc)
          · cases hx; exact .inl rfl
        · split at hx
          · refine .inr ⟨c ++ b, set_mem hc, ?_⟩
            rw [List.getElem?_append_right (by omega)]
            exact hx
          · exact (ih.1 i x hx).imp_right (set_get hc)
      · intro _
        rw [writeAt_length hb]
        by_cases hle : d.length ≤ c.length + b.length
        · exact ⟨c ++ b, set_mem hc, by rw [List.length_append]; omega⟩
        · have hd : d ≠ [] := by rintro rfl; simp at hle
          obtain ⟨c', hm, hl⟩ := ih.2 hd
          obtain ⟨j, hj⟩ := List.mem_iff_getElem?.1 hm
          by_cases e : h = j
          · subst e
            rw [hc] at hj
            cases hj
            omega
          · exact ⟨c', List.mem_iff_getElem?.2 ⟨j, by rw [List.getElem?_set_ne e]; exact hj⟩, by omega⟩

/-- **C33** a file with one writer contains what the writer has written. -/
theorem C33_alone {c d : Bytes} (h : Shared [c] d) : d = c := by
  generalize hcs : [c] = cs at h
  induction h generalizing c with
  | start => cases hcs
  | @opened cs d _ _ =>
    cases cs with
    | nil => cases hcs; rfl
    | cons x cs => cases cs <;> simp at hcs
  | @wrote cs d h c' b _ hc ih =>
    have hl : cs.length = 1 := by
      have := congrArg List.length hcs
      rw [List.length_set] at this
      exact this.symm
    obtain ⟨x, rfl⟩ := List.length_eq_one_iff.1 hl
    have hh : h = 0 := by
      cases h with
      | zero => rfl
      | succ h => simp at hc
    subst hh
    simp only [List.getElem?_cons_zero, Option.some.injEq] at hc
    subst hc
    have hd := ih rfl
    subst hd
    simp only [List.set_cons_zero, List.cons.injEq, and_true] at hcs
    subst hcs
    unfold writeAt
    split
    · simp [*]
    · simp

theorem write_ne_nil {files : List (String × Bytes)} {rs : List ByteRecord} (hi : Input files rs) {r : ByteRecord}
    (hr : r ∈ rs) : r.write ≠ [] := by
  obtain ⟨t, -, -, h⟩ := input_lineRecord hi r hr
  rw [h]
  simp

/-- **C33** two writers that have both written something to one file: the file is too short for their
data. -/
theorem C33_short {cs : List Bytes} {d : Bytes} (h : Shared cs d) {pre mid post : List Bytes} {a b : Bytes}
    (hcs : cs = pre ++ a :: mid ++ b :: post) (ha : a ≠ []) (hb : b ≠ []) : d.length < cs.flatten.length := by
  have hlt : ∀ c ∈ cs, c.length < cs.flatten.length := by
    subst hcs
    have h1 : 0 < a.length := List.length_pos_iff.2 ha
    have h2 : 0 < b.length := List.length_pos_iff.2 hb
    have key : ∀ (l : List Bytes) (c : Bytes), c ∈ l → c.length ≤ l.flatten.length := by
      intro l c hc
      induction l with
      | nil => cases hc
      | cons x l ih =>
        rw [List.flatten_cons, List.length_append]
        rcases List.mem_cons.1 hc with rfl | hc
        · omega
        · have := ih hc; omega
    intro c hc
    simp only [List.flatten_append, List.flatten_cons, List.length_append, List.mem_append, List.mem_cons] at hc ⊢
    rcases hc with (hc | rfl | hc) | rfl | hc
    · have := key _ _ hc; omega
    · omega
    · have := key _ _ hc; omega
    · omega
    · have := key _ _ hc; omega
  by_cases hd : d = []
  · subst hd
    have : a ∈ cs := by subst hcs; simp
    have := hlt a this
    simp only [List.length_nil]; omega
  · obtain ⟨c, hc, hl⟩ := (C33_shared h).2 hd
    have := hlt c hc; omega

open Classical in
/-- **C33** if no other value has the file name of a value, its file contains exactly the selected records
with the value, whatever the names of the other files are. -/
theorem C33_own (c : PartitionCmd) (hlim : c.limit = 0) (files : List (String × Bytes))
    (rs : List ByteRecord) (hi : Input files rs) (s : PartitionState) (h : c.run files = .ok s) (v : Bytes)
    (hv : ∃ r ∈ picked c.sel rs, HasValue c r v)
    (hn : ∀ r ∈ picked c.sel rs, ∀ w, HasValue c r w → c.name w = c.name v → w = v)
    (d : Bytes) (hd : c.Leaves s (c.name v) d) :
    d = ((picked c.sel rs).filter (fun r => decide (HasValue c r v))).flatMap ByteRecord.write := by
  obtain ⟨hnd, hm⟩ := C33_writers c hlim files rs hi s h
  have hw := (hm v _).2 ⟨hv, rfl⟩
  generalize ((picked c.sel rs).filter (fun r => decide (HasValue c r v))).flatMap ByteRecord.write = b at hw
  have hone : s.writers.filter (fun w => c.name w.1 == c.name v) = [(v, b)] := by
    have hall : ∀ w ∈ s.writers, (c.name w.1 == c.name v) = (w.1 == v) := by
      rintro ⟨w, b'⟩ hw'
      obtain ⟨⟨r, hr, hrw⟩, -⟩ := (hm w b').1 hw'
      rw [Bool.eq_iff_iff, beq_iff_eq, beq_iff_eq]
      exact ⟨fun he => hn r hr w hrw he, fun he => by rw [he]⟩
    rw [List.filter_congr hall]
    clear hall hm h hd
    generalize s.writers = ws at hw hnd
    induction ws with
    | nil => cases hw
    | cons w ws ih =>
      rw [List.map_cons, List.nodup_cons] at hnd
      rcases List.mem_cons.1 hw with rfl | hw
      · rw [List.filter_cons, if_pos (by simp)]
        congr 1
        rw [List.filter_eq_nil_iff]
        intro x hx hxe
        rw [beq_iff_eq] at hxe
        exact hnd.1 (List.mem_map.2 ⟨x, hx, hxe⟩)
      · rw [List.filter_cons, if_neg, ih hw hnd.2]
        intro he
        rw [beq_iff_eq] at he
        exact hnd.1 (List.mem_map.2 ⟨_, hw, he.symm⟩)
  unfold PartitionCmd.Leaves at hd
  rw [hone] at hd
  exact C33_alone hd

/-- two elements of a list with different keys -/
theorem two_of_list {α : Type} {l : List α} {x y : α} (hx : x ∈ l) (hy : y ∈ l) (hne : x ≠ y) :
    (∃ pre mid post, l = pre ++ x :: mid ++ y :: post) ∨ ∃ pre mid post, l = pre ++ y :: mid ++ x :: post := by
  obtain ⟨pre, post, rfl⟩ := List.append_of_mem hx
  rcases List.mem_append.1 hy with h | h
  · obtain ⟨a, b, rfl⟩ := List.append_of_mem h
    exact .inr ⟨a, b, post, by simp⟩
  · rcases List.mem_cons.1 h with h | h
    · exact absurd h.symm hne
    · obtain ⟨a, b, rfl⟩ := List.append_of_mem h
      exact .inl ⟨pre, a, b, by simp⟩

theorem flatMap_sublist_length {l l' : List ByteRecord} (h : l.Sublist l') :
    (l.flatMap ByteRecord.write).length ≤ (l'.flatMap ByteRecord.write).length := by
  induction h with
  | slnil => exact Nat.le_refl _
  | cons a _ ih => rw [List.flatMap_cons, List.length_append]; omega
  | cons_cons a _ ih => rw [List.flatMap_cons, List.flatMap_cons, List.length_append, List.length_append]; omega

open Classical in
/-- **C33 is false** whenever two values of selected records have the same file name: however the writers
take turns, records are lost: the file is not a list of records in which all records of all values that
share it occur. -/
theorem C33_lost_false (c : PartitionCmd) (hlim : c.limit = 0) (files : List (String × Bytes))
    (rs : List ByteRecord) (hi : Input files rs) (s : PartitionState) (h : c.run files = .ok s) (v w : Bytes)
    (hv : ∃ r ∈ picked c.sel rs, HasValue c r v) (hw : ∃ r ∈ picked c.sel rs, HasValue c r w)
    (hvw : v ≠ w) (hn : c.name v = c.name w) (d : Bytes) (hd : c.Leaves s (c.name v) d) :
    ¬ ∃ l : List ByteRecord, d = l.flatMap ByteRecord.write ∧
      ∃ l' : List ByteRecord, l'.Sublist l ∧ l'.Perm ((s.writers.filter (fun x => c.name x.1 == c.name v)).flatMap
        (fun x => (picked c.sel rs).filter (fun r => decide (HasValue c r x.1)))) := by
  obtain ⟨hnd, hm⟩ := C33_writers c hlim files rs hi s h
  have mem : ∀ u, (∃ r ∈ picked c.sel rs, HasValue c r u) → c.name u = c.name v → ∃ b, b ≠ [] ∧
      (u, b) ∈ s.writers.filter (fun x => c.name x.1 == c.name v) := by
    intro u hu hnu
    refine ⟨_, ?_, List.mem_filter.2 ⟨(hm u _).2 ⟨hu, rfl⟩, by simpa using hnu⟩⟩
    obtain ⟨r, hr, hru⟩ := hu
    intro he
    rw [List.flatMap_eq_nil_iff] at he
    exact write_ne_nil hi (List.mem_filter.1 hr).1 (he r (List.mem_filter.2 ⟨hr, by simpa using hru⟩))
  obtain ⟨a, ha, hma⟩ := mem v hv rfl
  obtain ⟨b, hb, hmb⟩ := mem w hw hn.symm
  have hshort : d.length < ((s.writers.filter (fun x => c.name x.1 == c.name v)).map Prod.snd).flatten.length := by
    rcases two_of_list hma hmb (fun he => hvw (congrArg Prod.fst he)) with ⟨pre, mid, post, he⟩ | ⟨pre, mid, post, he⟩
    · exact C33_short hd (pre := pre.map Prod.snd) (mid := mid.map Prod.snd) (post := post.map Prod.snd)
        (by rw [he]; simp) ha hb
    · exact C33_short hd (pre := pre.map Prod.snd) (mid := mid.map Prod.snd) (post := post.map Prod.snd)
        (by rw [he]; simp) hb ha
  rintro ⟨l, rfl, l', hs, hp⟩
  have h1 := flatMap_sublist_length hs
  have h2 := (hp.flatMap_right ByteRecord.write).length_eq
  rw [List.flatMap_assoc] at h2
  have h3 : ((s.writers.filter (fun x => c.name x.1 == c.name v)).map Prod.snd).flatten =
      (s.writers.filter (fun x => c.name x.1 == c.name v)).flatMap (fun x =>
        ((picked c.sel rs).filter (fun r => decide (HasValue c r x.1))).flatMap ByteRecord.write) := by
    rw [List.flatMap_def]
    congr 1
    refine List.map_congr_left (fun x hx => ?_)
    exact ((hm x.1 x.2).1 (List.mem_filter.1 hx).1).2
  rw [h3] at hshort
  omega

/-- **C33 is false**: which content is left depends on the order in which the writers are finished, and
this is the order of a hash map. -/
theorem C33_order_false (a b : Bytes) :
    Shared [a, b] (b ++ a.drop b.length) ∧ Shared [a, b] (a ++ b.drop a.length) := by
  have h0 : Shared [[], []] [] := .opened (cs := [[]]) (d := []) (.opened (cs := []) .start)
  have wr : ∀ d c : Bytes, writeAt d 0 c = c ++ d.drop c.length := by
    intro d c
    unfold writeAt
    by_cases hc : c = []
    · simp [hc]
    · simp [hc]
  constructor
  · have h1 : Shared [a, []] a := by
      have := Shared.wrote 0 [] a h0 rfl
      rw [List.length_nil, wr] at this
      simpa using this
    have := Shared.wrote 1 [] b h1 rfl
    rw [List.length_nil, wr] at this
    simpa using this
  · have h1 : Shared [[], b] b := by
      have := Shared.wrote 1 [] b h0 rfl
      rw [List.length_nil, wr] at this
      simpa using this
    have := Shared.wrote 0 [] a h1 rfl
    rw [List.length_nil, wr] at this
    simpa using this

/-- the second writer is opened when the first has written: its later data come behind a gap -/
example : Shared [bs "abcdef", bs "xy"] ([0x78, 0x79, 0, 0] ++ bs "ef") := by
  have h1 : Shared [bs "abcd"] (bs "abcd") := by
    have := Shared.wrote 0 [] (bs "abcd") (.opened .start) rfl
    rwa [List.length_nil, show writeAt [] 0 (bs "abcd") = bs "abcd" by decide +kernel] at this
  have h2 : Shared [bs "abcd", []] [] := .opened h1
  have h3 : Shared [bs "abcdef", []] ([0, 0, 0, 0] ++ bs "ef") := by
    have := Shared.wrote 0 (bs "abcd") (bs "ef") h2 rfl
    rwa [show writeAt [] (List.length (bs "abcd")) (bs "ef") = [0, 0, 0, 0] ++ bs "ef" by decide +kernel,
      show [bs "abcd", []].set 0 (bs "abcd" ++ bs "ef") = [bs "abcdef", []] by decide +kernel] at this
  have h4 := Shared.wrote 1 [] (bs "xy") h3 rfl
  have e : writeAt ([0, 0, 0, 0] ++ bs "ef") 0 (bs "xy") = [0x78, 0x79, 0, 0] ++ bs "ef" := by decide +kernel
  rw [List.length_nil, e] at h4
  exact h4

/-- `C33_lost_false` for the template `x`: two records, two values, and one of the two records is left -/
example : (partitionSample "x" 0).Leaves ⟨[(bs "1", recLine "1"), (bs "2", recLine "2")], 2⟩ (bs "x") (recLine "2") ∧
    (partitionSample "x" 0).Leaves ⟨[(bs "1", recLine "1"), (bs "2", recLine "2")], 2⟩ (bs "x") (recLine "1") ∧
    (partitionSample "x" 0).name (bs "1") = (partitionSample "x" 0).name (bs "2") := by
  obtain ⟨h1, h2⟩ := C33_order_false (recLine "1") (recLine "2")
  have e1 : recLine "2" ++ (recLine "1").drop (recLine "2").length = recLine "2" := by decide +kernel
  have e2 : recLine "1" ++ (recLine "2").drop (recLine "1").length = recLine "1" := by decide +kernel
  rw [e1] at h1
  rw [e2] at h2
  have e : ([(bs "1", recLine "1"), (bs "2", recLine "2")].filter
      (fun w => (partitionSample "x" 0).name w.1 == bs "x")).map Prod.snd = [recLine "1", recLine "2"] := by
    decide +kernel
  refine ⟨?_, ?_, by decide +kernel⟩
  · unfold PartitionCmd.Leaves; rw [e]; exact h1
  · unfold PartitionCmd.Leaves; rw [e]; exact h2

end Pica.Props
