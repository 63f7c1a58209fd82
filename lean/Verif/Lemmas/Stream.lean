import Verif.Spec.Stream
import Verif.Lemmas.Errors

/-! Reading from sources that come in pieces and may fail. -/

namespace Pica
open Spec

/-- `b` has still to bring the bytes `rest`, followed by the failure `f` -/
def At (b : BufSource) (rest : Bytes) (f : Option IoKind) : Prop :=
  ∃ c, Delivers b.events c f ∧ rest = b.buf ++ c

theorem split_lf {buf c t rest : Bytes} (hb : LF ∉ buf) (h : buf ++ c = t ++ LF :: rest) :
    ∃ t', t = buf ++ t' ∧ c = t' ++ LF :: rest := by
  rcases List.append_eq_append_iff.1 h with ⟨a, h1, h2⟩ | ⟨a, h1, h2⟩
  · exact ⟨a, h1, h2⟩
  · cases a with
    | nil =>
      rw [List.append_nil] at h1
      exact ⟨[], by rw [h1, List.append_nil], by simpa using h2.symm⟩
    | cons x a =>
      rw [List.cons_append, List.cons.injEq] at h2
      rw [h1, ← h2.1] at hb
      simp at hb

theorem split_lf_in {buf c t rest : Bytes} (hb : LF ∈ buf) (ht : LF ∉ t) (h : buf ++ c = t ++ LF :: rest) :
    ∃ q, buf = t ++ LF :: q ∧ rest = q ++ c := by
  rcases List.append_eq_append_iff.1 h with ⟨a, h1, h2⟩ | ⟨a, h1, h2⟩
  · rw [h1] at ht
    exact absurd (List.mem_append_left _ hb) ht
  · cases a with
    | nil =>
      rw [List.append_nil] at h1
      rw [h1] at hb
      exact absurd hb ht
    | cons x a =>
      rw [List.cons_append, List.cons.injEq] at h2
      exact ⟨a, by rw [h1, ← h2.1], h2.2⟩

theorem readUntilFrom_line {es : List ReadEvent} {c : Bytes} {f : Option IoKind} (hd : Delivers es c f) :
    ∀ {buf acc t rest : Bytes}, LF ∉ t → buf ++ c = t ++ LF :: rest →
      ∃ b', readUntilFrom buf acc es = (.ok (acc ++ (t ++ [LF])), b') ∧ At b' rest f := by
  have found : ∀ {es : List ReadEvent} {c : Bytes} {f : Option IoKind}, Delivers es c f →
      ∀ {buf acc t rest : Bytes}, LF ∉ t → buf ++ c = t ++ LF :: rest → LF ∈ buf →
      ∃ b', readUntilFrom buf acc es = (.ok (acc ++ (t ++ [LF])), b') ∧ At b' rest f := by
    intro es c f hd buf acc t rest ht h hb
    obtain ⟨q, h1, h2⟩ := split_lf_in hb ht h
    have hc : buf.contains LF = true := by simpa using hb
    refine ⟨⟨q, es⟩, ?_, c, hd, h2⟩
    rw [readUntilFrom.eq_def]
    cases es <;> simp only [hc, if_true] <;> rw [h1, readUntil_line t q ht]
  induction hd with
  | eof =>
    intro buf acc t rest ht h
    by_cases hb : LF ∈ buf
    · exact found .eof ht h hb
    · obtain ⟨t', -, h2⟩ := split_lf hb h
      simp at h2
  | data b es c f hne hd ih =>
    intro buf acc t rest ht h
    by_cases hb : LF ∈ buf
    · exact found (.data b es c f hne hd) ht h hb
    · obtain ⟨t', h1, h2⟩ := split_lf hb h
      rw [h1] at ht
      obtain ⟨b', h3, h4⟩ := ih (acc := acc ++ buf) (fun hm => ht (List.mem_append_right _ hm)) h2
      refine ⟨b', ?_, h4⟩
      have hc : buf.contains LF = false := by simpa using hb
      have he : b.isEmpty = false := by cases b <;> simp_all
      rw [readUntilFrom]
      simp only [hc, he, Bool.false_eq_true, if_false]
      rw [h3, h1]
      simp only [List.append_assoc]
  | interrupted es c f hd ih =>
    intro buf acc t rest ht h
    by_cases hb : LF ∈ buf
    · exact found (.interrupted es c f hd) ht h hb
    · obtain ⟨t', h1, h2⟩ := split_lf hb h
      rw [h1] at ht
      obtain ⟨b', h3, h4⟩ := ih (buf := []) (acc := acc ++ buf) (fun hm => ht (List.mem_append_right _ hm)) h2
      refine ⟨b', ?_, h4⟩
      have hc : buf.contains LF = false := by simpa using hb
      rw [readUntilFrom]
      simp only [hc, Bool.false_eq_true, if_false]
      rw [h3, h1]
      simp only [List.append_assoc]
  | fail k es =>
    intro buf acc t rest ht h
    by_cases hb : LF ∈ buf
    · exact found (.fail k es) ht h hb
    · obtain ⟨t', -, h2⟩ := split_lf hb h
      simp at h2

theorem readUntilFrom_last {es : List ReadEvent} {c : Bytes} {f : Option IoKind} (hd : Delivers es c f) :
    ∀ {buf acc : Bytes}, LF ∉ buf → LF ∉ c →
      (f = none → readUntilFrom buf acc es = (.ok (acc ++ (buf ++ c)), ⟨[], []⟩)) ∧
      (∀ k, f = some k → (readUntilFrom buf acc es).1 = .error k) := by
  induction hd with
  | eof =>
    intro buf acc hb _
    have hc : buf.contains LF = false := by simpa using hb
    rw [readUntilFrom, hc]
    simp
  | data b es c f hne hd ih =>
    intro buf acc hb hn
    have hc : buf.contains LF = false := by simpa using hb
    have he : b.isEmpty = false := by cases b <;> simp_all
    rw [List.mem_append, not_or] at hn
    rw [readUntilFrom]
    simp only [hc, he, Bool.false_eq_true, if_false]
    have := ih (buf := b) (acc := acc ++ buf) hn.1 hn.2
    rw [List.append_assoc] at this
    exact this
  | interrupted es c f hd ih =>
    intro buf acc hb hn
    have hc : buf.contains LF = false := by simpa using hb
    rw [readUntilFrom]
    simp only [hc, Bool.false_eq_true, if_false]
    have := ih (buf := []) (acc := acc ++ buf) (by simp) hn
    rw [List.nil_append, List.append_assoc] at this
    exact this
  | fail k es =>
    intro buf acc hb _
    have hc : buf.contains LF = false := by simpa using hb
    rw [readUntilFrom.eq_def]
    simp only [hc]
    simp

theorem size_cons (buf : Bytes) (e : ReadEvent) (es : List ReadEvent) :
    BufSource.size ⟨buf, e :: es⟩ = BufSource.size ⟨buf, es⟩ + e.size := by
  unfold BufSource.size
  simp only [List.map_cons, List.sum_cons]
  omega

theorem size_buf (buf : Bytes) (es : List ReadEvent) :
    BufSource.size ⟨buf, es⟩ = buf.length + BufSource.size ⟨[], es⟩ := by
  simp [BufSource.size]

theorem readUntil_parts (b : Bytes) : (readUntil b).1.length + (readUntil b).2.length = b.length := by
  induction b with
  | nil => rfl
  | cons x b ih =>
    rw [readUntil]
    split
    · simp; omega
    · simp only [List.length_cons]; omega

theorem readUntilFrom_size (es : List ReadEvent) : ∀ (buf acc x : Bytes) (b' : BufSource),
    readUntilFrom buf acc es = (.ok x, b') → x.length + b'.size ≤ acc.length + BufSource.size ⟨buf, es⟩ := by
  induction es with
  | nil =>
    intro buf acc x b' h
    have hp := readUntil_parts buf
    rw [readUntilFrom] at h
    split at h <;> cases h <;> simp [BufSource.size] <;> omega
  | cons e es ih =>
    intro buf acc x b' h
    have hp := readUntil_parts buf
    rw [readUntilFrom.eq_def] at h
    simp only at h
    split at h
    · cases h
      rw [size_cons, size_buf, size_buf buf, size_cons]
      simp only [List.length_append]
      omega
    · cases e with
      | data b =>
        simp only at h
        split at h
        · cases h
          rw [size_cons, size_buf buf]
          simp only [List.length_append]
          omega
        · have := ih _ _ _ _ h
          rw [size_cons, size_buf buf]
          rw [size_buf b] at this
          simp only [List.length_append, ReadEvent.size] at this ⊢
          omega
      | interrupted =>
        have := ih _ _ _ _ h
        rw [size_cons, size_buf buf]
        simp only [List.length_append] at this
        omega
      | fail k => simp at h

theorem nil_or_snoc' {α : Type} (l : List α) : l = [] ∨ ∃ a x, l = a ++ [x] := by
  rcases List.eq_nil_or_concat l with h | ⟨a, x, h⟩
  · exact .inl h
  · exact .inr ⟨a, x, by rw [h, List.concat_eq_append]⟩

/-! ## the reader -/

/-- the item of a line, as the reader of a source gives it -/
def asItem : Item → Except SourceErr ByteRecord
  | .ok r => .ok r
  | .error e => .error (.record e)

theorem nextByte_source_line {b : BufSource} {f : Option IoKind} {t rest : Bytes} (h : At b (t ++ LF :: rest) f)
    (ht : LF ∉ t) (n : Nat) (src : Option String) :
    ∃ b', SourceReader.nextByte ⟨b, n, src⟩ = (some (asItem (decodeLine src (n + 1) (t ++ [LF]))), ⟨b', n + 1, src⟩) ∧
      At b' rest f ∧ b'.size < b.size := by
  obtain ⟨c, hd, hc⟩ := h
  obtain ⟨b', h1, h2⟩ := readUntilFrom_line hd (buf := b.buf) (acc := []) ht hc.symm
  have hs := readUntilFrom_size _ _ _ _ _ h1
  refine ⟨b', ?_, h2, ?_⟩
  · rw [List.nil_append] at h1
    unfold SourceReader.nextByte decodeLine
    simp only [h1]
    rw [if_neg (by simp)]
    cases ByteRecord.fromBytes (t ++ [LF]) <;> rfl
  · simp only [List.length_append, List.length_nil, List.length_singleton] at hs
    have : b = ⟨b.buf, b.events⟩ := rfl
    rw [← this] at hs
    omega

theorem nextByte_source_eof {b : BufSource} (h : At b [] none) (n : Nat) (src : Option String) :
    (SourceReader.nextByte ⟨b, n, src⟩).1 = none := by
  obtain ⟨c, hd, hc⟩ := h
  have hc' := List.append_eq_nil_iff.1 hc.symm
  have := (readUntilFrom_last hd (buf := b.buf) (acc := []) (by simp [hc'.1]) (by simp [hc'.2])).1 rfl
  unfold SourceReader.nextByte
  simp only [this]
  rw [hc'.1, hc'.2]
  rfl

theorem nextByte_source_last {b : BufSource} {t : Bytes} (h : At b t none) (h0 : t ≠ []) (ht : LF ∉ t) (n : Nat)
    (src : Option String) :
    SourceReader.nextByte ⟨b, n, src⟩ = (some (asItem (decodeLine src (n + 1) t)), ⟨⟨[], []⟩, n + 1, src⟩) ∧
      t.length ≤ b.size := by
  obtain ⟨c, hd, hc⟩ := h
  rw [hc, List.mem_append, not_or] at ht
  have := (readUntilFrom_last hd (buf := b.buf) (acc := []) ht.1 ht.2).1 rfl
  rw [List.nil_append, ← hc] at this
  constructor
  · unfold SourceReader.nextByte decodeLine
    simp only [this]
    rw [if_neg (by simpa using h0)]
    cases ByteRecord.fromBytes t <;> rfl
  · have hs := readUntilFrom_size _ _ _ _ _ this
    have hb : b = ⟨b.buf, b.events⟩ := rfl
    rw [← hb] at hs
    simpa [BufSource.size] using hs

theorem nextByte_source_fail {b : BufSource} {p : Bytes} {k : IoKind} (h : At b p (some k)) (hp : LF ∉ p) (n : Nat)
    (src : Option String) :
    (SourceReader.nextByte ⟨b, n, src⟩).1 = some (.error (.io k)) := by
  obtain ⟨c, hd, hc⟩ := h
  rw [hc, List.mem_append, not_or] at hp
  have := (readUntilFrom_last hd (buf := b.buf) (acc := []) hp.1 hp.2).2 k rfl
  unfold SourceReader.nextByte
  generalize hx : readUntilFrom b.buf [] b.events = x at this
  obtain ⟨x1, x2⟩ := x
  simp only at this
  subst this
  rfl

/-! ## the loops -/

/-- the end of a loop without failures, with the end of the file replaced -/
def endWith {S : Type} (f : Option IoKind) : FileEnd S → SourceEnd S
  | .eof s => match f with
    | none => .eof s
    | some k => .err (.read k) s
  | .done (.ok s) => .stop s
  | .done (.err e s) => .err (.record e) s
  | .done .panic => .panic

theorem sourceLoop_item {S : Type} {skip : Bool} {onSkip : S → S} {body : S → ByteRecord → Step S} {f : Option IoKind}
    {n : Nat} {rd rd' : SourceReader} {i : Item} {is : List Item} (h : rd.nextByte = (some (asItem i), rd'))
    (ih : ∀ s, sourceLoop skip onSkip body n rd' s = endWith f (fileLoop skip onSkip body is s)) (s : S) :
    sourceLoop skip onSkip body (n + 1) rd s = endWith f (fileLoop skip onSkip body (i :: is) s) := by
  rw [sourceLoop, h]
  cases i with
  | error e =>
    simp only [asItem, fileLoop]
    by_cases hs : e.skipParse skip = true
    · have hs' : (SourceErr.record e).skipParse skip = true := hs
      rw [if_pos hs, if_pos hs']; exact ih _
    · have hs' : ¬ (SourceErr.record e).skipParse skip = true := hs
      rw [if_neg hs, if_neg hs']; rfl
  | ok r =>
    simp only [asItem, fileLoop]
    cases body s r with
    | next s' => exact ih _
    | stop s' => rfl
    | panic => rfl

theorem sourceLoop_lines {S : Type} {skip : Bool} {onSkip : S → S} {body : S → ByteRecord → Step S} {w : Bytes}
    {ls : List Bytes} (hl : Lines w ls) (f : Option IoKind) (p : Bytes)
    (hf : f = none ∧ p = [] ∨ (∃ k, f = some k) ∧ WholeLines w ∧ LF ∉ p) (src : Option String) :
    ∀ (n fuel : Nat) (b : BufSource) (s : S), At b (w ++ p) f → b.size < fuel →
      sourceLoop skip onSkip body fuel ⟨b, n, src⟩ s =
        endWith f (fileLoop skip onSkip body (itemsFrom src n ls) s) := by
  induction hl with
  | eof =>
    intro n fuel b s hb hn
    cases fuel with
    | zero => omega
    | succ m =>
      rcases hf with ⟨rfl, rfl⟩ | ⟨⟨k, rfl⟩, -, hp⟩
      · have h := nextByte_source_eof hb n src
        rw [sourceLoop]
        generalize SourceReader.nextByte ⟨b, n, src⟩ = x at h
        obtain ⟨x1, x2⟩ := x
        simp only at h
        subst h
        rfl
      · have h := nextByte_source_fail hb hp n src
        rw [sourceLoop]
        generalize SourceReader.nextByte ⟨b, n, src⟩ = x at h
        obtain ⟨x1, x2⟩ := x
        simp only at h
        subst h
        rfl
  | last t h0 ht =>
    intro n fuel b s hb hn
    rcases hf with ⟨rfl, rfl⟩ | ⟨-, hw, -⟩
    · rw [List.append_nil] at hb
      obtain ⟨h, hs⟩ := nextByte_source_last hb h0 ht n src
      have := List.length_pos_iff.2 h0
      cases fuel with
      | zero => omega
      | succ m =>
        refine sourceLoop_item h (fun s => ?_) s
        cases m with
        | zero => omega
        | succ m => rfl
    · rcases hw with hw | ⟨t', hw⟩
      · exact absurd hw h0
      · exact absurd (by rw [hw]; simp) ht
  | line t rest ls ht hl ih =>
    intro n fuel b s hb hn
    have hf' : f = none ∧ p = [] ∨ (∃ k, f = some k) ∧ WholeLines rest ∧ LF ∉ p := by
      rcases hf with hf | ⟨h1, hw, h2⟩
      · exact .inl hf
      · refine .inr ⟨h1, ?_, h2⟩
        rcases hw with hw | ⟨t', hw⟩
        · simp at hw
        · rcases nil_or_snoc' rest with rfl | ⟨r', x, rfl⟩
          · exact .inl rfl
          · refine .inr ⟨r', ?_⟩
            have : (t ++ 0x0A :: r') ++ [x] = t' ++ [0x0A] := by simpa using hw
            have hx := (List.append_inj' this rfl).2
            rw [hx]
    have hb' : At b (t ++ LF :: (rest ++ p)) f := by
      have : t ++ LF :: (rest ++ p) = t ++ 0x0A :: rest ++ p := by simp [LF]
      rw [this]; exact hb
    obtain ⟨b', h, h1, h2⟩ := nextByte_source_line hb' ht n src
    cases fuel with
    | zero => omega
    | succ m => exact sourceLoop_item h (fun s => ih hf' (n + 1) m b' s h1 (by omega)) s

/-- the end of a command -/
def CmdLoop.endOf {S O : Type} (c : CmdLoop S O) (f : Option RunError) : FileEnd S → RunResult O
  | .eof s => match f with
    | none => c.finished s
    | some e => .err e (c.part s)
  | .done (.ok s) => c.finished s
  | .done (.err e s) => .err (.record e) (c.part s)
  | .done .panic => .panic

theorem sources_arrive {S O : Type} (c : CmdLoop S O) {srcs : List Source} {files : List (String × Bytes)}
    {f : Option RunError} (h : Arrives srcs files f) : ∀ s : S,
      c.sources srcs s = c.endOf f (filesEnd c.skip c.onSkip c.body files s) := by
  induction h with
  | nil => intro s; rfl
  | file name es w srcs files f hd _ ih =>
    intro s
    obtain ⟨ls, hl⟩ := lines_exists w
    rw [CmdLoop.sources, filesEnd, readAll_lines hl]
    rw [SourceReader.new, sourceLoop_lines hl none [] (.inl ⟨rfl, rfl⟩) _ 0 _ ⟨[], es⟩ s
      ⟨w, hd, by simp⟩ (by omega)]
    change (match endWith none (fileLoop c.skip c.onSkip c.body (itemsFrom (shownSource (some name)) 0 ls) s) with
      | .eof s' => c.sources srcs s'
      | .stop s' => c.finished s'
      | .err e s' => .err e (c.part s')
      | .panic => .panic) = _
    cases fileLoop c.skip c.onSkip c.body (itemsFrom (shownSource (some name)) 0 ls) s with
    | eof s' => exact ih s'
    | done r => cases r <;> rfl
  | broken name es w p k srcs hd hw hp =>
    intro s
    obtain ⟨ls, hl⟩ := lines_exists w
    rw [CmdLoop.sources, filesEnd, readAll_lines hl]
    rw [SourceReader.new, sourceLoop_lines hl (some k) p (.inr ⟨⟨k, rfl⟩, hw, hp⟩) _ 0 _ ⟨[], es⟩ s
      ⟨w ++ p, hd, by simp⟩ (by omega)]
    change (match endWith (some k) (fileLoop c.skip c.onSkip c.body (itemsFrom (shownSource (some name)) 0 ls) s) with
      | .eof s' => c.sources srcs s'
      | .stop s' => c.finished s'
      | .err e s' => .err e (c.part s')
      | .panic => .panic) = _
    cases fileLoop c.skip c.onSkip c.body (itemsFrom (shownSource (some name)) 0 ls) s with
    | eof s' => rfl
    | done r => cases r <;> rfl
  | closed name k srcs => intro s; rfl

/-! ## what has been delivered -/

theorem delivers_exists (es : List ReadEvent) (h : ∀ b, ReadEvent.data b ∈ es → b ≠ []) :
    ∃ c f, Delivers es c f := by
  induction es with
  | nil => exact ⟨_, _, .eof⟩
  | cons e es ih =>
    obtain ⟨c, f, hd⟩ := ih (fun b hb => h b (List.mem_cons_of_mem _ hb))
    cases e with
    | data b => exact ⟨_, _, .data b es c f (h b (by simp)) hd⟩
    | interrupted => exact ⟨_, _, .interrupted es c f hd⟩
    | fail k => exact ⟨_, _, .fail k es⟩

theorem whole_split (c : Bytes) : ∃ w p, c = w ++ p ∧ WholeLines w ∧ LF ∉ p := by
  induction c with
  | nil => exact ⟨[], [], rfl, .inl rfl, by simp⟩
  | cons x c ih =>
    obtain ⟨w, p, h, hw, hp⟩ := ih
    rcases hw with rfl | ⟨t, rfl⟩
    · by_cases hx : x = LF
      · subst hx
        exact ⟨[LF], p, by rw [h]; rfl, .inr ⟨[], rfl⟩, hp⟩
      · refine ⟨[], x :: p, by rw [h]; rfl, .inl rfl, ?_⟩
        simp only [List.mem_cons, not_or]
        exact ⟨fun h => hx h.symm, hp⟩
    · exact ⟨x :: (t ++ [0x0A]), p, by rw [h]; rfl, .inr ⟨x :: t, rfl⟩, hp⟩

theorem arrives_exists (srcs : List Source)
    (h : ∀ name es, (name, Except.ok es) ∈ srcs → ∀ b, ReadEvent.data b ∈ es → b ≠ []) :
    ∃ files f, Arrives srcs files f := by
  induction srcs with
  | nil => exact ⟨_, _, .nil⟩
  | cons x srcs ih =>
    obtain ⟨name, src⟩ := x
    obtain ⟨files, f, ha⟩ := ih (fun n es hm => h n es (List.mem_cons_of_mem _ hm))
    cases src with
    | error k => exact ⟨_, _, .closed name k srcs⟩
    | ok es =>
      obtain ⟨c, g, hd⟩ := delivers_exists es (h name es (by simp))
      cases g with
      | none => exact ⟨_, _, .file name es c srcs files f hd ha⟩
      | some k =>
        obtain ⟨w, p, hc, hw, hp⟩ := whole_split c
        exact ⟨_, _, .broken name es w p k srcs (hc ▸ hd) hw hp⟩

end Pica
