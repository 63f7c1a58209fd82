import Verif.Model.ConfigFile
import Verif.Props.Args
import Verif.Lemmas.Utf8

/-! # C78: the configuration is kept between runs -/

namespace Pica.Props
open Pica Spec

theorem norm_ne_skip : ¬ bs "skip-invalid" = bs "normalization" := by decide +kernel

theorem nform_parse_print (nf : NForm) : NForm.parse nf.print = some nf := by
  cases nf <;> decide +kernel

/-- what is written for a configuration is read as this configuration -/
theorem ofDoc_doc (c : Config) : Config.ofDoc c.doc = some c := by
  obtain ⟨b, nf⟩ := c
  cases nf with
  | none => cases b <;> decide +kernel
  | some nf => cases b <;> cases nf <;> decide +kernel

theorem toml_utf8 (c : Config) : utf8Valid c.toml = true := by
  obtain ⟨b, nf⟩ := c
  cases nf with
  | none => cases b <;> decide +kernel
  | some nf => cases b <;> cases nf <;> decide +kernel

theorem fromPath_toml (T : Toml) (c : Config) : fromPath T (.text c.toml) = .ok c := by
  unfold fromPath
  simp only [toml_utf8 c, if_true, T.written c, Option.bind_some, ofDoc_doc]

theorem load_toml (T : Toml) (p : ConfigPath) (hp : p ≠ .nowhere) (c : Config) :
    loadConfig T p (.text c.toml) = .ok c := by
  cases p with
  | nowhere => exact absurd rfl hp
  | given => simp only [loadConfig, fromPath_toml]
  | user => simp only [loadConfig, discover, fromPath_toml]

/-- what a run of `config` makes of the value of an option: a value that is one of the
values of the option is taken, `--unset` takes the default, and everything else (another
name, a text that is no value, printing, a file that cannot be created) leaves it -/
def applied (k : Key) (prev : Option Bytes) (r : ConfigArgs × SaveEnd) : Option Bytes :=
  if r.2 = .done ∧ r.1.name = k.name then
    match r.1.value with
    | some v => if v ∈ k.values then some v else prev
    | none => if r.1.unset then k.default else prev
  else prev

theorem key_name_inj {k k' : Key} (h : k.name = k'.name) : k = k' := by
  cases k <;> cases k'
  · rfl
  · exact absurd h norm_ne_skip
  · exact absurd h skip_ne_norm
  · rfl

theorem applied_other {k : Key} {prev : Option Bytes} {r : ConfigArgs × SaveEnd} (h : r.1.name ≠ k.name) :
    applied k prev r = prev := by
  unfold applied
  rw [if_neg (fun h' => h h'.2)]

/-- what a run does to the configuration that later runs load -/
theorem run_load (T : Toml) (p : ConfigPath) (hp : p ≠ .nowhere) (f : ConfigFile) (c : Config)
    (hf : loadConfig T p f = .ok c) (a : ConfigArgs) (ha : a.Accepted) (e : SaveEnd)
    (he : e = .done ∨ e = .notCreated) :
    ∃ c', loadConfig T p (configRun T p a e f).2 = .ok c' ∧ ∀ k, k.text c' = applied k (k.text c) (a, e) := by
  -- a run that does not save
  have keep : (∀ c', a.execute c ≠ .saved c') → (configRun T p a e f).2 = f := by
    intro h
    unfold configRun
    simp only [hf]
  have saves : ∀ c', a.execute c = .saved c' → e = .done → (configRun T p a e f).2 = .text c'.toml := by
    rintro c' h rfl
    unfold configRun
    simp only [hf, h]
    cases p with
    | nowhere => exact absurd rfl hp
    | given => rfl
    | user => rfl
  have fails : e = .notCreated → (configRun T p a e f).2 = f := by
    rintro rfl
    unfold configRun
    simp only [hf]
    cases a.execute c with
    | saved c' =>
      cases p with
      | nowhere => exact absurd rfl hp
      | given => rfl
      | user => rfl
    | printed l => rfl
    | error => rfl
    | panic => rfl
  rcases he with rfl | rfl
  · -- the file can be created
    by_cases hk : ∃ k : Key, a.name = k.name
    · obtain ⟨k, hk⟩ := hk
      obtain ⟨g, u, s, n, v⟩ := a
      simp only at hk
      subst hk
      have hacc := (C61_accepted _).1 ha
      cases v with
      | some v =>
        have hgu : g = false ∧ u = false := by
          cases g <;> cases u <;> cases s <;> simp_all
        obtain ⟨rfl, rfl⟩ := hgu
        obtain ⟨h1, h2⟩ := C61_set k v s c
        by_cases hv : v ∈ k.values
        · obtain ⟨c', hc', ht, ho⟩ := h1 hv
          rw [saves c' hc' rfl]
          refine ⟨c', load_toml T p hp c', fun k' => ?_⟩
          by_cases hkk : k' = k
          · subst hkk
            rw [ht]
            unfold applied
            rw [if_pos ⟨rfl, rfl⟩]
            simp only [hv, if_true]
          · rw [ho k' hkk, applied_other (fun h => hkk (key_name_inj h).symm)]
        · rw [keep (by rw [h2 hv]; simp)]
          refine ⟨c, hf, fun k' => ?_⟩
          by_cases hkk : k' = k
          · subst hkk
            unfold applied
            rw [if_pos ⟨rfl, rfl⟩]
            simp only [hv, if_false]
          · rw [applied_other (fun h => hkk (key_name_inj h).symm)]
      | none =>
        have hs : s = false := by
          cases g <;> cases u <;> cases s <;> simp_all
        subst hs
        cases u with
        | true =>
          have hg : g = false := by cases g <;> simp_all
          subst hg
          obtain ⟨c', hc', ht, ho⟩ := C61_unset k c
          rw [saves c' hc' rfl]
          refine ⟨c', load_toml T p hp c', fun k' => ?_⟩
          by_cases hkk : k' = k
          · subst hkk
            rw [ht]
            unfold applied
            rw [if_pos ⟨rfl, rfl⟩]
            simp only [if_true]
          · rw [ho k' hkk, applied_other (fun h => hkk (key_name_inj h).symm)]
        | false =>
          rw [keep (by rw [(C61_get k g c).1]; simp)]
          refine ⟨c, hf, fun k' => ?_⟩
          by_cases hkk : k' = k
          · subst hkk
            unfold applied
            rw [if_pos ⟨rfl, rfl⟩]
            simp only [Bool.false_eq_true, if_false]
          · rw [applied_other (fun h => hkk (key_name_inj h).symm)]
    · have hun : ∀ k : Key, a.name ≠ k.name := fun k h => hk ⟨k, h⟩
      rw [keep (by rw [C61_unknown a c hun]; simp)]
      exact ⟨c, hf, fun k => (applied_other (hun k)).symm⟩
  · rw [fails rfl]
    refine ⟨c, hf, fun k => ?_⟩
    unfold applied
    rw [if_neg (by rintro ⟨h, -⟩; cases h)]

/-- **C78** (partial: the writing of the file is not broken off, and the file can be read
at the beginning) Whatever `config` is called with and however often: the commands after
that load, for every option, the value that was set last. -/
theorem C78_kept_partial (T : Toml) (p : ConfigPath) (hp : p ≠ .nowhere) (rs : List (ConfigArgs × SaveEnd))
    (hrs : ∀ r ∈ rs, r.1.Accepted ∧ (r.2 = .done ∨ r.2 = .notCreated)) (f : ConfigFile) (c : Config)
    (hf : loadConfig T p f = .ok c) :
    ∃ c', loadConfig T p (configRuns T p rs f) = .ok c' ∧
      ∀ k : Key, k.text c' = rs.foldl (applied k) (k.text c) := by
  induction rs generalizing f c with
  | nil => exact ⟨c, hf, fun _ => rfl⟩
  | cons r rs ih =>
    obtain ⟨a, e⟩ := r
    obtain ⟨ha, he⟩ := hrs (a, e) List.mem_cons_self
    obtain ⟨c1, h1, ht1⟩ := run_load T p hp f c hf a ha e he
    obtain ⟨c2, h2, ht2⟩ := ih (fun r hr => hrs r (List.mem_cons_of_mem _ hr)) _ c1 h1
    refine ⟨c2, h2, fun k => ?_⟩
    rw [ht2 k, ht1 k]
    rfl

theorem foldl_applied_skip (k : Key) (post : List (ConfigArgs × SaveEnd)) (prev : Option Bytes)
    (h : ∀ r ∈ post, r.1.name ≠ k.name ∨ (r.1.value = none ∧ r.1.unset = false)) :
    post.foldl (applied k) prev = prev := by
  induction post generalizing prev with
  | nil => rfl
  | cons r post ih =>
    have hr : applied k prev r = prev := by
      rcases h r List.mem_cons_self with hn | ⟨hv, hu⟩
      · exact applied_other hn
      · unfold applied
        rw [hv, hu]
        simp
    rw [List.foldl_cons, hr, ih _ (fun r hr => h r (List.mem_cons_of_mem _ hr))]

/-- **C78** (partial, as above) A value that was saved is loaded and printed by all later
runs, until the option is set or unset again. -/
theorem C78_last_partial (T : Toml) (p : ConfigPath) (hp : p ≠ .nowhere) (k : Key) (v : Bytes)
    (hv : v ∈ k.values) (set : Bool) (pre post : List (ConfigArgs × SaveEnd))
    (hpre : ∀ r ∈ pre, r.1.Accepted ∧ (r.2 = .done ∨ r.2 = .notCreated))
    (hpost : ∀ r ∈ post, r.1.Accepted ∧ (r.2 = .done ∨ r.2 = .notCreated))
    (hlast : ∀ r ∈ post, r.1.name ≠ k.name ∨ (r.1.value = none ∧ r.1.unset = false))
    (f : ConfigFile) (c : Config) (hf : loadConfig T p f = .ok c) :
    let f' := configRuns T p (pre ++ (⟨false, false, set, k.name, some v⟩, .done) :: post) f
    (∃ c', loadConfig T p f' = .ok c' ∧ k.text c' = some v) ∧
    ∀ get e, configRun T p ⟨get, false, false, k.name, none⟩ e f' = (.printed v, f') := by
  intro f'
  have hall : ∀ r ∈ pre ++ (⟨false, false, set, k.name, some v⟩, SaveEnd.done) :: post,
      r.1.Accepted ∧ (r.2 = .done ∨ r.2 = .notCreated) := by
    intro r hr
    rcases List.mem_append.1 hr with hr | hr
    · exact hpre r hr
    · rcases List.mem_cons.1 hr with rfl | hr
      · refine ⟨(C61_accepted _).2 ?_, .inl rfl⟩
        cases set <;> simp
      · exact hpost r hr
  obtain ⟨c', h, ht⟩ := C78_kept_partial T p hp _ hall f c hf
  have hk : k.text c' = some v := by
    rw [ht k, List.foldl_append, List.foldl_cons, foldl_applied_skip k post _ hlast]
    unfold applied
    rw [if_pos ⟨rfl, rfl⟩]
    simp only [hv, if_true]
  refine ⟨⟨c', h, hk⟩, fun get e => ?_⟩
  unfold configRun
  have h' : loadConfig T p f' = .ok c' := h
  simp only [h', (C61_get k get c').1, hk, Option.getD_some]

/-- **C78** a run that ends with an error or prints a value leaves the file as it is, unless
writing it is broken off. -/
theorem C78_untouched (T : Toml) (p : ConfigPath) (a : ConfigArgs) (e : SaveEnd) (he : ∀ n, e ≠ .cut n)
    (f : ConfigFile) (h : ∀ c, (configRun T p a e f).1 ≠ .saved c) : (configRun T p a e f).2 = f := by
  unfold configRun at h ⊢
  cases hl : loadConfig T p f with
  | panic => rfl
  | err => rfl
  | ok c =>
    simp only [hl] at h
    simp only
    cases hx : a.execute c with
    | printed l => rfl
    | error => rfl
    | panic => rfl
    | saved c' =>
      simp only [hx] at h
      simp only
      cases p <;> cases e <;> first
        | rfl
        | exact absurd rfl (he _)
        | exact absurd rfl (h c')

/-- the documents that are configurations -/
def ConfigDoc (d : TomlDoc) : Prop :=
  (∃ b, d.get (bs "skip-invalid") = some (.bool b)) ∧
  (d.get (bs "normalization") = none ∨ ∃ v ∈ Key.norm.values, d.get (bs "normalization") = some (.str v))

theorem nform_parse_iff (s : Bytes) : (∃ nf, NForm.parse s = some nf) ↔ s ∈ Key.norm.values := by
  constructor
  · rintro ⟨nf, h⟩
    unfold NForm.parse at h
    show s ∈ [bs "nfc", bs "nfkc", bs "nfd", bs "nfkd"]
    split at h
    · rename_i h'; rw [h']; simp
    · split at h
      · rename_i h'; rw [h']; simp
      · split at h
        · rename_i h'; rw [h']; simp
        · split at h
          · rename_i h'; rw [h']; simp
          · cases h
  · intro h
    have h : s ∈ [bs "nfc", bs "nfkc", bs "nfd", bs "nfkd"] := h
    simp only [List.mem_cons, List.not_mem_nil, or_false] at h
    rcases h with rfl | rfl | rfl | rfl
    · exact ⟨.nfc, nform_parse_print .nfc⟩
    · exact ⟨.nfkc, nform_parse_print .nfkc⟩
    · exact ⟨.nfd, nform_parse_print .nfd⟩
    · exact ⟨.nfkd, nform_parse_print .nfkd⟩

theorem ofDoc_iff (d : TomlDoc) : (∃ c, Config.ofDoc d = some c) ↔ ConfigDoc d := by
  unfold Config.ofDoc ConfigDoc
  cases h1 : d.get (bs "skip-invalid") with
  | none => simp
  | some v =>
    cases v with
    | str s => simp
    | other => simp
    | bool b =>
      cases h2 : d.get (bs "normalization") with
      | none => simp
      | some w =>
        cases w with
        | bool b' => simp
        | other => simp
        | str s =>
          simp only [Option.map_eq_some_iff, Option.some.injEq, TomlValue.bool.injEq, exists_eq', true_and,
            reduceCtorEq, false_or, TomlValue.str.injEq]
          constructor
          · rintro ⟨c, nf, h, -⟩
            exact ⟨s, (nform_parse_iff s).1 ⟨nf, h⟩, rfl⟩
          · rintro ⟨v, hv, rfl⟩
            obtain ⟨nf, h⟩ := (nform_parse_iff s).2 hv
            exact ⟨_, nf, h, rfl⟩

/-- **C78** every command, whatever it is, panics before it does anything exactly if the
configuration file is a text that is not TOML or not a configuration.  It ends with an
error if the file of the user cannot be read or is no UTF-8 text. -/
theorem C78_loads (T : Toml) (p : ConfigPath) (f : ConfigFile) :
    (loadConfig T p f = .panic ↔ p ≠ .nowhere ∧
      ∃ b, f = .text b ∧ utf8Valid b = true ∧ ∀ d, T.parse b = some d → ¬ ConfigDoc d) ∧
    (loadConfig T p f = .err ↔ p = .user ∧ (f = .denied ∨ ∃ b, f = .text b ∧ utf8Valid b = false)) := by
  have hb : ∀ b, utf8Valid b = true → ((∀ d, T.parse b = some d → ¬ ConfigDoc d) ↔
      (T.parse b).bind Config.ofDoc = none) := by
    intro b _
    cases hd : T.parse b with
    | none => simp
    | some d =>
      simp only [Option.some.injEq, forall_eq', Option.bind_some, ← ofDoc_iff]
      cases Config.ofDoc d <;> simp
  cases p with
  | nowhere => simp [loadConfig]
  | given =>
    cases f with
    | missing => simp [loadConfig, fromPath]
    | denied => simp [loadConfig, fromPath]
    | text b =>
      simp only [loadConfig, fromPath, ne_eq, reduceCtorEq, not_false_eq_true, true_and, ConfigFile.text.injEq,
        exists_eq_left', false_and, iff_false]
      cases hu : utf8Valid b with
      | false => simp
      | true =>
        simp only [if_true, true_and, hb b hu]
        cases (T.parse b).bind Config.ofDoc <;> simp
  | user =>
    cases f with
    | missing => simp [loadConfig, discover]
    | denied => simp [loadConfig, discover, fromPath]
    | text b =>
      simp only [loadConfig, discover, fromPath, ne_eq, reduceCtorEq, not_false_eq_true, true_and,
        ConfigFile.text.injEq, exists_eq_left', false_or]
      cases hu : utf8Valid b with
      | false => simp
      | true =>
        simp only [if_true, true_and, hb b hu]
        cases (T.parse b).bind Config.ofDoc <;> simp

/-- **C78** without a file, and without a directory of the user, every option has its
default. -/
theorem C78_default (T : Toml) (p : ConfigPath) (f : ConfigFile) (h : f = .missing ∨ p = .nowhere) :
    ∃ c, loadConfig T p f = .ok c ∧ ∀ k : Key, k.text c = k.default := by
  refine ⟨Config.initial, ?_, fun k => by cases k <;> rfl⟩
  rcases h with rfl | rfl
  · cases p <;> rfl
  · rfl

/-- **C78** the options are those of the document in the file; an option that is not
there has its default. -/
theorem C78_read (T : Toml) (p : ConfigPath) (hp : p ≠ .nowhere) (b : Bytes) (hb : utf8Valid b = true)
    (d : TomlDoc) (hd : T.parse b = some d) (hc : ConfigDoc d) :
    ∃ c, loadConfig T p (.text b) = .ok c ∧
      (∀ x, d.get (bs "skip-invalid") = some (.bool x) → Key.skip.text c = some (printBool x)) ∧
      (∀ v, d.get (bs "normalization") = some (.str v) → Key.norm.text c = some v) ∧
      (d.get (bs "normalization") = none → Key.norm.text c = Key.norm.default) := by
  obtain ⟨⟨x, hx⟩, hn⟩ := hc
  have key : ∀ c, Config.ofDoc d = some c → loadConfig T p (.text b) = .ok c := by
    intro c h
    have : fromPath T (.text b) = .ok c := by
      unfold fromPath
      simp only [hb, if_true, hd, Option.bind_some, h]
    cases p with
    | nowhere => exact absurd rfl hp
    | given => simp only [loadConfig, this]
    | user => simp only [loadConfig, discover, this]
  rcases hn with hn | ⟨v, hv, hn⟩
  · refine ⟨⟨x, none⟩, key _ ?_, ?_, ?_, fun _ => rfl⟩
    · unfold Config.ofDoc
      rw [hx, hn]
    · intro y hy
      rw [hx] at hy
      cases hy
      rfl
    · intro v hv
      rw [hn] at hv
      cases hv
  · obtain ⟨nf, hnf⟩ := (nform_parse_iff v).2 hv
    refine ⟨⟨x, some nf⟩, key _ ?_, ?_, ?_, ?_⟩
    · unfold Config.ofDoc
      rw [hx, hn]
      simp only [hnf, Option.map_some]
    · intro y hy
      rw [hx] at hy
      cases hy
      rfl
    · intro w hw
      rw [hn] at hw
      cases hw
      show some nf.print = some v
      have : v ∈ [bs "nfc", bs "nfkc", bs "nfd", bs "nfkd"] := hv
      simp only [List.mem_cons, List.not_mem_nil, or_false] at this
      rcases this with rfl | rfl | rfl | rfl
      · rw [show NForm.parse (bs "nfc") = some .nfc from nform_parse_print .nfc] at hnf; cases hnf; rfl
      · rw [show NForm.parse (bs "nfkc") = some .nfkc from nform_parse_print .nfkc] at hnf; cases hnf; rfl
      · rw [show NForm.parse (bs "nfd") = some .nfd from nform_parse_print .nfd] at hnf; cases hnf; rfl
      · rw [show NForm.parse (bs "nfkd") = some .nfkd from nform_parse_print .nfkd] at hnf; cases hnf; rfl
    · intro h
      rw [hn] at h
      cases h

/-- **C78** a run that sets or unsets an option and ends well has saved it: the following
run loads the new configuration. -/
theorem C78_saved (T : Toml) (p : ConfigPath) (a : ConfigArgs) (e : SaveEnd) (f : ConfigFile) (c : Config)
    (h : (configRun T p a e f).1 = .saved c) :
    e = .done ∧ p ≠ .nowhere ∧ loadConfig T p (configRun T p a e f).2 = .ok c := by
  unfold configRun at h ⊢
  cases hl : loadConfig T p f with
  | panic => rw [hl] at h; cases h
  | err => rw [hl] at h; cases h
  | ok c0 =>
    simp only [hl] at h
    simp only
    cases hx : a.execute c0 with
    | printed l => rw [hx] at h; cases h
    | error => rw [hx] at h; cases h
    | panic => rw [hx] at h; cases h
    | saved c' =>
      simp only [hx] at h
      simp only
      cases p <;> cases e <;> first
        | (cases h; done)
        | (cases h; exact ⟨rfl, by simp, load_toml T _ (by simp) c⟩)

/-- **C78** how a run ends: it panics exactly if the file is UTF-8 text but not a configuration, and
it ends with an error if the file of the user cannot be read, if the option is unknown, if a value is
not one of the option, or if the file cannot be written. -/
theorem C78_ends (T : Toml) (p : ConfigPath) (a : ConfigArgs) (ha : a.Accepted) (e : SaveEnd) (f : ConfigFile) :
    ((configRun T p a e f).1 = .panic ↔ p ≠ .nowhere ∧
      ∃ b, f = .text b ∧ utf8Valid b = true ∧ ∀ d, T.parse b = some d → ¬ ConfigDoc d) ∧
    (p = .user ∧ (f = .denied ∨ ∃ b, f = .text b ∧ utf8Valid b = false) → (configRun T p a e f).1 = .error) ∧
    ((configRun T p a e f).1 ≠ .panic → (∀ k : Key, a.name ≠ k.name) → (configRun T p a e f).1 = .error) ∧
    ((configRun T p a e f).1 ≠ .panic → (∃ k : Key, a.name = k.name ∧ ∃ v, a.value = some v ∧ v ∉ k.values) →
      (configRun T p a e f).1 = .error) ∧
    ((configRun T p a e f).1 ≠ .panic → e ≠ .done ∨ p = .nowhere → (a.value.isSome = true ∨ a.unset = true) →
      (configRun T p a e f).1 = .error) := by
  obtain ⟨hp, he⟩ := C78_loads T p f
  rw [← hp, ← he]
  unfold configRun
  cases hl : loadConfig T p f with
  | panic => exact ⟨by simp, by simp, fun h => absurd rfl h, fun h => absurd rfl h, fun h => absurd rfl h⟩
  | err => exact ⟨by simp, by simp, fun _ _ => rfl, fun _ _ => rfl, fun _ _ _ => rfl⟩
  | ok c =>
    dsimp only
    have hne : Loaded.ok c ≠ .panic := by simp
    have hne' : Loaded.ok c ≠ .err := by simp
    have ht := C61_total a ha c
    cases hx : a.execute c with
    | panic => exact absurd hx ht
    | error => exact ⟨by simp, fun _ => rfl, fun _ _ => rfl, fun _ _ => rfl, fun _ _ _ => rfl⟩
    | printed l =>
      refine ⟨by simp, by simp, fun _ hk => ?_, fun _ hk => ?_, fun _ _ hv => ?_⟩
      · rw [C61_unknown a c hk] at hx; cases hx
      · obtain ⟨k, hk, v, hv, hn⟩ := hk
        obtain ⟨g, u, s, n, w⟩ := a
        obtain ⟨h1, h2, h3⟩ := ha
        dsimp only at hk hv h1 h2 h3
        subst hk hv
        have hg : g = false := by cases g; rfl; exact absurd (h1 rfl).1 (by simp)
        have hu : u = false := by cases u; rfl; exact absurd (h2 rfl).1 (by simp)
        subst hg hu
        rw [(C61_set k v s c).2 hn] at hx; cases hx
      · by_cases hk : ∀ k : Key, a.name ≠ k.name
        · rw [C61_unknown a c hk] at hx; cases hx
        · rw [Classical.not_forall] at hk
          obtain ⟨k, hk⟩ := hk
          rw [Classical.not_not] at hk
          obtain ⟨g, u, s, n, w⟩ := a
          obtain ⟨h1, h2, h3⟩ := ha
          dsimp only at hk hv h1 h2 h3
          subst hk
          cases w with
          | some v =>
            have hg : g = false := by cases g; rfl; exact absurd (h1 rfl).1 (by simp)
            have hu : u = false := by cases u; rfl; exact absurd (h2 rfl).1 (by simp)
            subst hg hu
            by_cases hm : v ∈ k.values
            · obtain ⟨c', hc', -⟩ := (C61_set k v s c).1 hm
              rw [hc'] at hx; cases hx
            · rw [(C61_set k v s c).2 hm] at hx; cases hx
          | none =>
            have hu : u = true := hv.resolve_left (by simp)
            subst hu
            obtain ⟨-, hg, hs⟩ := h2 rfl
            subst hg hs
            obtain ⟨c', hc', -⟩ := C61_unset k c
            rw [hc'] at hx; cases hx
    | saved c' =>
      refine ⟨?_, by simp, fun _ hk => ?_, fun _ hk => ?_, fun _ hd _ => ?_⟩
      · cases p <;> cases e <;> simp [Config.save]
      · rw [C61_unknown a c hk] at hx; cases hx
      · obtain ⟨k, hk, v, hv, hn⟩ := hk
        obtain ⟨g, u, s, n, w⟩ := a
        obtain ⟨h1, h2, h3⟩ := ha
        dsimp only at hk hv h1 h2 h3
        subst hk hv
        have hg : g = false := by cases g; rfl; exact absurd (h1 rfl).1 (by simp)
        have hu : u = false := by cases u; rfl; exact absurd (h2 rfl).1 (by simp)
        subst hg hu
        rw [(C61_set k v s c).2 hn] at hx; cases hx
      · rcases hd with hd | rfl
        · cases p <;> cases e <;> first | exact absurd rfl hd | rfl
        · cases e <;> rfl

/-- a reader for the examples: it knows the texts of the configurations, the empty
document, and three files that were written by hand -/
def toyDocs : List (Bytes × TomlDoc) :=
  ([⟨false, none⟩, ⟨true, none⟩, ⟨false, some .nfc⟩, ⟨true, some .nfc⟩, ⟨false, some .nfkc⟩, ⟨true, some .nfkc⟩,
    ⟨false, some .nfd⟩, ⟨true, some .nfd⟩, ⟨false, some .nfkd⟩, ⟨true, some .nfkd⟩] : List Config).map
    (fun c => (c.toml, c.doc)) ++
  [([], []),
   (bs "normalization = \"nfc\"", [(bs "normalization", .str (bs "nfc"))]),
   (bs "skip-invalid = true\ncolor = \"red\"", [(bs "skip-invalid", .bool true), (bs "color", .str (bs "red"))])]

def toyToml : Toml where
  parse b := (toyDocs.find? (fun e => e.1 == b)).map (·.2)
  written c := by
    obtain ⟨b, nf⟩ := c
    cases nf with
    | none => cases b <;> decide +kernel
    | some nf => cases b <;> cases nf <;> decide +kernel

/-- arguments `NAME VALUE` -/
def setTo (k v : Bytes) : ConfigArgs := ⟨false, false, false, k, some v⟩

/-- **C78 is false**: with `--config`, a file that is not UTF-8 (or that cannot be read) is
silently taken for an empty one, and the next `config` replaces it: its settings are lost. -/
theorem C78_replaced_false (T : Toml) : ∃ b c,
    b = bs "# f" ++ [0xFC] ++ bs "r\nskip-invalid = true" ++ [LF] ∧
    configRun T .given (setTo (bs "normalization") (bs "nfc")) .done (.text b) =
      (.saved c, .text (bs "skip-invalid = false" ++ [LF] ++ bs "normalization = \"nfc\"" ++ [LF])) := by
  refine ⟨_, ⟨false, some .nfc⟩, rfl, ?_⟩
  have hu : utf8Valid (bs "# f" ++ [0xFC] ++ bs "r\nskip-invalid = true" ++ [LF]) = false := by decide +kernel
  have hl : loadConfig T .given (.text (bs "# f" ++ [0xFC] ++ bs "r\nskip-invalid = true" ++ [LF])) =
      .ok Config.initial := by
    simp only [loadConfig, fromPath, hu, Bool.false_eq_true, if_false]
  have hx : (setTo (bs "normalization") (bs "nfc")).execute Config.initial = .saved ⟨false, some .nfc⟩ := by
    decide +kernel
  unfold configRun
  simp only [hl, hx]
  decide +kernel

/-- **C78 is false**: if writing the file is broken off at once, it is empty, and then every
command panics, `config` too. -/
theorem C78_cut_false (T : Toml) (hT : T.parse [] = some []) (p : ConfigPath) (hp : p ≠ .nowhere)
    (f : ConfigFile) (c : Config) (hf : loadConfig T p f = .ok c) (k : Key) (v : Bytes) (hv : v ∈ k.values) :
    let f' := (configRun T p (setTo k.name v) (.cut 0) f).2
    loadConfig T p f' = .panic ∧ ∀ a e, configRun T p a e f' = (.panic, f') := by
  intro f'
  have hf' : f' = .text [] := by
    obtain ⟨c', hc', -, -⟩ := (C61_set k v false c).1 hv
    show (configRun T p (setTo k.name v) (.cut 0) f).2 = .text []
    unfold configRun
    have hx : (setTo k.name v).execute c = .saved c' := hc'
    simp only [hf, hx]
    cases p with
    | nowhere => exact absurd rfl hp
    | given => rfl
    | user => rfl
  have hl : loadConfig T p f' = .panic := by
    rw [hf']
    refine ((C78_loads T p _).1).2 ⟨hp, [], rfl, by decide +kernel, fun d hd => ?_⟩
    rw [hT] at hd
    cases hd
    rintro ⟨⟨b, hb⟩, -⟩
    cases hb
  refine ⟨hl, fun a e => ?_⟩
  unfold configRun
  rw [hl]

/-- **C78 is false**: a file that sets only the normalization makes every command panic. -/
theorem C78_required_false (T : Toml) (b : Bytes) (hb : utf8Valid b = true)
    (hT : T.parse b = some [(bs "normalization", .str (bs "nfc"))]) (p : ConfigPath) (hp : p ≠ .nowhere) :
    loadConfig T p (.text b) = .panic := by
  refine ((C78_loads T p _).1).2 ⟨hp, b, rfl, hb, fun d hd => ?_⟩
  rw [hT] at hd
  cases hd
  rintro ⟨⟨x, hx⟩, -⟩
  have : TomlDoc.get [(bs "normalization", .str (bs "nfc"))] (bs "skip-invalid") = none := by decide +kernel
  rw [this] at hx
  cases hx

example : loadConfig toyToml .user (.text (bs "normalization = \"nfc\"")) = .panic :=
  C78_required_false toyToml _ (by decide +kernel) (by decide +kernel) .user (by simp)

example : toyToml.parse [] = some [] := by decide +kernel

-- three runs: the second value of `skip-invalid` is an error, the last run prints
example : configRuns toyToml .user
    [(setTo (bs "skip-invalid") (bs "true"), .done), (setTo (bs "skip-invalid") (bs "yes"), .done),
     (setTo (bs "normalization") (bs "nfkd"), .done), (⟨true, false, false, bs "normalization", none⟩, .done)]
    .missing = .text (bs "skip-invalid = true\nnormalization = \"nfkd\"" ++ [LF]) := by decide +kernel

-- a file that was written by hand
example : ConfigDoc [(bs "skip-invalid", .bool true), (bs "color", .str (bs "red"))] :=
  ⟨⟨true, by decide +kernel⟩, .inl (by decide +kernel)⟩

example : loadConfig toyToml .given (.text (bs "skip-invalid = true\ncolor = \"red\"")) = .ok ⟨true, none⟩ ∧
    toyToml.parse (bs "skip-invalid = true\ncolor = \"red\"") =
      some [(bs "skip-invalid", .bool true), (bs "color", .str (bs "red"))] := by decide +kernel

-- `C78_ends`: an unknown option, a wrong value, a file that cannot be written, a file that is not UTF-8
example : (setTo (bs "color") (bs "red")).Accepted ∧ (setTo (bs "skip-invalid") (bs "yes")).Accepted ∧
    (configRun toyToml .user (setTo (bs "color") (bs "red")) .done .missing).1 = .error ∧
    (configRun toyToml .user (setTo (bs "skip-invalid") (bs "yes")) .done .missing).1 = .error ∧
    (configRun toyToml .user (setTo (bs "skip-invalid") (bs "true")) (.cut 3) .missing).1 = .error ∧
    (configRun toyToml .user (setTo (bs "skip-invalid") (bs "true")) .done (.text [0xFC])).1 = .error ∧
    (configRun toyToml .user (setTo (bs "skip-invalid") (bs "true")) .done (.text (bs "?"))).1 = .panic := by
  refine ⟨?_, ?_, ?_⟩
  · simp [ConfigArgs.Accepted, setTo]
  · simp [ConfigArgs.Accepted, setTo]
  · decide +kernel

-- a file that cannot be created keeps its content, one that is broken off does not
example : (configRun toyToml .user (setTo (bs "skip-invalid") (bs "false")) .notCreated
    (.text (bs "skip-invalid = true\ncolor = \"red\""))).2 = .text (bs "skip-invalid = true\ncolor = \"red\"") ∧
    (configRun toyToml .user (setTo (bs "skip-invalid") (bs "false")) (.cut 4)
    (.text (bs "skip-invalid = true\ncolor = \"red\""))).2 = .text (bs "skip") ∧
    (configRun toyToml .user (setTo (bs "skip-invalid") (bs "false")) .done
    (.text (bs "skip-invalid = true\ncolor = \"red\""))).2 = .text (bs "skip-invalid = false" ++ [LF]) := by
  decide +kernel

end Pica.Props
