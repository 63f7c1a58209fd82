import Verif.Model.Args

/-!
# The configuration file

Models `crates/pica-cli/src/config.rs` and the beginning of `run` (`main.rs`), where
every command loads the configuration.  Reading TOML is an oracle, of which only is
assumed that it reads what `toml::to_string` writes for a configuration; the derived
`Deserialize` of `Config` is modelled.
-/

namespace Pica

/-- a value of a TOML document; numbers, dates, arrays and tables are not told apart -/
inductive TomlValue where
  | bool (b : Bool)
  | str (s : Bytes)
  | other
deriving DecidableEq, Repr

/-- a TOML document, its keys on the top level and their values -/
abbrev TomlDoc := List (Bytes × TomlValue)

/-- the value of a key -/
def TomlDoc.get (d : TomlDoc) (k : Bytes) : Option TomlValue :=
  (d.find? (fun e => e.1 == k)).map (·.2)

/-- the derived `Serialize` of `Config`, config.rs:9-35: an option that is `None` is
left out -/
def Config.doc (c : Config) : TomlDoc :=
  (bs "skip-invalid", .bool c.skipInvalid) ::
    match c.normalization with
    | some nf => [(bs "normalization", .str nf.print)]
    | none => []

/-- `toml::to_string`, config.rs:95 -/
def Config.toml (c : Config) : Bytes :=
  bs "skip-invalid = " ++ printBool c.skipInvalid ++ [LF] ++
    match c.normalization with
    | some nf => bs "normalization = \"" ++ nf.print ++ bs "\"" ++ [LF]
    | none => []

/-- the derived `Deserialize` of `Config`, config.rs:9-35, and of `NormalizationForm`,
translit.rs:8-18: the key `skip-invalid` is required, other keys are ignored.  The names
of the forms are those of `Display` (`rename_all = "lowercase"`).  Simplified: a form
that is given as a table is an error. -/
def Config.ofDoc (d : TomlDoc) : Option Config :=
  match d.get (bs "skip-invalid") with
  | some (.bool b) =>
    match d.get (bs "normalization") with
    | none => some ⟨b, none⟩
    | some (.str s) => (NForm.parse s).map (fun nf => ⟨b, some nf⟩)
    | some _ => none
  | _ => none

/-- the reader of TOML documents; `none` is an error -/
structure Toml where
  parse : Bytes → Option TomlDoc
  written : ∀ c : Config, parse c.toml = some c.doc

/-- what is found at the path of the configuration: nothing or something that is no
file, a file that cannot be read, or a file with a content -/
inductive ConfigFile where
  | missing
  | denied
  | text (b : Bytes)
deriving DecidableEq, Repr

/-- a loaded configuration, an I/O error, or a panic -/
inductive Loaded where
  | ok (c : Config)
  | err
  | panic
deriving DecidableEq, Repr

/-- `Config::from_path`, config.rs:50-62: `read_to_string` fails if the text is not
UTF-8, `expect` panics if it is no configuration -/
def fromPath (T : Toml) : ConfigFile → Loaded
  | .missing => .err
  | .denied => .err
  | .text b =>
    if utf8Valid b then
      match (T.parse b).bind Config.ofDoc with
      | some c => .ok c
      | none => .panic
    else .err

/-- where the configuration is: at the path of `--config`, in the directory of the user,
or nowhere -/
inductive ConfigPath where
  | given
  | user
  | nowhere
deriving DecidableEq, Repr

/-- `Config::default`, `Config::new`, config.rs:9, 40-48 -/
def Config.initial : Config := ⟨false, none⟩

/-- `Config::discover`, config.rs:67-83 -/
def discover (T : Toml) : ConfigFile → Loaded
  | .missing => .ok Config.initial
  | f => fromPath T f

/-- the configuration of a command, main.rs:21-26 -/
def loadConfig (T : Toml) (p : ConfigPath) (f : ConfigFile) : Loaded :=
  match p with
  | .given =>
    match fromPath T f with
    | .err => .ok Config.initial
    | r => r
  | .user => discover T f
  | .nowhere => .ok Config.initial

/-- how saving ends: the whole text is written, the file or its directory cannot be
created, or writing fails or is broken off after some bytes -/
inductive SaveEnd where
  | done
  | notCreated
  | cut (n : Nat)
deriving DecidableEq, Repr

/-- `Config::save`, config.rs:86-101: `File::create` empties the file before the text
is written; without a path the file cannot be created.  The Boolean tells whether
saving succeeds. -/
def Config.save (c : Config) (p : ConfigPath) (e : SaveEnd) (f : ConfigFile) : Bool × ConfigFile :=
  match p, e with
  | .nowhere, _ => (false, f)
  | _, .done => (true, .text c.toml)
  | _, .notCreated => (false, f)
  | _, .cut n => (false, .text (c.toml.take n))

/-- a run of the command `config`, main.rs:18-48 and commands/config.rs:42-103: how it
ends, and the file afterwards -/
def configRun (T : Toml) (p : ConfigPath) (a : ConfigArgs) (e : SaveEnd) (f : ConfigFile) :
    ConfigOutcome × ConfigFile :=
  match loadConfig T p f with
  | .panic => (.panic, f)
  | .err => (.error, f)
  | .ok c =>
    match a.execute c with
    | .saved c' =>
      match c'.save p e f with
      | (true, f') => (.saved c', f')
      | (false, f') => (.error, f')
    | r => (r, f)

/-- runs of `config` one after the other -/
def configRuns (T : Toml) (p : ConfigPath) : List (ConfigArgs × SaveEnd) → ConfigFile → ConfigFile
  | [], f => f
  | (a, e) :: rs, f => configRuns T p rs (configRun T p a e f).2

end Pica
