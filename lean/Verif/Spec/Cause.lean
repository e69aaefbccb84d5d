import Verif.Model.ErrorText
import Verif.Spec.Outcome
/-
Specification of what the error of a failed load says: the first thing that is wrong, with the name of the file or variable.

Of the model only data types are used (`Shown` is the part of the messages that comes from outside the library).
-/
namespace CC

/-- `s` in backquotes. -/
def quoted (s : Str) : Str := '`' :: (s ++ ['`'])

/-- The first of the variables that is set, if it is malformed. -/
def malformedVar {α : Type} (env : Str → Option OsStr) : List (Source α) → Option Str
  | [] => none
  | (n, rd) :: l =>
    match env n with
    | none => malformedVar env l
    | some (.invalid _) => some n
    | some (.unicode s) => if (rd s).isNone then some n else none

/-- The variable `n` counts for a setting and is malformed. -/
inductive Malformed (look : Str → Option OsStr) (docs : List (Path × Toml)) (n : Str) : Prop where
  | scalar (k : ScalarKey) : malformedVar look k.consulted = some n → Malformed look docs n
  | list (k : ListKey) : malformedVar look k.sources = some n → Malformed look docs n
  | command (k : ProgKey) : (∀ f t, (f, t) ∈ docs → t.at k.path = none) → malformedVar look k.sources = some n → Malformed look docs n

/-- The message about a variable. -/
def varMessage (n : Str) : Str := "failed to parse environment variable ".toList ++ quoted n

/-- The error is one of the operating system or of the TOML library. -/
def Err.Foreign (e : Err) : Prop := (∃ w, e = .io w) ∨ ∃ w, e = .toml w

/-- The message `msg` (with the cause `src`) about the variables: it names one that is malformed, with two exceptions. -/
inductive VarBlamed (look : Str → Option OsStr) (docs : List (Path × Toml)) : Str → Option Err → Prop where
  | named (n : Str) (src : Err) : Malformed look docs n → ¬ src.Foreign → VarBlamed look docs (varMessage n) (some src)
  | protocol (s : Str) : look "CARGO_REGISTRIES_CRATES_IO_PROTOCOL".toList = some (.unicode s) → s ≠ "git".toList →
      s ≠ "sparse".toList → VarBlamed look docs ("must be git or sparse, but found ".toList ++ quoted s) none
  | browser (s : Str) : look "BROWSER".toList = some (.unicode s) → Blank s →
      (∀ f t, (f, t) ∈ docs → t.at ["doc".toList, "browser".toList] = none) →
      VarBlamed look docs "invalid length 0, expected at least one element".toList none

/-- `files` are the config files that apply in `cwd`, nearest first. -/
def FilesOf (fs : Fs) (cwd : Path) (home : Option Path) (files : List Path) : Prop :=
  ∃ dirs, SearchDirs cwd home dirs ∧ ConfigsOf fs.ex dirs files

/-- The files before `f` are in order; `docs` are these files with their contents. -/
structure InOrderUpTo (fs : Fs) (toml : Str → Res Toml) (files : List Path) (docs : List (Path × Toml)) (f : Path) : Prop where
  files : ∃ rest, files = docs.map Prod.fst ++ f :: rest
  contents : ∀ g t, (g, t) ∈ docs → ∃ text, fs.read g = .ok text ∧ toml text = .ok t
  good : DocsGood docs

/-- The settings that can be written in two ways: as a string or as an array (the entries of `[env]`: as a table). -/
inductive Spot where
  | alias (k : Str)
  | buildTarget | buildRustflags | buildRustdocflags
  | docBrowser
  | env (k : Str)
  | targetRunner (k : Str) | targetRustflags (k : Str) | targetRustdocflags (k : Str)
deriving DecidableEq, Repr

/-- Where the setting is in a config file. -/
def Spot.path : Spot → List Str
  | .alias k => ["alias".toList, k]
  | .buildTarget => ["build".toList, "target".toList]
  | .buildRustflags => ["build".toList, "rustflags".toList]
  | .buildRustdocflags => ["build".toList, "rustdocflags".toList]
  | .docBrowser => ["doc".toList, "browser".toList]
  | .env k => ["env".toList, k]
  | .targetRunner k => ["target".toList, k, "runner".toList]
  | .targetRustflags k => ["target".toList, k, "rustflags".toList]
  | .targetRustdocflags k => ["target".toList, k, "rustdocflags".toList]

/-- The entry of the table with arbitrary keys that the setting belongs to. -/
def Spot.entry : Spot → Option Str
  | .alias k => some k
  | .env k => some k
  | .targetRunner k => some k
  | .targetRustflags k => some k
  | .targetRustdocflags k => some k
  | _ => none

/-- The number of the section (or setting, in `[build]`) in the order in which they are compared. -/
def Spot.section : Spot → Nat
  | .alias _ => 0
  | .buildTarget => 1
  | .buildRustflags => 2
  | .buildRustdocflags => 3
  | .docBrowser => 4
  | .env _ => 5
  | .targetRunner _ => 6
  | .targetRustflags _ => 6
  | .targetRustdocflags _ => 6

/-- The number of the setting in the table of a target. -/
def Spot.field : Spot → Nat
  | .targetRustflags _ => 1
  | .targetRustdocflags _ => 2
  | _ => 0

/-- The order in which the settings are compared: by section, by key, and in the order `runner`, `rustflags`, `rustdocflags`. -/
def Spot.Before (p q : Spot) : Prop :=
  p.section < q.section ∨ p.section = q.section ∧ (strLt (p.entry.getD []) (q.entry.getD []) = true ∨ p.entry = q.entry ∧ p.field < q.field)

/-- What the way of writing a value is called. -/
def Toml.shape : Toml → Str
  | .str _ => "string".toList
  | .arr _ => "array".toList
  | _ => "table".toList

/-- The setting is written as `x` in one document and differently as `y` in the other. -/
def Spot.Apart (p : Spot) (t u : Toml) (x y : Str) : Prop := (t.at p.path).map Toml.shape = some x ∧ (u.at p.path).map Toml.shape = some y ∧ x ≠ y

/-- The message about two ways of writing. -/
def shapesMessage (x y : Str) : Str := "expected ".toList ++ x ++ ", but found ".toList ++ y

/-- The cause of a failed merge tells the shapes `x` and `y` and, if the setting belongs to an entry `k` of a table, the key `k`. -/
def Tells (sh : Shown) (src : Err) (x y : Str) : Option Str → Prop
  | none => src.display sh = shapesMessage x y ∧ src.source = none
  | some k => (∃ rest, src.display sh = "failed to merge key ".toList ++ quoted k ++ " between ".toList ++ rest) ∧
      ∃ inner, src.source = some inner ∧ inner.display sh = shapesMessage x y ∧ inner.source = none

/-- The cause `src` of a failed merge with the document `t`: it tells the first setting that is written differently in `t` than in
(one of) the documents `docs`. -/
def MergeBlamed (docs : List (Path × Toml)) (t : Toml) (src : Err) : Prop :=
  ∃ p x y, (∃ d ∈ docs, Spot.Apart p d.2 t x y) ∧ (∀ q : Spot, q.Before p → ∀ d ∈ docs, ∀ x' y', ¬ q.Apart d.2 t x' y') ∧
    ∀ sh, Tells sh src x y p.entry

/-- The message `msg` (with the cause `src`) about the files: it names the first that is not in order. -/
inductive FileBlamed (fs : Fs) (toml : Str → Res Toml) (files : List Path) : Str → Option Err → Prop where
  /-- The file cannot be read. -/
  | read (docs : List (Path × Toml)) (f : Path) (src : Err) : InOrderUpTo fs toml files docs f → fs.read f = .err src →
      FileBlamed fs toml files ("failed to read ".toList ++ quoted f) (some src)
  /-- The file is not TOML. -/
  | syntactic (docs : List (Path × Toml)) (f : Path) (text : Str) (src : Err) : InOrderUpTo fs toml files docs f →
      fs.read f = .ok text → toml text = .err src →
      FileBlamed fs toml files ("failed to parse ".toList ++ quoted f ++ " as cargo configuration".toList) (some src)
  /-- The file is not a config. -/
  | config (docs : List (Path × Toml)) (f : Path) (text : Str) (t : Toml) (what : Str) : InOrderUpTo fs toml files docs f →
      fs.read f = .ok text → toml text = .ok t → ¬ t.IsConfig →
      FileBlamed fs toml files ("failed to parse ".toList ++ quoted f ++ " as cargo configuration".toList) (some (.toml what))
  /-- The file and a nearer one do not agree in how they write a setting.  The message names the nearest of all. -/
  | merge (nearest : Path) (u : Toml) (docs : List (Path × Toml)) (f : Path) (text : Str) (t : Toml) (src : Err) :
      InOrderUpTo fs toml files ((nearest, u) :: docs) f → fs.read f = .ok text → toml text = .ok t → t.IsConfig →
      (∃ x ∈ (nearest, u) :: docs, SpelledApart x.2 t) → MergeBlamed ((nearest, u) :: docs) t src → ¬ src.Foreign →
      FileBlamed fs toml files ("failed to merge config from ".toList ++ quoted f ++ " into ".toList ++ quoted nearest) (some src)

end CC
