import Verif.Model.Path
/-
Specification of the config file search, after
https://doc.rust-lang.org/nightly/cargo/reference/config.html#hierarchical-structure
-/
namespace CC

/-- `f` is the config file of directory `dir`: the file `config` if it exists, else `config.toml` if that exists. -/
def IsConfigOf (ex : Path → Bool) (dir f : Path) : Prop :=
  (f = Path.join dir "config".toList ∧ ex f = true) ∨
  (f = Path.join dir "config.toml".toList ∧ ex f = true ∧ ex (Path.join dir "config".toList) = false)

/-- `fs` are the config files of the directories `dirs`, in order, skipping those without. -/
inductive ConfigsOf (ex : Path → Bool) : List Path → List Path → Prop where
  | nil : ConfigsOf ex [] []
  | found {dir dirs f fs} : IsConfigOf ex dir f → ConfigsOf ex dirs fs → ConfigsOf ex (dir :: dirs) (f :: fs)
  | missing {dir dirs fs} : (∀ f, ¬ IsConfigOf ex dir f) → ConfigsOf ex dirs fs → ConfigsOf ex (dir :: dirs) fs

/-- The directories searched for `cwd` and `CARGO_HOME` (`home`): the `.cargo` directories of `cwd` and of its parents, nearest
first, and `home` unless it is one of these (as paths, i.e. component-wise). -/
def SearchDirs (cwd : Path) (home : Option Path) (dirs : List Path) : Prop :=
  let locals := (Path.ancestors cwd).map fun d => Path.join d ".cargo".toList
  match home with
  | none => dirs = locals
  | some h =>
    ((∃ d ∈ locals, Path.components d = Path.components h) ∧ dirs = locals) ∨
    ((∀ d ∈ locals, Path.components d ≠ Path.components h) ∧ dirs = locals ++ [h])

end CC
