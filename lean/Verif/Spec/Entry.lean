import Verif.Model.Entry
import Verif.Spec.Walk
import Verif.Spec.EndToEnd
/-
Words for the statements about the ways to load a config (C72) and about values made in code (C73).
-/
namespace CC

/-- The iterator in the state `st` produces the paths `l` and then ends, if the file system does not change. -/
inductive Yields (ex : Path → Bool) : WalkState → List Path → Prop where
  | done {st st' : WalkState} : st.next ex = (none, st') → Yields ex st []
  | more {st st' : WalkState} {f : Path} {l : List Path} : st.next ex = (some f, st') → Yields ex st' l → Yields ex st (f :: l)

/-- A path at which a config file is looked for. -/
def Candidate (cwd : Path) (home : Option Path) (f : Path) : Prop :=
  ∃ dirs d, SearchDirs cwd home dirs ∧ d ∈ dirs ∧ (f = Path.join d "config".toList ∨ f = Path.join d "config.toml".toList)

/-- The two file systems agree on which of the candidates exist, and on what is read from those that apply. -/
def SameConfigs (cwd : Path) (home : Option Path) (fs fs' : Fs) : Prop :=
  (∀ f, Candidate cwd home f → fs.ex f = fs'.ex f) ∧
  ∀ dirs files f, SearchDirs cwd home dirs → ConfigsOf fs.ex dirs files → f ∈ files → fs.read f = fs'.read f

/-- The command `x` was made by `PathAndArgs::new` with `path` and any number of calls of `arg` and `args` that together passed `args`. -/
inductive Built : EPathAndArgs → Path → List Str → Prop where
  | new (path : Path) : Built (EPathAndArgs.new path) path []
  | arg {x : EPathAndArgs} {path : Path} {args : List Str} (s : Str) : Built x path args → Built (x.arg s) path (args ++ [s])
  | args {x : EPathAndArgs} {path : Path} {args : List Str} (l : List Str) : Built x path args → Built (x.addArgs l) path (args ++ l)

end CC
