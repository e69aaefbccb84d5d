import Verif.Spec.EndToEnd
import Verif.Spec.Spelling
/-
Specification vocabulary for a setting that is stated either in the environment or in the config file of the current directory.
-/
namespace CC

/-- The two names of the config file of the current directory. -/
def IsConfigHere (cwd f : Path) : Prop :=
  f = Path.join (Path.join cwd ".cargo".toList) "config".toList ∨ f = Path.join (Path.join cwd ".cargo".toList) "config.toml".toList

/-- The first variable of the setting that is set stands for `a`. -/
def ScalarKey.InEnv (look : Str → Option OsStr) (k : ScalarKey) (a : Atom) : Prop :=
  ∃ n, readEnv look k.consulted = some (some (n, some a))

/-- No variable of the setting is set, and the config file of the current directory has the value `a` for it. -/
def ScalarKey.InFileHere (cwd : Path) (look : Str → Option OsStr) (docs : List (Path × Toml)) (k : ScalarKey) (a : Atom) : Prop :=
  (∀ n ∈ k.sources.map Prod.fst, look n = none) ∧
  ∃ f t rest, docs = (f, t) :: rest ∧ IsConfigHere cwd f ∧ t.at (k.path t.envIsTable) = some a.toml

/-- The first variable of the list that is set stands for the strings `ws`. -/
def ListKey.InEnv (look : Str → Option OsStr) (k : ListKey) (ws : List Str) : Prop :=
  ∃ n r, readEnv look k.sources = some (some (n, (r, ws)))

/-- No variable of the list is set, the config file of the current directory has the strings `ws` for it, and no other config file
mentions it. -/
def ListKey.InFileHere (cwd : Path) (look : Str → Option OsStr) (docs : List (Path × Toml)) (k : ListKey) (ws : List Str) : Prop :=
  (∀ n ∈ k.sources.map Prod.fst, look n = none) ∧
  ∃ f t rest x r, docs = (f, t) :: rest ∧ IsConfigHere cwd f ∧ t.at k.path = some x ∧ TomlList k.splits x r ws ∧
    ∀ f' t', (f', t') ∈ rest → t'.at k.path = none

/-- Two targets that are the same: equal triples, and the same spec file, if any. -/
def SameTarget (t t' : TargetTriple) : Prop := t.triple = t'.triple ∧ OptionRel SamePath t.specPath t'.specPath

end CC
