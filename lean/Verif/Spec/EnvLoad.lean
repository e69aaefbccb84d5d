import Verif.Model.Query
import Verif.Model.Serde
import Verif.Spec.Env
/-
Specification vocabulary for what environment variables can change: outcomes of loading that agree, and configs that cannot be told
apart by reading their fields or by asking queries.
-/
namespace CC

/-- The two configs have equal fields (the environment kept for later queries aside), and every query on them does the same: in every
world and state it returns the same, runs the same commands and leaves the same state. -/
structure Indistinguishable (c c' : EConfig) : Prop where
  fields : { c with cx := { c.cx with env := [] } } = { c' with cx := { c'.cx with env := [] } }
  queries : ∀ (q : Query) (w : World) (s : Cells), c.ask q w s = c'.ask q w s

/-- Loading gave the same in both cases: configs that cannot be told apart, in equal states, or an error, or a panic. -/
def LoadsAlike : Res (EConfig × Cells) → Res (EConfig × Cells) → Prop
  | .ok (c, s), .ok (c', s') => Indistinguishable c c' ∧ s = s'
  | .err _, .err _ => True
  | .panic, .panic => True
  | _, _ => False

/-- The variable makes a difference: there are two lists of variables that give the same values to all other variables, and two
successful loads, equal but for these lists, whose results can be told apart by a field or a query. -/
def MakesADifference (n : Str) : Prop :=
  ∃ (p : ProcEnv) (fs : Fs) (toml : Str → Res Toml) (cwd : Path) (o : Options) (vars vars' : List (OsStr × OsStr))
    (c c' : EConfig) (s s' : Cells),
    (∀ m, m ≠ n → lastValue vars m = lastValue vars' m) ∧
    EConfig.loadWithOptions p fs (fun s => toml s >>= Config.de) cwd (o.withEnv vars) = .ok (c, s) ∧
    EConfig.loadWithOptions p fs (fun s => toml s >>= Config.de) cwd (o.withEnv vars') = .ok (c', s') ∧
    ¬ Indistinguishable c c'

end CC
