import Verif.Spec.Outcome
import Verif.Spec.Tools
import Verif.Spec.TargetDocs
/-
Specification of when the query for a target succeeds, fails and panics.

Of the model only data types, the cfg parser and the query for the compiler are used.
-/
namespace CC

/-- The documents have the key `k`, which is a `cfg(..)`. -/
def CfgKeyIn (docs : List (Path × Toml)) (k : Str) : Prop := isCfgKey k = true ∧ HasTable docs k

/-- The compiler, asked for the cfg set of the target in the state `s`, prints `text`. -/
def CompilerPrints (c : EConfig) (w : World) (s : Cells) (t : TargetTriple) (text : Str) : Prop :=
  ∃ r s1, c.rustc w s = (.ok r, s1) ∧
    Printed (w.run s1.clock ⟨r.path, r.args ++ ["--print".toList, "cfg".toList, "--target".toList, t.cliTarget]⟩) text

/-- The settings of the target can be determined: the target is not a `cfg(..)`, its variables are usable, all keys `cfg(..)` are
accepted, and, if there are any, the compiler answers. -/
structure Determined (look : Str → Option OsStr) (docs : List (Path × Toml)) (c : EConfig) (w : World) (s : Cells) (t : TargetTriple) :
    Prop where
  triple : isCfgKey t.triple = false
  variables : TargetVars look t.triple
  keys : ∀ k, CfgKeyIn docs k → ∃ e, Expression.parse w.checks k = .ok e
  compiler : (∃ k, CfgKeyIn docs k) → ∃ text, CompilerPrints c w s t text

/-- The linker and the runner of the target can be located, if the keys `ks` apply: relative paths need a base directory. -/
structure ProgramsPlaced (look : Str → Option OsStr) (docs : List (Path × Toml)) (t : TargetTriple) (ks : List Str) : Prop where
  linker : ∀ text d, firstSome ((textOf look (targetEnvName t.triple "LINKER")).map
        (fun text => (Toml.str text, .environment (targetEnvName t.triple "LINKER"))) ::
      (t.triple :: ks).map fun k => (ScalarKey.targetLinker k).source look docs) = some (.str text, d) → ProgramPlaced text d
  runner : ∀ ys, ListRel (fun k y => ProgKey.Source look docs (.targetRunner k) y) (t.triple :: ks) ys → ∀ text d args,
    firstSome ((textOf look (targetEnvName t.triple "RUNNER")).map
        (fun text => (wordsIn text).map fun w => ⟨w, some (.environment (targetEnvName t.triple "RUNNER"))⟩) ::
      ys.map (Option.map Prod.snd)) = some (⟨text, some d⟩ :: args) → ProgramPlaced text d

/-- The keys `ks` apply to the target. -/
def Apply (docs : List (Path × Toml)) (c : EConfig) (w : World) (s : Cells) (t : TargetTriple) (ks : List Str) : Prop :=
  ((∀ k, ¬ CfgKeyIn docs k) ∧ ks = []) ∨
  ∃ text cs, CompilerPrints c w s t text ∧ CfgSet.parse text = some cs ∧ CfgTables w.checks docs (some cs) ks

/-- The key `k` is looked at: the keys before it are accepted, and, if there are any, the compiler answers. -/
structure Reached (docs : List (Path × Toml)) (c : EConfig) (w : World) (s : Cells) (t : TargetTriple) (k : Str) : Prop where
  key : CfgKeyIn docs k
  accepted : ∀ k', Precedes k' k → CfgKeyIn docs k' → ∃ e, Expression.parse w.checks k' = .ok e
  compiler : (∃ k', Precedes k' k ∧ CfgKeyIn docs k') → ∃ text, CompilerPrints c w s t text

/-- The first key is accepted, but the compiler does not answer. -/
structure Unprinted (docs : List (Path × Toml)) (c : EConfig) (w : World) (s : Cells) (t : TargetTriple) : Prop where
  first : ∃ k, (CfgKeyIn docs k ∧ ∀ k', Precedes k' k → ¬ CfgKeyIn docs k') ∧ ∃ e, Expression.parse w.checks k = .ok e
  compiler : ¬ ∃ text, CompilerPrints c w s t text

end CC
