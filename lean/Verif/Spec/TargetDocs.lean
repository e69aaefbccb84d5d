import Verif.Spec.EndToEnd
import Verif.Spec.TargetQuery
import Verif.Spec.Queries
/-
Specification of the settings of a target in terms of the TOML documents found and the environment.
-/
namespace CC

/-- Order of strings: a proper prefix comes first, otherwise the first difference decides. -/
def Precedes (a b : Str) : Prop :=
  (∃ c r, b = a ++ c :: r) ∨ ∃ p x y r r', a = p ++ x :: r ∧ b = p ++ y :: r' ∧ x.toNat < y.toNat

/-- Some document has a table `[target.<k>]`. -/
def HasTable (docs : List (Path × Toml)) (k : Str) : Prop := ∃ f t, (f, t) ∈ docs ∧ t.at ["target".toList, k] ≠ none

/-- `ks` are the keys `cfg(..)` of all documents that are true for the compiler's cfg set `cs`, in order; and all keys `cfg(..)` are
accepted. -/
structure CfgTables (checks : Bool) (docs : List (Path × Toml)) (cs : Option CfgSet) (ks : List Str) : Prop where
  ordered : ks.Pairwise Precedes
  listed : ∀ k, k ∈ ks ↔ isCfgKey k = true ∧ HasTable docs k ∧ ∃ c, cs = some c ∧ KeyValue checks c k true
  accepted : ∀ k, isCfgKey k = true → HasTable docs k → ∃ c b, cs = some c ∧ KeyValue checks c k b

/-- `cs` was printed by a run of the compiler `r` for the target, apart from line ends at the end of the output (for the lines of
the output see C40). -/
def PrintedCfg (w : World) (r : EPathAndArgs) (t : TargetTriple) (cs : CfgSet) : Prop :=
  ∃ n text ends, w.run n ⟨r.path, r.args ++ ["--print".toList, "cfg".toList, "--target".toList, t.cliTarget]⟩ =
      .succeeded (.unicode (text ++ ends)) ∧ (∀ c ∈ ends, c = '\n' ∨ c = '\r') ∧ CfgSet.parse text = some cs

/-- The variables of the target are text, and the runner is not blank. -/
def TargetVars (look : Str → Option OsStr) (triple : Str) : Prop :=
  (∀ key ∈ ["LINKER", "RUNNER", "RUSTFLAGS", "RUSTDOCFLAGS"], ∀ bs, look (targetEnvName triple key) ≠ some (.invalid bs)) ∧
  ∀ text, look (targetEnvName triple "RUNNER") = some (.unicode text) → ¬ Blank text

/-- The text of a variable. -/
def textOf (look : Str → Option OsStr) (n : Str) : Option Str :=
  match look n with
  | some (.unicode s) => some s
  | _ => none

/-- The strings of a list. -/
def textsOf (x : Option (Repr' × List (Val Str))) : Option (List Str) := x.map fun x => x.2.map Val.val

end CC
