import Verif.Model.Env
import Verif.Spec.Env
import Verif.Spec.CfgExpr
/-
Specification vocabulary for the target-specific settings, from the Cargo reference.

Of the model only data types, and `Expression.parse`/`eval` (see C35 and C36) are used.
-/
namespace CC

/-- A character of a triple in the name of an environment variable. -/
def envChar (c : Char) : Char :=
  if c = '-' ∨ c = '.' then '_' else if 97 ≤ c.toNat ∧ c.toNat ≤ 122 then Char.ofNat (c.toNat - 32) else c

/-- `CARGO_TARGET_<TRIPLE>_<KEY>`. -/
def targetEnvName (triple : Str) (key : String) : Str :=
  "CARGO_TARGET_".toList ++ triple.map envChar ++ ['_'] ++ key.toList

/-- The text of a variable. -/
def envText (env : Env) (n : Str) : Option Str :=
  match env.get n with
  | some (.unicode s) => some s
  | _ => none

/-- Keys of the form `cfg(..`. -/
def isCfgKey (k : Str) : Bool := k.take 4 = "cfg(".toList

/-- The key is accepted and has the truth value `b` for the compiler's cfg set. -/
def KeyValue (checks : Bool) (cs : CfgSet) (k : Str) (b : Bool) : Prop :=
  ∃ e, Expression.parse checks k = .ok e ∧ e.eval boolLogic cs.holds = some b

/-- `holds` gives the truth values of the cfg keys of the table, for the cfg set `cs` (which must be known if there is such a key). -/
def Evaluated (checks : Bool) (targets : BMap TargetConfig) (cs : Option CfgSet) (holds : Str → Bool) : Prop :=
  ∀ k v, (k, v) ∈ targets → isCfgKey k = true → ∃ c, cs = some c ∧ KeyValue checks c k (holds k)

/-- The matching cfg tables in the order of their keys. -/
def matching (targets : BMap TargetConfig) (holds : Str → Bool) : List TargetConfig :=
  (targets.filter fun e => isCfgKey e.1 && holds e.1).map Prod.snd

/-- The linker: the environment, the table of the triple, the first matching table that has one. -/
def theLinker (env : Env) (targets : BMap TargetConfig) (holds : Str → Bool) (triple : Str) : Option (Val Str) :=
  firstSome ((envText env (targetEnvName triple "LINKER")).map
      (fun s => ⟨s, some (.environment (targetEnvName triple "LINKER"))⟩) ::
    (targets.get triple).bind (·.linker) :: (matching targets holds).map (·.linker))

/-- A runner as a list of words. -/
def PathAndArgs.words (x : PathAndArgs) : List (Val Str) := x.path :: x.args

/-- The runner: the environment, the table of the triple, the first matching table that has one. -/
def theRunner (env : Env) (targets : BMap TargetConfig) (holds : Str → Bool) (triple : Str) : Option (List (Val Str)) :=
  firstSome ((envText env (targetEnvName triple "RUNNER")).map
      (fun s => (wordsIn s).map fun w => ⟨w, some (.environment (targetEnvName triple "RUNNER"))⟩) ::
    (targets.get triple).bind (·.runner.map PathAndArgs.words) :: (matching targets holds).map (·.runner.map PathAndArgs.words))

/-- The lists that are present one after the other, if any is present. -/
def joined {α : Type} (l : List (Option (List α))) : Option (List α) :=
  if l.all Option.isNone then none else some (l.flatMap fun x => x.getD [])

/-- Flags without the places they come from. -/
def Flags.texts (f : Flags) : List Str := f.flags.map Val.val

/-- The sources of the rustflags of a target, except `build.rustflags`. -/
def rustflagsSources (env : Env) (targets : BMap TargetConfig) (holds : Str → Bool) (triple : Str) : List (Option (List Str)) :=
  (targets.get triple).bind (·.rustflags.map Flags.texts) ::
    (envText env (targetEnvName triple "RUSTFLAGS")).map wordsIn ::
    (matching targets holds).map (·.rustflags.map Flags.texts)

/-- The sources of the rustdocflags of a target, except `build.rustdocflags`. -/
def rustdocflagsSources (env : Env) (targets : BMap TargetConfig) (triple : Str) : List (Option (List Str)) :=
  [(targets.get triple).bind (·.rustdocflags.map Flags.texts),
    (envText env (targetEnvName triple "RUSTDOCFLAGS")).map wordsIn]

end CC
