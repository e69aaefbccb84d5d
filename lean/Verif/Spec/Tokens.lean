import Verif.Model.Easy
import Verif.Model.Load
/-
Specification vocabulary for authentication tokens: what it means that two inputs or outputs differ only in the texts of tokens.
-/
namespace CC

/-- A token without its text. -/
def blank (t : Option (Val Str)) : Option (Val Str) := t.map fun v => { v with val := [] }

/-- A configuration without the texts of the tokens. -/
def Config.redact (c : Config) : Config :=
  { c with
    registries := c.registries.mapVals fun r => { r with token := blank r.token }
    registry := { c.registry with token := blank c.registry.token } }

/-- The configurations differ at most in the texts of tokens. -/
def SameButTokens (c c' : Config) : Prop := c.redact = c'.redact

/-- A resolved configuration without the texts of the tokens (in its tables). -/
def EConfig.redact (c : EConfig) : EConfig :=
  { c with
    registries := c.registries.mapVals fun r => { r with token := r.token.map fun _ => [] }
    registry := { c.registry with token := c.registry.token.map fun _ => [] } }

/-- The variables that hold tokens. -/
def TokenVar (n : Str) : Prop :=
  n = "CARGO_REGISTRY_TOKEN".toList ∨ ∃ k, n = "CARGO_REGISTRIES_".toList ++ k ++ "_TOKEN".toList

/-- Both texts are valid Unicode or neither is. -/
def SameValidity : OsStr → OsStr → Prop
  | .unicode _, .unicode _ => True
  | .invalid _, .invalid _ => True
  | _, _ => False

/-- The environments have the same variables, and these have the same values except for variables that hold tokens. -/
inductive SameEnvButTokens : Env → Env → Prop
  | nil : SameEnvButTokens [] []
  | same (e : Str × OsStr) {env env' : Env} : SameEnvButTokens env env' → SameEnvButTokens (e :: env) (e :: env')
  | token {n : Str} {v v' : OsStr} {env env' : Env} : TokenVar n → SameValidity v v' → SameEnvButTokens env env' →
      SameEnvButTokens ((n, v) :: env) ((n, v') :: env')

/-- The resolved configurations differ at most in the texts of tokens, in their tables and in the environment they keep. -/
structure SameEConfig (c c' : EConfig) : Prop where
  tables : { c.redact with cx := { c.cx with env := [] } } = { c'.redact with cx := { c'.cx with env := [] } }
  env : SameEnvButTokens c.cx.env c'.cx.env

/-- The outcomes are both successful, with results differing at most in tokens, or both the same failure. -/
def SameOutcome {α : Type} (same : α → α → Prop) : Res α → Res α → Prop
  | .ok a, .ok b => same a b
  | .err e, .err e' => e = e'
  | .panic, .panic => True
  | _, _ => False

/-- The same files exist in both, and each of them has the same text, or fails to be read for the same reason, or can be parsed in both
and differs only in the texts of tokens. -/
structure SameFilesButTokens (parse : Str → Res Config) (fs fs' : Fs) : Prop where
  ex : ∀ p, fs.ex p = fs'.ex p
  read : ∀ p, fs.read p = fs'.read p ∨
    ∃ s s' c c', fs.read p = .ok s ∧ fs'.read p = .ok s' ∧ parse s = .ok c ∧ parse s' = .ok c' ∧ SameButTokens c c'

end CC
