import Verif.Model.Context
/-
Specification vocabulary for the calls of the setters of `ResolveOptions`.
-/
namespace CC

/-- A call of one of the setters of `ResolveOptions`. -/
inductive OptionCall where
  | rustc (x : EPathAndArgs) | cargo (x : OsStr) | cargoHome (x : Option Path) | hostTriple (x : Str) | env (vars : List (OsStr × OsStr))

/-- What the call does. -/
def OptionCall.run (o : Options) : OptionCall → Options
  | .rustc x => o.withRustc x
  | .cargo x => o.withCargo x
  | .cargoHome x => o.withCargoHome x
  | .hostTriple x => o.withHostTriple x
  | .env vars => o.withEnv vars

/-- Two calls are of the same setter. -/
def OptionCall.Alike : OptionCall → OptionCall → Prop
  | .rustc _, .rustc _ | .cargo _, .cargo _ | .cargoHome _, .cargoHome _ | .hostTriple _, .hostTriple _ | .env _, .env _ => True
  | _, _ => False

/-- `x` is the last call of its setter among `calls`. -/
def LastCall (calls : List OptionCall) (x : OptionCall) : Prop :=
  ∃ before after, calls = before ++ x :: after ∧ ∀ y ∈ after, ¬ x.Alike y

end CC
