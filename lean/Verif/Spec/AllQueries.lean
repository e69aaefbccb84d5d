import Verif.Spec.Queries
/-
Specification vocabulary for programs with several clones of a config.
-/
namespace CC

/-- No query was asked yet: nothing but the host triple, which the caller may have given, is stored. -/
structure Untouched (s : Cells) : Prop where
  fresh : Fresh s
  cargo : s.cargoVersion = none
  rustc : s.rustcVersion = none

/-- A step of a program with several clones of a config: ask the `i`th one, or clone the `i`th one. -/
inductive CloneStep where
  | ask (i : Nat) (q : Query)
  | clone (i : Nat)

/-- All targets in the step were made by one of the constructors. -/
def CloneStep.Proper : CloneStep → Prop
  | .ask _ q => q.Proper
  | .clone _ => True

/-- The cells of each clone after a step.  Each clone has cells of its own, which are copied by cloning (`Clone` is derived in
src/easy.rs 31 and src/resolve.rs 148).  A clone that does not exist is not asked. -/
def CloneStep.run (c : EConfig) (w : World) (pool : List Cells) : CloneStep → List Cells
  | .ask i q =>
    match pool[i]? with
    | some s => pool.set i (c.ask q w s).2
    | none => pool
  | .clone i =>
    match pool[i]? with
    | some s => pool ++ [s]
    | none => pool

/-- The cells of each clone after a program that starts with one config. -/
def afterProgram (c : EConfig) (w : World) (steps : List CloneStep) (s : Cells) : List Cells :=
  steps.foldl (CloneStep.run c w) [s]

end CC
