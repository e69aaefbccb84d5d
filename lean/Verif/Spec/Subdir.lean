import Verif.Spec.Walk
import Verif.Spec.Moved
/-
Specification vocabulary for loading in a directory and in one below it.

Of the model only data types and the model of paths are used.
-/
namespace CC

/-- `sub` is below `top`: going from `sub` to its parents one passes the directories `between`, nearest first, and comes to `top`. -/
def Below (sub top : Path) (between : List Path) : Prop := Path.ancestors sub = between ++ Path.ancestors top

/-- The Cargo home is not the `.cargo` of one of the directories. -/
def HomeOutside (home : Option Path) (between : List Path) : Prop :=
  ∀ h, home = some h → ∀ d ∈ between, Path.components (Path.join d ".cargo".toList) ≠ Path.components h

/-- Directories to which relative paths are joined in `top` and in `sub`: the two directories for what comes from variables, the same for
what comes from files. -/
inductive SameOrCurrent (top sub : Path) : Path → Path → Prop where
  | current : SameOrCurrent top sub top sub
  | same (d : Path) : SameOrCurrent top sub d d

end CC
