import Verif.Spec.Queries
import Verif.Spec.Tools
/-
Specification vocabulary for the number of processes started.
-/
namespace CC

/-- The number of queries of a history that fail. -/
def failedQueries (w : World) : List (EConfig × Query) → Cells → Nat
  | [], _ => 0
  | (c, q) :: qs, s => (if (c.ask q w s).1.isOk then 0 else 1) + failedQueries w qs (c.ask q w s).2

/-- All targets asked about in a history are among `targets` (as passed to `--target`). -/
def AsksAbout (targets : List Str) (qs : List (EConfig × Query)) : Prop :=
  ∀ c q t, (c, q) ∈ qs → q.targetOf = some t → t.cliTarget ∈ targets

end CC
