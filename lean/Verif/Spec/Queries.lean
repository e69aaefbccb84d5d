import Verif.Model.Query
import Verif.Spec.TargetQuery
import Verif.Spec.Target
/-
Specification vocabulary for sequences of queries.
-/
namespace CC

/-- The target of a target query. -/
def Query.targetOf : Query → Option TargetTriple
  | .target t | .linker t | .runner t | .rustflags t | .rustdocflags t => some t
  | _ => none

/-- What a target query returns of the resolved target. -/
def Query.view : Query → ETarget → Answer
  | .linker _, e => .path e.linker
  | .runner _, e => .prog e.runner
  | .rustflags _, e => .flags e.rustflags
  | .rustdocflags _, e => .flags e.rustdocflags
  | _, e => .target e

/-- All targets in the query were made by one of the constructors. -/
def Query.Proper (q : Query) : Prop := ∀ t, q.targetOf = some t → Constructed t

/-- The outside world answers the same question always in the same way. -/
def Steady (w : World) : Prop := ∀ n m, w.run n = w.run m ∧ w.exist n = w.exist m

/-- No target was resolved and no compiler was asked for its cfg set yet. -/
def Fresh (s : Cells) : Prop := s.target = [] ∧ s.cfg = []

/-- The cells after a sequence of queries to the same config. -/
def afterAll (c : EConfig) (w : World) (qs : List Query) (s : Cells) : Cells := afterQueries w (qs.map fun q => (c, q)) s

/-- Reasons for which a target cannot be resolved: it looks like a cfg expression, or a table has a malformed key. -/
def BadTarget (checks : Bool) (tables : BMap TargetConfig) (t : TargetTriple) : Prop :=
  isCfgKey t.triple = true ∨ ∃ k v, (k, v) ∈ tables ∧ isCfgKey k = true ∧ ∀ e, Expression.parse checks k ≠ .ok e

/-- The command asks a compiler for the cfg set of the target `k`. -/
def AsksCfg (k : Str) (cmd : Cmd) : Prop :=
  ∃ pre, cmd.args = pre ++ ["--print".toList, "cfg".toList, "--target".toList, k]


end CC
