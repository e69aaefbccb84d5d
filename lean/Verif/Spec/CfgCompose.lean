import Verif.Spec.CfgExpr
import Verif.Spec.TargetDocs
/-
Specification vocabulary for cfg keys composed of others.
-/
namespace CC

/-- The key of the expression `p`. -/
def cfgKey (p : Str) : Str := "cfg(".toList ++ p ++ ")".toList

/-- Operands, separated by commas. -/
def operands : List Str → Str
  | [] => []
  | [p] => p
  | p :: q :: ps => p ++ ", ".toList ++ operands (q :: ps)

/-- A function with its operands, as it is written. -/
def FnName.call (f : FnName) (ps : List Str) : Str := f.token.text ++ "(".toList ++ operands ps ++ ")".toList

/-- `p` is an expression of the grammar, in which no function has more than 255 functions as operands. -/
def IsExpr (p : Str) : Prop := ∃ t, IsCfg (cfgKey p) t ∧ t.AllFns Narrow

end CC
