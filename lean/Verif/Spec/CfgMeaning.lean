import Verif.Spec.CfgCompose
import Verif.Spec.TargetOutcome
import Verif.Spec.Settings
/-
Specification vocabulary for cfg keys that mean the same.
-/
namespace CC

/-- For the cfgs of every compiler the keys are both true, both false, or both not accepted. -/
def SameMeaning (checks : Bool) (x y : Str) : Prop := ∀ cs b, KeyValue checks cs x b ↔ KeyValue checks cs y b

/-- `ks` are the keys `cfg(..)` of the documents, in order. -/
structure CfgKeysOf (docs : List (Path × Toml)) (ks : List Str) : Prop where
  ordered : ks.Pairwise Precedes
  listed : ∀ k, k ∈ ks ↔ CfgKeyIn docs k

end CC
