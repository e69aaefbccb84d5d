import Verif.Spec.EndToEnd
/-
Which documents speak about a setting.
-/
namespace CC

/-- The documents that have something at `path`, in order, with what they have there. -/
def saidAt (path : List Str) (docs : List (Path × Toml)) : List (Path × Toml) :=
  docs.filterMap fun (f, t) => (t.at path).map fun x => (f, x)

/-- Where a single-valued setting is found; the three settings of an entry of `[env]` are taken together, as their place depends on
whether the entry is a table. -/
def ScalarKey.place : ScalarKey → List Str
  | .envValue k | .envForce k | .envRelative k => ["env".toList, k]
  | k => k.path fun _ => none

end CC
