import Verif.Spec.Settings
/-
Specification vocabulary for entries of `[env]`, which may be written as a string or as a table.
-/
namespace CC

/-- A flag of a table stands for `b`: it is written, or it is left out and `b` is `false`. -/
def FlagIs (x : Option Toml) (b : Bool) : Prop := x = some (.bool b) ∨ (x = none ∧ b = false)

/-- `EnvEntry x t force relative`: the TOML value `x` of an entry of `[env]` stands for the text `t` with these flags. -/
inductive EnvEntry : Toml → Str → Bool → Bool → Prop where
  | text (t : Str) : EnvEntry (.str t) t false false
  | table (l : List (Str × Toml)) (t : Str) (force relative : Bool) : (Toml.tbl l).at ["value".toList] = some (.str t) →
      FlagIs ((Toml.tbl l).at ["force".toList]) force → FlagIs ((Toml.tbl l).at ["relative".toList]) relative →
      EnvEntry (.tbl l) t force relative

end CC
