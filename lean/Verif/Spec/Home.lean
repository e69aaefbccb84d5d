import Verif.Model.Path
/-
Specification of where `CARGO_HOME` comes from.
-/
namespace CC

/-- The directory used as `CARGO_HOME` by a process with the variable `CARGO_HOME` (if set) and the home directory (if any). -/
inductive HomeRule (cwd : Path) : Option Path → Option Path → Option Path → Prop where
  | absolute (v : Path) (home : Option Path) : (∃ r, v = '/' :: r) → HomeRule cwd (some v) home (some v)
  | relative (v : Path) (home : Option Path) : v ≠ [] → (¬ ∃ r, v = '/' :: r) → HomeRule cwd (some v) home (some (Path.join cwd v))
  | unset (var : Option Path) (home : Path) : var = none ∨ var = some [] →
      HomeRule cwd var (some home) (some (Path.join home ".cargo".toList))
  | nothing (var : Option Path) : var = none ∨ var = some [] → HomeRule cwd var none none

end CC
