import Verif.Spec.Moved
/-
Specification vocabulary for paths that are written differently.
-/
namespace CC

/-- The paths are equal as `Path`s: they have the same components.  Repeated and trailing slashes and inner `.` do not count. -/
def SamePath (a b : Path) : Prop := Path.components a = Path.components b

/-- A file system in which paths that differ only in how they are written name the same file. -/
def Fs.BySamePath (fs : Fs) : Prop := ∀ f f', SamePath f f' → fs.ex f = fs.ex f' ∧ fs.read f = fs.read f'

/-- Two calls that differ only in how the directory and the Cargo home are written; `home` and `home'` are the Cargo homes. -/
structure Respelled (p p' : ProcEnv) (o o' : Options) (cwd cwd' : Path) (home home' : Option Path) : Prop where
  vars : o.env.isSome = true ∨ p.vars = p'.vars
  options : ∃ h, o' = { o with cargoHome := h }
  directory : SamePath cwd cwd'
  here : HomeOf p o cwd home
  there : HomeOf p' o' cwd' home'
  homes : OptionRel SamePath home home'
  proper : ∀ h, home = some h → Path.components h ≠ [] ∧ Path.components h ≠ [.root]

end CC
