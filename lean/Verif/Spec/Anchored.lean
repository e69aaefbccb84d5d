import Verif.Spec.EasyDoc
/-
Specification of paths that mean the same in every working directory.
-/
namespace CC

/-- A path of a program that means the same whatever the working directory of the process that starts it is: it starts at the root
directory, or is a plain name that is looked up in the directories of `PATH`. -/
def Anchored (p : Path) : Prop := Absolute p ∨ ('/' ∉ p ∧ '\\' ∉ p)

/-- The Cargo home, if there is one, is an absolute path other than the root directory. -/
def HomeAbsolute (home : Option Path) : Prop := ∀ h, home = some h → Absolute h ∧ Path.components h ≠ [.root]

end CC
