import Verif.Model.Target
/-
Specification vocabulary for target strings.
-/
namespace CC

/-- The target string names a target-spec file: it contains a separator or is something with the extension `json`. -/
def NamesSpecFile (s : Str) : Prop :=
  '/' ∈ s ∨ '\\' ∈ s ∨ ∃ stem, stem ≠ [] ∧ s = stem ++ ".json".toList

/-- The last component of the path is a file name `f`. -/
def EndsInFile (p : Path) (f : Str) : Prop := (Path.components p).getLast? = some (.normal f)

/-- `stem` is the file name `f` without its extension: without the last dot and what follows, unless nothing would be left. -/
def IsStem (f stem : Str) : Prop :=
  (∃ ext, '.' ∉ ext ∧ stem ≠ [] ∧ f = stem ++ '.' :: ext) ∨
  (stem = f ∧ ∀ a ext, '.' ∉ ext → f = a ++ '.' :: ext → a = [])

/-- The ways in which a target comes into being: from a string given by the user, from `build.target`, or by deserialization. -/
def Constructed (t : TargetTriple) : Prop :=
  ∃ (s : Str) (d : Option Definition) (cwd : Option Path), TargetTriple.new s d cwd = .ok t

end CC
