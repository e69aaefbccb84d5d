import Verif.Spec.Load
import Verif.Model.Load
/-
Specification vocabulary for adding a config file to a hierarchy.
-/
namespace CC

/-- `fs'` is `fs` with a further file `f`, which hides no other config file: if it is the `config` of a directory, the directory has no
`config.toml`. -/
structure AddedFile (fs fs' : Fs) (f : Path) : Prop where
  absent : fs.ex f = false
  present : fs'.ex f = true
  others : ∀ p, p ≠ f → fs'.ex p = fs.ex p ∧ fs'.read p = fs.read p
  hides : ∀ d, f = Path.join d "config".toList → fs.ex (Path.join d "config.toml".toList) = false

/-- The value comes from the file `f`. -/
def Val.isFrom {α : Type} (f : Path) (v : Val α) : Bool := v.defn = some (.path f)

end CC
