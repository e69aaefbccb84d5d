import Verif.Model.Lists
import Verif.Spec.Text
/-
Specification vocabulary for flags that one program hands on to another in the environment.
-/
namespace CC

/-- The flags `f` were written with `Flags::encode` to the variable `encoded`.  Lists for which that is not reversible are left out (see
C50): the empty one, and those that begin with an empty flag. -/
def SentEncoded (look : Str → Option OsStr) (encoded : String) (f : EFlags) : Prop :=
  (f.flags = [[]] ∨ ∃ w ws, f.flags = w :: ws ∧ w ≠ []) ∧
  ∃ text, f.encode = .ok text ∧ look encoded.toList = some (.unicode text)

/-- The flags `f`, which are words, were written with `Flags::encode_space_separated` to the variable `plain`, and `encoded`, which would
be preferred, is not set. -/
def SentPlain (look : Str → Option OsStr) (encoded plain : String) (f : EFlags) : Prop :=
  (∀ w ∈ f.flags, Word w) ∧ look encoded.toList = none ∧
  ∃ text, f.encodeSpaceSeparated = .ok text ∧ look plain.toList = some (.unicode text)

/-- A program that means the same wherever it is stated: an absolute path, or a name that is searched in PATH. -/
def PortableProgram (text : Str) : Prop := (∃ r, text = '/' :: r) ∨ ('/' ∉ text ∧ '\\' ∉ text)

end CC
