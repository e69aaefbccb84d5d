import Verif.Spec.Settings
/-
Specification of what the config files say about a setting, leaving out which files say it.
-/
namespace CC

/-- What the documents have at `path`, nearest first, without the names of the files. -/
def valuesAt (path : List Str) (docs : List (Path × Toml)) : List Toml :=
  docs.filterMap fun (_, t) => t.at path

end CC
