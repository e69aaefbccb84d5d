import Verif.Model.Merge
import Verif.Model.Walk
/-
Loading the hierarchy of config files (src/de.rs 117-172).
-/
namespace CC

/-- The file system as seen by one load: which paths exist, and the outcome of `fs::read_to_string`.  Simplification:
it does not change during one load (Model/LoadTime.lean lifts this). -/
structure Fs where
  ex : Path → Bool
  read : Path → Res Str

/-- Models `Config::_load_file` of src/de.rs 164-172.  `parse` is `toml_edit::de::from_str::<Config>`. -/
def loadFile (fs : Fs) (parse : Str → Res Config) (path : Path) : Res Config := do
  let buf ← (fs.read path).withContext "failed to read `{}`".toList [path] []
  let config ← (parse buf).withContext "failed to parse `{}` as cargo configuration".toList [path] []
  .ok (config.setPath path)

/-- The loop of `Config::_load_with_options` of src/de.rs 141-153 over the paths still to be produced by the walk. -/
def loadLoop (fs : Fs) (parse : Str → Res Config) : List Path → Option (Path × Config) → Res (Option (Path × Config))
  | [], base => .ok base
  | path :: paths, base => do
    let config ← loadFile fs parse path
    match base with
    | none => loadLoop fs parse paths (some (path, config))
    | some (basePath, b) =>
      let b ← (mergeConfig b config false).withContext "failed to merge config from `{}` into `{}`".toList
        [path, basePath] []
      loadLoop fs parse paths (some (basePath, b))

/-- The rest of `Config::_load_with_options` of src/de.rs 140-154, given the paths which the walk produces. -/
def loadPaths (fs : Fs) (parse : Str → Res Config) (paths : List Path) : Res Config := do
  let base ← loadLoop fs parse paths none
  match base with
  | some (_, c) => .ok c
  | none => .ok {}

/-- Models `Config::_load_with_options` of src/de.rs 136-155 (`load_with_options` 130-135). -/
def loadConfig (fs : Fs) (parse : Str → Res Config) (cwd : Path) (home : Option Path) : Res Config :=
  loadPaths fs parse (walk fs.ex cwd home)

end CC
