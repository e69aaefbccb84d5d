import Verif.Model.Query
/-
The ways to load a config and to look for config files (src/de.rs 117-163, src/easy.rs 125-135, src/walk.rs 106-123).

`current` is the outcome of `std::env::current_dir()`.
-/
namespace CC

/-- Models `de::Config::load_with_cwd` of src/de.rs 124-127. -/
def Config.loadWithCwd (p : ProcEnv) (fs : Fs) (parse : Str → Res Config) (cwd : Path) : Res Config :=
  loadConfig fs parse cwd (p.cargoHomeWithCwd cwd)

/-- Models `de::Config::load` of src/de.rs 119-121. -/
def Config.load (current : Res Path) (p : ProcEnv) (fs : Fs) (parse : Str → Res Config) : Res Config := do
  let cwd ← current.withContext "failed to get current directory".toList [] []
  Config.loadWithCwd p fs parse cwd

/-- Models `easy::Config::load_with_cwd` of src/easy.rs 132-135. -/
def EConfig.loadWithCwd (p : ProcEnv) (fs : Fs) (parse : Str → Res Config) (cwd : Path) : Res (EConfig × Cells) :=
  EConfig.loadWithOptions p fs parse cwd {}

/-- Models `easy::Config::load` of src/easy.rs 127-129. -/
def EConfig.load (current : Res Path) (p : ProcEnv) (fs : Fs) (parse : Str → Res Config) : Res (EConfig × Cells) := do
  let cwd ← current.withContext "failed to get current directory".toList [] []
  EConfig.loadWithCwd p fs parse cwd

/-- Models `Walk::new` of src/walk.rs 108-110. -/
def WalkState.newIn (p : ProcEnv) (cwd : Path) : WalkState := WalkState.new cwd (p.cargoHomeWithCwd cwd)

end CC
