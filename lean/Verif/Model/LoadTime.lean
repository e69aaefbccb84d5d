import Verif.Model.Query
/-
Loading once more, with a file system that may change at any time.  Load.lean takes the file system to be fixed during a load; here every
access to it (`Path::exists`, `fs::read_to_string`) sees the state of its own moment.  The walk is lazy: each config file is read before
the next one is searched for.
-/
namespace CC

/-- An access to the file system: a test for existence with its answer, or reading a file. -/
inductive FsEvent where
  | test (p : Path) (found : Bool)
  | read (p : Path)
deriving DecidableEq, Repr

/-- The outcomes of the accesses: the time is the number of accesses made before. -/
structure ChangingFs where
  ex : Nat → Path → Bool
  read : Nat → Path → Res Str

/-- `Path::exists` (std), given the accesses made so far. -/
def testT (fs : ChangingFs) (p : Path) (l : List FsEvent) : Bool × List FsEvent :=
  (fs.ex l.length p, l ++ [.test p (fs.ex l.length p)])

/-- Models `config_path` of src/walk.rs 23-39. -/
def configPathT (fs : ChangingFs) (path : Path) (l : List FsEvent) : Option Path × List FsEvent :=
  let config := Path.join path "config".toList
  match testT fs config l with
  | (true, l) => (some config, l)
  | (false, l) =>
    let config := Path.join path "config.toml".toList
    match testT fs config l with
    | (true, l) => (some config, l)
    | (false, l) => (none, l)

/-- Models `<WalkInner as Iterator>::next` of src/walk.rs 85-97. -/
def walkNextT (fs : ChangingFs) : List Path → Option Path → List FsEvent → (Option Path × WalkState) × List FsEvent
  | [], home, l =>
    match home with
    | none => ((none, ⟨[], none⟩), l)
    | some h => (((configPathT fs h l).1, ⟨[], none⟩), (configPathT fs h l).2)
  | a :: as, home, l =>
    let p := Path.join a ".cargo".toList
    let home := dedupHome p home
    match configPathT fs p l with
    | (some f, l) => ((some f, ⟨as, home⟩), l)
    | (none, l) => walkNextT fs as home l

/-- Models `Config::_load_file` of src/de.rs 164-172. -/
def loadFileT (fs : ChangingFs) (parse : Str → Res Config) (path : Path) (l : List FsEvent) : Res Config × List FsEvent :=
  ((do
    let buf ← (fs.read l.length path).withContext "failed to read `{}`".toList [path] []
    let config ← (parse buf).withContext "failed to parse `{}` as cargo configuration".toList [path] []
    .ok (config.setPath path)), l ++ [.read path])

/-- The loop of `Config::_load_with_options` of src/de.rs 141-153, with at most `n` calls of `next`. -/
def loadLoopT (fs : ChangingFs) (parse : Str → Res Config) :
    Nat → WalkState → Option (Path × Config) → List FsEvent → Res (Option (Path × Config)) × List FsEvent
  | 0, _, base, l => (.ok base, l)
  | n + 1, st, base, l =>
    match walkNextT fs st.ancestors st.cargoHome l with
    | ((none, _), l) => (.ok base, l)
    | ((some path, st), l) =>
      match loadFileT fs parse path l with
      | (.err e, l) => (.err e, l)
      | (.panic, l) => (.panic, l)
      | (.ok config, l) =>
        match base with
        | none => loadLoopT fs parse n st (some (path, config)) l
        | some (basePath, b) =>
          match (mergeConfig b config false).withContext "failed to merge config from `{}` into `{}`".toList
            [path, basePath] [] with
          | .err e => (.err e, l)
          | .panic => (.panic, l)
          | .ok b => loadLoopT fs parse n st (some (basePath, b)) l

/-- Models `Config::_load_with_options` of src/de.rs 136-155 (`load_with_options` 130-135).  The bound on the number of calls is never
reached, as for `walk`. -/
def loadConfigT (fs : ChangingFs) (parse : Str → Res Config) (cwd : Path) (home : Option Path) : Res Config × List FsEvent :=
  match loadLoopT fs parse ((Path.ancestors cwd).length + 2) (WalkState.new cwd home) none [] with
  | (.ok base, l) => (.ok (match base with
    | some (_, c) => c
    | none => {}), l)
  | (.err e, l) => (.err e, l)
  | (.panic, l) => (.panic, l)

/-- Models `easy::Config::load_with_options` of src/easy.rs 138-144. -/
def EConfig.loadWithOptionsT (p : ProcEnv) (fs : ChangingFs) (parse : Str → Res Config) (cwd : Path) (o : Options) :
    Res (EConfig × Cells) × List FsEvent :=
  let (cx, s) := o.intoContext p cwd
  let (home, s) := s.cargoHomeOf p cwd
  ((loadConfigT fs parse cx.currentDir home).1 >>= fun de =>
    EConfig.fromUnresolved de cx >>= fun c => .ok (c, s), (loadConfigT fs parse cx.currentDir home).2)

end CC
