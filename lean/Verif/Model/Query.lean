import Verif.Model.Context
import Verif.Model.Load
/-
Target-specific configuration (`de::Config::resolve_target`, src/de.rs 190-312) and the public queries of `easy::Config`
(src/easy.rs 121-416).
-/
namespace CC

/-! ### `resolve_target` -/

/-- `match &mut old { Some(f) => f.flags.append(new), None => old = Some(new) }` of src/de.rs 225-230, 237-242 and 269-274. -/
def extendFlags (old : Option Flags) (new : Flags) : Option Flags :=
  match old with
  | some f => some { f with flags := f.flags ++ new.flags }
  | none => some new

/-- The local variables `target_linker`, `target_runner`, `target_rustflags` and `target_rustdocflags` of `resolve_target`. -/
structure TargetAcc where
  linker : Option (Val Str)
  runner : Option PathAndArgs
  rustflags : Option Flags
  rustdocflags : Option Flags
deriving DecidableEq, Repr

/-- The values `take`n from the table of the triple, src/de.rs 207-212. -/
def TargetAcc.start (tc : Option TargetConfig) : TargetAcc :=
  { linker := tc.bind (·.linker), runner := tc.bind (·.runner), rustflags := tc.bind (·.rustflags),
    rustdocflags := tc.bind (·.rustdocflags) }

/-- The name of a variable for the target, src/de.rs 213, 216, 222 and 233. -/
def targetVar (triple suffix : Str) : Str := "CARGO_TARGET_".toList ++ targetUUpper triple ++ '_' :: suffix

/-- `target_linker = Some(linker)` if the variable is set, src/de.rs 213-215. -/
def envLinker (old x : Option (Val Str)) : Option (Val Str) :=
  match x with
  | some v => some v
  | none => old

/-- `target_runner = Some(..)` if the variable is set, src/de.rs 216-221. -/
def envRunner (old : Option PathAndArgs) (x : Option (Val Str)) : Res (Option PathAndArgs) :=
  match x with
  | some v =>
    match PathAndArgs.fromString v.val v.defn with
    | some r => .ok (some r)
    | none => .err (.context "invalid length 0, expected at least one element".toList [] [] none)
  | none => .ok old

/-- The flags of the variable are appended if it is set, src/de.rs 222-231 and 232-243. -/
def envFlags (old : Option Flags) (x : Option (Val Str)) : Option Flags :=
  match x with
  | some v => extendFlags old (Flags.fromSpaceSeparated v.val v.defn)
  | none => old

/-- The environment variables of the target, src/de.rs 213-243. -/
def TargetAcc.applyEnv (env : Env) (triple : Str) (a : TargetAcc) : Res TargetAcc := do
  let x1 ← env.var (targetVar triple "LINKER".toList)
  let x2 ← env.var (targetVar triple "RUNNER".toList)
  let runner ← envRunner a.runner x2
  let x3 ← env.var (targetVar triple "RUSTFLAGS".toList)
  let x4 ← env.var (targetVar triple "RUSTDOCFLAGS".toList)
  pure { linker := envLinker a.linker x1, runner := runner, rustflags := envFlags a.rustflags x3,
         rustdocflags := envFlags a.rustdocflags x4 }

/-- The body of the loop of src/de.rs 244-277 for a table that matches. -/
def TargetAcc.addCfg (a : TargetAcc) (v : TargetConfig) : TargetAcc :=
  let a := if a.linker.isNone then
      match v.linker with
      | some l => { a with linker := some l }
      | none => a
    else a
  let a := if a.runner.isNone then
      match v.runner with
      | some r => { a with runner := some r }
      | none => a
    else a
  match v.rustflags with
  | some f => { a with rustflags := extendFlags a.rustflags f }
  | none => a

/-- The loop of src/de.rs 244-277 over the tables still to be visited. -/
def cfgTables (cx : Ctx) (b : EBuild) (t : TargetTriple) : BMap TargetConfig → TargetAcc → Act TargetAcc
  | [], a => pure a
  | (k, v) :: m, a =>
    if !startsWith "cfg(".toList k then cfgTables cx b t m a
    else do
      let holds ← evalCfg cx b k t
      cfgTables cx b t m (if holds then a.addCfg v else a)

/-- `target_config.get_or_insert_with(TargetConfig::default).rustflags = ..` with the choice of src/de.rs 284-296 and 297-310. -/
def chooseFlags (override : Bool) (target build : Option Flags) : Option Flags :=
  if override then build
  else match target with
    | some f => some f
    | none => build

/-- The end of `resolve_target`, src/de.rs 278-311: a table is created in any case. -/
def TargetAcc.finish (a : TargetAcc) (overrideRustflags : Bool) (buildRustflags : Option Flags)
    (overrideRustdocflags : Bool) (buildRustdocflags : Option Flags) : Option TargetConfig :=
  some { linker := a.linker
         runner := a.runner
         rustflags := chooseFlags overrideRustflags a.rustflags buildRustflags
         rustdocflags := chooseFlags overrideRustdocflags a.rustdocflags buildRustdocflags }

/-- Models `de::Config::resolve_target` of src/de.rs 190-312. -/
def resolveTarget (cx : Ctx) (targets : BMap TargetConfig) (overrideRustflags : Bool) (buildRustflags : Option Flags)
    (overrideRustdocflags : Bool) (buildRustdocflags : Option Flags) (t : TargetTriple) (b : EBuild) :
    Act (Option TargetConfig) :=
  if startsWith "cfg(".toList t.triple then
    Act.lift (.err (.other "'{}' is not valid target triple".toList [t.triple]))
  else do
    let a ← Act.lift ((TargetAcc.start (targets.get t.triple)).applyEnv cx.env t.triple)
    let a ← cfgTables cx b t targets a
    pure (a.finish overrideRustflags buildRustflags overrideRustdocflags buildRustdocflags)

/-! ### `easy::Config` -/

/-- Models `easy::Config::load_with_options` of src/easy.rs 138-144. -/
def EConfig.loadWithOptions (p : ProcEnv) (fs : Fs) (parse : Str → Res Config) (cwd : Path) (o : Options) : Res (EConfig × Cells) :=
  let (cx, s) := o.intoContext p cwd
  let (home, s) := s.cargoHomeOf p cwd
  loadConfig fs parse cx.currentDir home >>= fun de =>
    EConfig.fromUnresolved de cx >>= fun c => .ok (c, s)

/-- Models `easy::Config::init_target_config` of src/easy.rs 313-333. -/
def EConfig.initTarget (c : EConfig) (t : TargetTriple) : Act Unit := do
  let s ← Act.cells
  match s.target.get t.cliTarget with
  | some _ => pure ()
  | none =>
    let tc ← resolveTarget c.cx c.deTarget c.build.overrideTargetRustflags c.build.deRustflags
      c.build.overrideTargetRustdocflags c.build.deRustdocflags t c.build
    let et ← Act.lift (ETarget.fromUnresolved c.cx.currentDir (tc.getD {}))
    Act.modify fun s => { s with target := s.target.insert t.cliTarget et }

/-- `self.init_target_config(&target)?; self.target.borrow()[target.cli_target()]`; the index panics without the entry. -/
def EConfig.targetEntry (c : EConfig) (t : TargetTriple) : Act ETarget := do
  c.initTarget t
  let s ← Act.cells
  Act.lift (Res.unwrap (s.target.get t.cliTarget))

/-- Models `easy::Config::target` of src/easy.rs 335-339, for a target given as `TargetTriple`. -/
def EConfig.target (c : EConfig) (t : TargetTriple) : Act ETarget := c.targetEntry t
/-- Models `easy::Config::linker` of src/easy.rs 341-345. -/
def EConfig.linker (c : EConfig) (t : TargetTriple) : Act (Option Path) := do return (← c.targetEntry t).linker
/-- Models `easy::Config::runner` of src/easy.rs 347-354. -/
def EConfig.runner (c : EConfig) (t : TargetTriple) : Act (Option EPathAndArgs) := do return (← c.targetEntry t).runner
/-- Models `easy::Config::rustflags` of src/easy.rs 356-360. -/
def EConfig.rustflags (c : EConfig) (t : TargetTriple) : Act (Option EFlags) := do return (← c.targetEntry t).rustflags
/-- Models `easy::Config::rustdocflags` of src/easy.rs 362-369. -/
def EConfig.rustdocflags (c : EConfig) (t : TargetTriple) : Act (Option EFlags) := do return (← c.targetEntry t).rustdocflags

/-- Models `easy::Config::rustc` of src/easy.rs 379-381. -/
def EConfig.rustc (c : EConfig) : Act EPathAndArgs := queryRustc c.cx c.build
/-- Models `easy::Config::cargo` of src/easy.rs 387-389. -/
def EConfig.cargo (c : EConfig) : OsStr := c.cx.cargo
/-- Models `easy::Config::host_triple` of src/easy.rs 391-393. -/
def EConfig.hostTriple (c : EConfig) : Act Str := queryHostTriple c.cx c.build
/-- Models `easy::Config::rustc_version` of src/easy.rs 408-410. -/
def EConfig.rustcVersion (c : EConfig) : Act RustcVersion := queryRustcVersion c.cx c.build
/-- Models `easy::Config::cargo_version` of src/easy.rs 414-416. -/
def EConfig.cargoVersion (c : EConfig) : Act CargoVersion := queryCargoVersion c.cx c.build

/-- Models `easy::Config::build_target_for_config` of src/easy.rs 267-280, for targets given as `TargetTriple`s. -/
def EConfig.buildTargetForConfig (c : EConfig) (targets : List TargetTriple) : Act (List TargetTriple) :=
  if !targets.isEmpty then pure targets
  else
    let configTargets := c.build.target.getD []
    if !configTargets.isEmpty then pure configTargets
    else do
      let host ← c.hostTriple
      let t ← Act.lift (TargetTriple.ofStr host)
      pure [t]

/-- Models `easy::Config::build_target_for_cli` of src/easy.rs 298-311. -/
def EConfig.buildTargetForCli (c : EConfig) (targets : List Str) : Act (List Str) :=
  if !targets.isEmpty then pure targets
  else
    let configTargets := c.build.target.getD []
    if !configTargets.isEmpty then pure (configTargets.map TargetTriple.cliTarget)
    else pure []

/-! ### Sequences of queries -/

/-- A query on `easy::Config`. -/
inductive Query where
  | target (t : TargetTriple) | linker (t : TargetTriple) | runner (t : TargetTriple)
  | rustflags (t : TargetTriple) | rustdocflags (t : TargetTriple)
  | rustc | hostTriple | rustcVersion | cargoVersion
  | buildTargetForConfig (targets : List TargetTriple) | buildTargetForCli (targets : List Str)
deriving DecidableEq, Repr

/-- What a query returns. -/
inductive Answer where
  | target (x : ETarget) | path (x : Option Path) | prog (x : Option EPathAndArgs) | flags (x : Option EFlags)
  | rustc (x : EPathAndArgs) | host (x : Str) | rustcVersion (v : RustcVersion) | cargoVersion (v : CargoVersion)
  | targets (x : List TargetTriple) | strings (x : List Str)
deriving DecidableEq, Repr

/-- Apply a function to the result. -/
def Act.map {α β : Type} (f : α → β) (m : Act α) : Act β := fun w s =>
  match m w s with
  | (.ok a, s) => (.ok (f a), s)
  | (.err e, s) => (.err e, s)
  | (.panic, s) => (.panic, s)

/-- A query on a config: dispatches to the functions above. -/
def EConfig.ask (c : EConfig) : Query → Act Answer
  | .target t => (c.target t).map .target
  | .linker t => (c.linker t).map .path
  | .runner t => (c.runner t).map .prog
  | .rustflags t => (c.rustflags t).map .flags
  | .rustdocflags t => (c.rustdocflags t).map .flags
  | .rustc => c.rustc.map .rustc
  | .hostTriple => c.hostTriple.map .host
  | .rustcVersion => c.rustcVersion.map .rustcVersion
  | .cargoVersion => c.cargoVersion.map .cargoVersion
  | .buildTargetForConfig ts => (c.buildTargetForConfig ts).map .targets
  | .buildTargetForCli ts => (c.buildTargetForCli ts).map .strings

/-- The cells after a sequence of queries.  The public fields of the config may be changed by its owner in between, so that each query
comes with the config as it is at that time.  A query that fails or panics keeps what it changed. -/
def afterQueries (w : World) : List (EConfig × Query) → Cells → Cells
  | [], s => s
  | (c, q) :: qs, s => afterQueries w qs (c.ask q w s).2

end CC
