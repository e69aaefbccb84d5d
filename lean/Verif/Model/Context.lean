import Verif.Model.Easy
import Verif.Model.Version
import Verif.Model.Walk
import Verif.Model.CfgExpr
/-
Options, the resolve context with its lazily filled cells, and the external processes (src/resolve.rs 33-332).

Queries are functions from the world and the current cells to an outcome and the new cells.
-/
namespace CC

/-! ### Options -/

/-- An OS string used as a path.  Simplification: a path is a sequence of characters; of an OS string that is not Unicode each byte
is one. -/
def OsStr.path : OsStr → Path
  | .unicode s => s
  | .invalid b => b.map Char.ofNat

/-- Models `ResolveOptions` of src/resolve.rs 34-41. -/
structure Options where
  env : Option Env := none
  rustc : Option EPathAndArgs := none
  cargo : Option OsStr := none
  cargoHome : Option (Option Path) := none
  hostTriple : Option Str := none
deriving DecidableEq, Repr

/-- Models `ResolveOptions::rustc` of src/resolve.rs 49-52. -/
def Options.withRustc (o : Options) (rustc : EPathAndArgs) : Options := { o with rustc := some rustc }
/-- Models `ResolveOptions::cargo` of src/resolve.rs 58-61. -/
def Options.withCargo (o : Options) (cargo : OsStr) : Options := { o with cargo := some cargo }
/-- Models `ResolveOptions::cargo_home` of src/resolve.rs 71-74. -/
def Options.withCargoHome (o : Options) (home : Option Path) : Options := { o with cargoHome := some home }
/-- Models `ResolveOptions::host_triple` of src/resolve.rs 80-83. -/
def Options.withHostTriple (o : Options) (triple : Str) : Options := { o with hostTriple := some triple }
/-- Models `ResolveOptions::env` of src/resolve.rs 93-107. -/
def Options.withEnv (o : Options) (vars : List (OsStr × OsStr)) : Options := { o with env := some (optEnv vars) }

/-- The environment and home directory of the process: `std::env::vars_os` and `home_dir()`. -/
structure ProcEnv where
  vars : List (OsStr × OsStr) := []
  home : Option Path := none
deriving DecidableEq, Repr

/-- `std::env::var_os(name)`. -/
def ProcEnv.varOs (p : ProcEnv) (name : Str) : Option OsStr :=
  (p.vars.find? fun e => e.1 == .unicode name).map Prod.snd

/-! ### Cells, world, actions -/

/-- Models `From<PathAndArgs> for Command`, `From<&PathAndArgs> for Command` and `From<&PathAndArgs> for ProcessBuilder` of src/easy.rs
1228-1244 with further arguments. -/
def EPathAndArgs.cmd (x : EPathAndArgs) (more : List Str) : Cmd := { program := x.path, args := x.args ++ more }

/-- The parts of `easy::Config` and `ResolveContext` that have interior mutability: `target` (src/easy.rs 101) and the cells of
src/resolve.rs 151-157.  The two maps are keyed by `cli_target`.  Also: a clock that counts the interactions with the outside world, and
the commands run so far. -/
structure Cells where
  rustc : Option EPathAndArgs := none
  cargoHome : Option (Option Path) := none
  hostTriple : Option Str := none
  rustcVersion : Option RustcVersion := none
  cargoVersion : Option CargoVersion := none
  cfg : BMap CfgSet := []
  target : BMap ETarget := []
  clock : Nat := 0
  trace : List Cmd := []
deriving DecidableEq, Repr

/-- The outside world: whether the library was built with debug assertions and overflow checks, and what happens at each time when a
command is run or a path is tested for existence. -/
structure World where
  checks : Bool
  run : Nat → Cmd → ProcOut
  exist : Nat → Path → Bool

/-- A computation of the library with access to the cells and the outside world. -/
def Act (α : Type) := World → Cells → Res α × Cells

namespace Act

/-- Continue with `f` on success; the cells keep their changes in any case. -/
def bind {α β : Type} (m : Act α) (f : α → Act β) : Act β := fun w s =>
  match m w s with
  | (.ok a, s) => f a w s
  | (.err e, s) => (.err e, s)
  | (.panic, s) => (.panic, s)

instance : Monad Act where
  pure a := fun _ s => (.ok a, s)
  bind := bind

/-- A computation that does not use the cells. -/
def lift {α : Type} (r : Res α) : Act α := fun _ s => (r, s)

/-- Read the cells. -/
def cells : Act Cells := fun _ s => (.ok s, s)

/-- Change the cells. -/
def modify (f : Cells → Cells) : Act Unit := fun _ s => (.ok (), f s)

/-- The outcome `Ok` or `Err` as a value. -/
def attempt {α : Type} (m : Act α) : Act (Option α) := fun w s =>
  match m w s with
  | (.ok a, s) => (.ok (some a), s)
  | (.err _, s) => (.ok none, s)
  | (.panic, s) => (.panic, s)

/-- `Path::exists`. -/
def exist (p : Path) : Act Bool := fun w s => (.ok (w.exist s.clock p), { s with clock := s.clock + 1 })

/-- `Command::output`. -/
def spawn (c : Cmd) : Act ProcOut := fun w s =>
  (.ok (w.run s.clock c), { s with clock := s.clock + 1, trace := s.trace ++ [c] })

/-- Models `ProcessBuilder::read` of src/process.rs 67-74. -/
def read (c : Cmd) : Act Str := do
  let o ← spawn c
  lift (procRead c o)

/-- `debug_assert!(b)`. -/
def debugAssert (b : Bool) : Act Unit := fun w s => (if w.checks && !b then .panic else .ok (), s)

end Act

/-! ### The context -/

/-- Models `ResolveOptions::into_context` of src/resolve.rs 110-143: the constant part and the cells. -/
def Options.intoContext (o : Options) (p : ProcEnv) (currentDir : Path) : Ctx × Cells :=
  let o := if o.env.isNone then o.withEnv p.vars else o
  let env := o.env.getD []
  let cargo := match o.cargo with
    | some cargo => cargo
    | none => (env.get "CARGO".toList).getD (.unicode "cargo".toList)
  ({ env := env, cargo := cargo, currentDir := currentDir },
    { rustc := o.rustc, cargoHome := o.cargoHome, hostTriple := o.hostTriple })

/-- Models `walk::cargo_home_with_cwd` of src/walk.rs 51-65 in the given process. -/
def ProcEnv.cargoHomeWithCwd (p : ProcEnv) (cwd : Path) : Option Path :=
  CC.cargoHomeWithCwd ((p.varOs "CARGO_HOME".toList).map OsStr.path) p.home cwd

/-- Models `ResolveContext::cargo_home` of src/resolve.rs 189-191. -/
def Cells.cargoHomeOf (s : Cells) (p : ProcEnv) (cwd : Path) : Option Path × Cells :=
  match s.cargoHome with
  | some h => (h, s)
  | none => (p.cargoHomeWithCwd cwd, { s with cargoHome := some (p.cargoHomeWithCwd cwd) })

/-- `PathBuf::pop`. -/
def Path.pop (p : Path) : Path := (Path.parent p).getD p

/-- Models `rustc_path` of src/resolve.rs 637-650 (`EXE_SUFFIX` is empty on Unix). -/
def rustcPath (cargo : Path) : Act Path := do
  let rustc := Path.join (Path.pop cargo) "rustc".toList
  if ← Act.exist rustc then pure rustc else pure "rustc".toList

/-- `build_config.rustc.as_ref().map_or_else(|| rustc_path(&self.cargo), PathBuf::from)` of src/resolve.rs 166-167 and 180-181. -/
def rustcProgram (cx : Ctx) (b : EBuild) : Act Path :=
  match b.rustc with
  | some p => pure p
  | none => rustcPath cx.cargo.path

/-- The first of `wrappers` and `rustc` as program, the others as arguments: src/resolve.rs 170-175 and 183-187. -/
def wrapped (wrappers : List Path) (rustc : Path) : EPathAndArgs :=
  match wrappers with
  | [] => { path := rustc, args := [] }
  | w :: ws => { path := w, args := ws ++ [rustc] }

/-- Models `ResolveContext::rustc` of src/resolve.rs 162-177. -/
def queryRustc (cx : Ctx) (b : EBuild) : Act EPathAndArgs := do
  let s ← Act.cells
  match s.rustc with
  | some r => pure r
  | none =>
    let rustc ← rustcProgram cx b
    let r := wrapped (b.rustcWrapper.toList ++ b.rustcWorkspaceWrapper.toList) rustc
    Act.modify fun s => { s with rustc := some r }
    pure r

/-- Models `ResolveContext::rustc_for_version` of src/resolve.rs 178-188. -/
def rustcForVersion (cx : Ctx) (b : EBuild) : Act EPathAndArgs := do
  let rustc ← rustcProgram cx b
  pure (wrapped b.rustcWrapper.toList rustc)

/-- The command of `verbose_version`. -/
def EPathAndArgs.vvCmd (x : EPathAndArgs) : Cmd := x.cmd ["-vV".toList]

/-- Models `verbose_version` of src/resolve.rs 592-599.  (The code returns the command, too; here the callers name it.) -/
def verboseVersion (x : EPathAndArgs) : Act Str := Act.read x.vvCmd

/-- `let r = self.cargo_version.set(v); debug_assert!(r.is_ok())` of src/resolve.rs 197-198. -/
def setCargoVersion (v : CargoVersion) : Act Unit := do
  let s ← Act.cells
  match s.cargoVersion with
  | some _ => Act.debugAssert false
  | none => Act.modify fun s => { s with cargoVersion := some v }

/-- `let r = self.rustc_version.set(v); debug_assert!(r.is_ok())` of src/resolve.rs 205-206. -/
def setRustcVersion (v : RustcVersion) : Act Unit := do
  let s ← Act.cells
  match s.rustcVersion with
  | some _ => Act.debugAssert false
  | none => Act.modify fun s => { s with rustcVersion := some v }

/-- The first attempt of `ResolveContext::host_triple`, src/resolve.rs 196-200: ask cargo. -/
def hostFromCargo (cx : Ctx) : Act Str := do
  let vv ← verboseVersion { path := cx.cargo.path, args := [] }
  let v ← Act.lift (cargoVersionOf (EPathAndArgs.vvCmd { path := cx.cargo.path, args := [] }) vv)
  setCargoVersion v
  Act.lift (hostTripleOf (EPathAndArgs.vvCmd { path := cx.cargo.path, args := [] }) vv)

/-- The second attempt of `ResolveContext::host_triple`, src/resolve.rs 204-207: ask rustc. -/
def hostFromRustc (cx : Ctx) (b : EBuild) : Act Str := do
  let r ← rustcForVersion cx b
  let vv ← verboseVersion r
  let v ← Act.lift (rustcVersionOf r.vvCmd vv)
  setRustcVersion v
  Act.lift (hostTripleOf r.vvCmd vv)

/-- Models `ResolveContext::host_triple` of src/resolve.rs 192-211. -/
def queryHostTriple (cx : Ctx) (b : EBuild) : Act Str := do
  let s ← Act.cells
  match s.hostTriple with
  | some h => pure h
  | none =>
    let cargoHost ← Act.attempt (hostFromCargo cx)
    let host ← match cargoHost with
      | some h => pure h
      | none => hostFromRustc cx b
    Act.modify fun s => { s with hostTriple := some host }
    pure host

/-- Models `ResolveContext::rustc_version` of src/resolve.rs 212-223. -/
def queryRustcVersion (cx : Ctx) (b : EBuild) : Act RustcVersion := do
  let s ← Act.cells
  match s.rustcVersion with
  | some v => pure v
  | none =>
    let _ ← Act.attempt (queryHostTriple cx b)
    let s ← Act.cells
    match s.rustcVersion with
    | some v => pure v
    | none =>
      let r ← rustcForVersion cx b
      let vv ← verboseVersion r
      let v ← Act.lift (rustcVersionOf r.vvCmd vv)
      Act.modify fun s => { s with rustcVersion := some v }
      pure v

/-- Models `ResolveContext::cargo_version` of src/resolve.rs 224-235. -/
def queryCargoVersion (cx : Ctx) (b : EBuild) : Act CargoVersion := do
  let s ← Act.cells
  match s.cargoVersion with
  | some v => pure v
  | none =>
    let _ ← Act.attempt (queryHostTriple cx b)
    let s ← Act.cells
    match s.cargoVersion with
    | some v => pure v
    | none =>
      let vv ← verboseVersion { path := cx.cargo.path, args := [] }
      let v ← Act.lift (cargoVersionOf (EPathAndArgs.vvCmd { path := cx.cargo.path, args := [] }) vv)
      Act.modify fun s => { s with cargoVersion := some v }
      pure v

/-! ### Evaluating cfg tables -/

/-- Models `Cfg::from_rustc` of src/resolve.rs 341-345. -/
def cfgFromRustc (rustc : EPathAndArgs) (t : TargetTriple) : Act CfgSet := do
  let list ← Act.read (rustc.cmd ["--print".toList, "cfg".toList, "--target".toList, t.cliTarget])
  Act.lift (Res.unwrap (CfgSet.parse list))

/-- The lookup of `CfgMap::eval_cfg` of src/resolve.rs 307-314. -/
def cfgOf (cx : Ctx) (b : EBuild) (t : TargetTriple) : Act CfgSet := do
  let s ← Act.cells
  match s.cfg.get t.cliTarget with
  | some c => pure c
  | none =>
    let rustc ← queryRustc cx b
    let c ← cfgFromRustc rustc t
    Act.modify fun s => { s with cfg := s.cfg.insert t.cliTarget c }
    pure c

/-- Models `ResolveContext::eval_cfg` of src/resolve.rs 283-292 and `CfgMap::eval_cfg` 301-332. -/
def evalCfg (cx : Ctx) (b : EBuild) (key : Str) (t : TargetTriple) : Act Bool := fun w s =>
  (do
    let e ← Act.lift (Expression.parse w.checks key)
    let c ← cfgOf cx b t
    Act.lift (Res.unwrap (e.eval boolLogic c.holds))) w s

end CC
