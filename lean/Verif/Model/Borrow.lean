import Verif.Model.Query
/-
The queries of `easy::Config` once more, with the run-time checks of the cells: `RefCell::borrow_mut` and `RefCell::borrow` panic if the
cell is in use, `OnceCell::get_or_init` panics if the cell was filled in the meantime ("reentrant init").  The model of Context.lean and
Query.lean leaves these checks out.

The guards of `RefCell` are held to the end of their scope and released in any case, also if a panic unwinds the scope.
-/
namespace CC

/-- The `RefCell`s: `Config::target` of src/easy.rs 102 and `ResolveContext::cfg` of src/resolve.rs 157. -/
inductive RefCellName where
  | target | cfg
deriving DecidableEq, Repr

/-- The guards that are held: the results of `borrow_mut` and of `borrow`. -/
structure Held where
  writing : List RefCellName := []
  reading : List RefCellName := []
deriving DecidableEq, Repr

/-- A computation that uses the cells under their checks. -/
def BAct (α : Type) := World → Cells × Held → Res α × (Cells × Held)

namespace BAct

/-- Continue with `f` on success. -/
def bind {α β : Type} (m : BAct α) (f : α → BAct β) : BAct β := fun w x =>
  match m w x with
  | (.ok a, x) => f a w x
  | (.err e, x) => (.err e, x)
  | (.panic, x) => (.panic, x)

instance : Monad BAct where
  pure a := fun _ x => (.ok a, x)
  bind := bind

/-- A computation that uses no `RefCell`. -/
def of {α : Type} (m : Act α) : BAct α := fun w x => ((m w x.1).1, ((m w x.1).2, x.2))

/-- The outcome `Ok` or `Err` as a value. -/
def attempt {α : Type} (m : BAct α) : BAct (Option α) := fun w x =>
  match m w x with
  | (.ok a, x) => (.ok (some a), x)
  | (.err _, x) => (.ok none, x)
  | (.panic, x) => (.panic, x)

/-- The scope of a guard of `RefCell::borrow_mut`. -/
def borrowMut {α : Type} (c : RefCellName) (m : BAct α) : BAct α := fun w x =>
  if c ∈ x.2.writing ∨ c ∈ x.2.reading then (.panic, x)
  else
    let r := m w (x.1, { x.2 with writing := c :: x.2.writing })
    (r.1, (r.2.1, { r.2.2 with writing := r.2.2.writing.erase c }))

/-- The scope of a guard of `RefCell::borrow`. -/
def borrow {α : Type} (c : RefCellName) (m : BAct α) : BAct α := fun w x =>
  if c ∈ x.2.writing then (.panic, x)
  else
    let r := m w (x.1, { x.2 with reading := c :: x.2.reading })
    (r.1, (r.2.1, { r.2.2 with reading := r.2.2.reading.erase c }))

/-- `OnceCell::get_or_init`. -/
def getOrInit {α : Type} (get : Cells → Option α) (set : α → Cells → Cells) (init : BAct α) : BAct α := do
  match get (← of Act.cells) with
  | some a => pure a
  | none =>
    let a ← init
    match get (← of Act.cells) with
    | some _ => of (Act.lift .panic)
    | none =>
      of (Act.modify (set a))
      pure a

/-- `OnceCell::set`: whether it succeeded. -/
def onceSet {α : Type} (get : Cells → Option α) (set : α → Cells → Cells) (a : α) : BAct Bool := do
  match get (← of Act.cells) with
  | some _ => pure false
  | none =>
    of (Act.modify (set a))
    pure true

end BAct

/-- Models `ResolveContext::rustc` of src/resolve.rs 162-177. -/
def rustcB (cx : Ctx) (b : EBuild) : BAct EPathAndArgs :=
  BAct.getOrInit (·.rustc) (fun r s => { s with rustc := some r }) do
    let rustc ← BAct.of (rustcProgram cx b)
    pure (wrapped (b.rustcWrapper.toList ++ b.rustcWorkspaceWrapper.toList) rustc)

/-- The first attempt of `ResolveContext::host_triple`, src/resolve.rs 196-200: ask cargo. -/
def hostFromCargoB (cx : Ctx) : BAct Str := do
  let vv ← BAct.of (verboseVersion { path := cx.cargo.path, args := [] })
  let v ← BAct.of (Act.lift (cargoVersionOf (EPathAndArgs.vvCmd { path := cx.cargo.path, args := [] }) vv))
  let r ← BAct.onceSet (·.cargoVersion) (fun v s => { s with cargoVersion := some v }) v
  BAct.of (Act.debugAssert r)
  BAct.of (Act.lift (hostTripleOf (EPathAndArgs.vvCmd { path := cx.cargo.path, args := [] }) vv))

/-- The second attempt of `ResolveContext::host_triple`, src/resolve.rs 204-207: ask rustc. -/
def hostFromRustcB (cx : Ctx) (b : EBuild) : BAct Str := do
  let x ← BAct.of (rustcForVersion cx b)
  let vv ← BAct.of (verboseVersion x)
  let v ← BAct.of (Act.lift (rustcVersionOf x.vvCmd vv))
  let r ← BAct.onceSet (·.rustcVersion) (fun v s => { s with rustcVersion := some v }) v
  BAct.of (Act.debugAssert r)
  BAct.of (Act.lift (hostTripleOf x.vvCmd vv))

/-- Models `ResolveContext::host_triple` of src/resolve.rs 192-211. -/
def hostTripleB (cx : Ctx) (b : EBuild) : BAct Str := do
  match (← BAct.of Act.cells).hostTriple with
  | some h => pure h
  | none =>
    let cargoHost ← BAct.attempt (hostFromCargoB cx)
    let host ← match cargoHost with
      | some h => pure h
      | none => hostFromRustcB cx b
    BAct.getOrInit (·.hostTriple) (fun h s => { s with hostTriple := some h }) (pure host)

/-- Models `ResolveContext::rustc_version` of src/resolve.rs 212-223. -/
def rustcVersionB (cx : Ctx) (b : EBuild) : BAct RustcVersion := do
  match (← BAct.of Act.cells).rustcVersion with
  | some v => pure v
  | none =>
    let _ ← BAct.attempt (hostTripleB cx b)
    match (← BAct.of Act.cells).rustcVersion with
    | some v => pure v
    | none =>
      let x ← BAct.of (rustcForVersion cx b)
      let vv ← BAct.of (verboseVersion x)
      let v ← BAct.of (Act.lift (rustcVersionOf x.vvCmd vv))
      BAct.getOrInit (·.rustcVersion) (fun v s => { s with rustcVersion := some v }) (pure v)

/-- Models `ResolveContext::cargo_version` of src/resolve.rs 224-235. -/
def cargoVersionB (cx : Ctx) (b : EBuild) : BAct CargoVersion := do
  match (← BAct.of Act.cells).cargoVersion with
  | some v => pure v
  | none =>
    let _ ← BAct.attempt (hostTripleB cx b)
    match (← BAct.of Act.cells).cargoVersion with
    | some v => pure v
    | none =>
      let vv ← BAct.of (verboseVersion { path := cx.cargo.path, args := [] })
      let v ← BAct.of (Act.lift (cargoVersionOf (EPathAndArgs.vvCmd { path := cx.cargo.path, args := [] }) vv))
      BAct.getOrInit (·.cargoVersion) (fun v s => { s with cargoVersion := some v }) (pure v)

/-- The lookup of `CfgMap::eval_cfg` of src/resolve.rs 307-314. -/
def cfgOfB (cx : Ctx) (b : EBuild) (t : TargetTriple) : BAct CfgSet := do
  match (← BAct.of Act.cells).cfg.get t.cliTarget with
  | some cfg => pure cfg
  | none =>
    let rustc ← rustcB cx b
    let cfg ← BAct.of (cfgFromRustc rustc t)
    BAct.of (Act.modify fun s => { s with cfg := s.cfg.insert t.cliTarget cfg })
    let s ← BAct.of Act.cells
    BAct.of (Act.lift (Res.unwrap (s.cfg.get t.cliTarget)))

/-- Models `ResolveContext::eval_cfg` of src/resolve.rs 283-292 and `CfgMap::eval_cfg` 301-332. -/
def evalCfgB (cx : Ctx) (b : EBuild) (key : Str) (t : TargetTriple) : BAct Bool := fun w x =>
  (do
    let e ← BAct.of (Act.lift (Expression.parse w.checks key))
    BAct.borrowMut .cfg do
      let cfg ← cfgOfB cx b t
      BAct.of (Act.lift (Res.unwrap (e.eval boolLogic cfg.holds)))) w x

/-- The loop of src/de.rs 244-277 over the tables still to be visited. -/
def cfgTablesB (cx : Ctx) (b : EBuild) (t : TargetTriple) : BMap TargetConfig → TargetAcc → BAct TargetAcc
  | [], a => pure a
  | (k, v) :: m, a =>
    if !startsWith "cfg(".toList k then cfgTablesB cx b t m a
    else do
      let holds ← evalCfgB cx b k t
      cfgTablesB cx b t m (if holds then a.addCfg v else a)

/-- Models `de::Config::resolve_target` of src/de.rs 190-312. -/
def resolveTargetB (cx : Ctx) (targets : BMap TargetConfig) (overrideRustflags : Bool) (buildRustflags : Option Flags)
    (overrideRustdocflags : Bool) (buildRustdocflags : Option Flags) (t : TargetTriple) (b : EBuild) :
    BAct (Option TargetConfig) :=
  if startsWith "cfg(".toList t.triple then
    BAct.of (Act.lift (.err (.other "'{}' is not valid target triple".toList [t.triple])))
  else do
    let a ← BAct.of (Act.lift ((TargetAcc.start (targets.get t.triple)).applyEnv cx.env t.triple))
    let a ← cfgTablesB cx b t targets a
    pure (a.finish overrideRustflags buildRustflags overrideRustdocflags buildRustdocflags)

/-- Models `easy::Config::init_target_config` of src/easy.rs 313-333: the guard is held to the end. -/
def EConfig.initTargetB (c : EConfig) (t : TargetTriple) : BAct Unit :=
  BAct.borrowMut .target do
    match (← BAct.of Act.cells).target.get t.cliTarget with
    | some _ => pure ()
    | none =>
      let tc ← resolveTargetB c.cx c.deTarget c.build.overrideTargetRustflags c.build.deRustflags
        c.build.overrideTargetRustdocflags c.build.deRustdocflags t c.build
      let et ← BAct.of (Act.lift (ETarget.fromUnresolved c.cx.currentDir (tc.getD {})))
      BAct.of (Act.modify fun s => { s with target := s.target.insert t.cliTarget et })

/-- `self.init_target_config(&target)?; self.target.borrow()[target.cli_target()]` of src/easy.rs 337-338, 343-344, 352-353, 358-359 and
367-368. -/
def EConfig.targetEntryB (c : EConfig) (t : TargetTriple) : BAct ETarget := do
  c.initTargetB t
  BAct.borrow .target do
    let s ← BAct.of Act.cells
    BAct.of (Act.lift (Res.unwrap (s.target.get t.cliTarget)))

/-- Models `easy::Config::build_target_for_config` of src/easy.rs 267-280, after the targets were collected. -/
def EConfig.buildTargetForConfigB (c : EConfig) (targets : List TargetTriple) : BAct (List TargetTriple) :=
  if !targets.isEmpty then pure targets
  else
    let configTargets := c.build.target.getD []
    if !configTargets.isEmpty then pure configTargets
    else do
      let host ← hostTripleB c.cx c.build
      let t ← BAct.of (Act.lift (TargetTriple.ofStr host))
      pure [t]

/-- The queries of `easy::Config`, src/easy.rs 267-416, with the checks of the cells. -/
def EConfig.askB (c : EConfig) : Query → BAct Answer
  | .target t => do return .target (← c.targetEntryB t)
  | .linker t => do return .path (← c.targetEntryB t).linker
  | .runner t => do return .prog (← c.targetEntryB t).runner
  | .rustflags t => do return .flags (← c.targetEntryB t).rustflags
  | .rustdocflags t => do return .flags (← c.targetEntryB t).rustdocflags
  | .rustc => do return .rustc (← rustcB c.cx c.build)
  | .hostTriple => do return .host (← hostTripleB c.cx c.build)
  | .rustcVersion => do return .rustcVersion (← rustcVersionB c.cx c.build)
  | .cargoVersion => do return .cargoVersion (← cargoVersionB c.cx c.build)
  | .buildTargetForConfig ts => do return .targets (← c.buildTargetForConfigB ts)
  | .buildTargetForCli ts => BAct.of (Act.map .strings (c.buildTargetForCli ts))

/-- Models `Clone for Config` and `Clone for ResolveContext` (derived; src/easy.rs 31, src/resolve.rs 148): cloning a `RefCell` borrows it.
Also the first check of serialization, `ref_cell_bree_map_is_empty` of src/easy.rs 121-123, which borrows `target`. -/
def inspectB : BAct Cells := do
  BAct.borrow .target (pure ())
  BAct.borrow .cfg (pure ())
  BAct.of Act.cells

/-! ### User code inside of queries -/

/-- A call of a query.  The arguments are converted by code of the caller (`Into`, `IntoIterator`, `AsRef` of src/easy.rs 267-311 and
335-369), which may itself make calls on the same config. -/
inductive Call where
  | mk (c : EConfig) (inner : List Call) (q : Query)

mutual
/-- The call: first the conversions, of which the outcome does not matter here, then the query itself.  (A conversion that panics is left
out.) -/
def Call.run : Call → BAct Answer
  | .mk c inner q => fun w x => c.askB q w (Call.runAll inner w x).2

/-- The calls one after the other. -/
def Call.runAll : List Call → BAct Unit
  | [] => pure ()
  | k :: ks => fun w x => Call.runAll ks w (k.run w x).2
end

end CC
