import Verif.Model.Env
import Verif.Model.Target
/-
The resolved configuration `easy::Config` (src/easy.rs) and its construction from `de::Config`.
-/
namespace CC

/-- Models `easy::BuildConfig` of src/easy.rs 437-528. -/
structure EBuild where
  jobs : Option Int := none
  rustc : Option Path := none
  rustcWrapper : Option Path := none
  rustcWorkspaceWrapper : Option Path := none
  rustdoc : Option Path := none
  target : Option (List TargetTriple) := none
  targetDir : Option Path := none
  rustflags : Option EFlags := none
  rustdocflags : Option EFlags := none
  incremental : Option Bool := none
  depInfoBasedir : Option Path := none
  overrideTargetRustflags : Bool := false
  deRustflags : Option Flags := none
  overrideTargetRustdocflags : Bool := false
  deRustdocflags : Option Flags := none
deriving DecidableEq, Repr

/-- Models `easy::TargetConfig` of src/easy.rs 590-610. -/
structure ETarget where
  linker : Option Path := none
  runner : Option EPathAndArgs := none
  rustflags : Option EFlags := none
  rustdocflags : Option EFlags := none
deriving DecidableEq, Repr

/-- Models `easy::DocConfig` of src/easy.rs 636-643. -/
structure EDoc where
  browser : Option EPathAndArgs := none
deriving DecidableEq, Repr

/-- Models `easy::EnvConfigValue` of src/easy.rs 660-664. -/
structure EEnvValue where
  value : Str
  force : Bool
  relative : Bool
deriving DecidableEq, Repr

/-- Models `easy::FutureIncompatReportConfig` of src/easy.rs 729-735. -/
structure EFutureIncompatReport where
  frequency : Option Frequency := none
deriving DecidableEq, Repr

/-- Models `easy::CargoNewConfig` of src/easy.rs 750-756. -/
structure ECargoNew where
  vcs : Option Vcs := none
deriving DecidableEq, Repr

/-- Models `easy::HttpConfig` of src/easy.rs 769-824. -/
structure EHttp where
  debug : Option Bool := none
  proxy : Option Str := none
  timeout : Option Nat := none
  cainfo : Option Str := none
  checkRevoke : Option Bool := none
  lowSpeedLimit : Option Nat := none
  multiplexing : Option Bool := none
  userAgent : Option Str := none
deriving DecidableEq, Repr

/-- Models `easy::NetConfig` of src/easy.rs 847-868. -/
structure ENet where
  retry : Option Nat := none
  gitFetchWithCli : Option Bool := none
  offline : Option Bool := none
deriving DecidableEq, Repr

/-- Models `easy::RegistriesConfigValue` of src/easy.rs 885-906. -/
structure ERegistries where
  index : Option Str := none
  token : Option Str := none
  protocol : Option Protocol := none
deriving DecidableEq, Repr

/-- Models `easy::RegistryConfig` of src/easy.rs 938-956. -/
structure ERegistry where
  default : Option Str := none
  token : Option Str := none
deriving DecidableEq, Repr

/-- Models `easy::TermProgressConfig` of src/easy.rs 1014-1028. -/
structure ETermProgress where
  when : Option When := none
  width : Option Nat := none
deriving DecidableEq, Repr

/-- Models `easy::TermConfig` of src/easy.rs 983-1002. -/
structure ETerm where
  quiet : Option Bool := none
  verbose : Option Bool := none
  color : Option Color := none
  progress : ETermProgress := {}
deriving DecidableEq, Repr

/-- The part of `ResolveContext` (src/resolve.rs 149-159) that never changes. -/
structure Ctx where
  env : Env
  cargo : OsStr
  currentDir : Path
deriving DecidableEq, Repr

/-- Models `easy::Config` of src/easy.rs 33-119, without the parts with interior mutability (`target` and the cells in `cx`), which
are in `Cells`. -/
structure EConfig where
  alias : BMap EStringList := []
  build : EBuild := {}
  doc : EDoc := {}
  env : BMap EEnvValue := []
  futureIncompatReport : EFutureIncompatReport := {}
  cargoNew : ECargoNew := {}
  http : EHttp := {}
  net : ENet := {}
  registries : BMap ERegistries := []
  registry : ERegistry := {}
  deTarget : BMap TargetConfig := []
  term : ETerm := {}
  cx : Ctx
deriving DecidableEq, Repr

/-- `opt.map(f)` where `f` may panic. -/
def Res.mapOpt {α β : Type} (f : α → Res β) : Option α → Res (Option β)
  | none => .ok none
  | some a => f a >>= fun b => .ok (some b)

/-- `iter.map(f).collect()` where `f` may panic. -/
def Res.mapList {α β : Type} (f : α → Res β) : List α → Res (List β)
  | [] => .ok []
  | a :: as => f a >>= fun b => Res.mapList f as >>= fun bs => .ok (b :: bs)

/-- `for (k, v) in map { new.insert(k, f(v)) }` where `f` may panic: the keys come in order, so `insert` appends. -/
def Res.mapVals {V W : Type} (f : V → Res W) : BMap V → Res (BMap W)
  | [] => .ok []
  | (k, v) :: m => f v >>= fun w => Res.mapVals f m >>= fun m' => .ok ((k, w) :: m')

/-- Models `ConfigRelativePath::resolve_program` of src/de.rs 1018-1020 and the construction of `easy::PathAndArgs` in
src/easy.rs 616-619 and 647-650. -/
def EPathAndArgs.fromUnresolved (cwd : Path) (x : PathAndArgs) : Res EPathAndArgs :=
  x.path.resolveAsProgramPath cwd >>= fun p => .ok { path := p, args := x.args.map Val.val }

/-- Models `easy::BuildConfig::from_unresolved` of src/easy.rs 531-580. -/
def EBuild.fromUnresolved (cwd : Path) (b : BuildConfig) : Res EBuild := do
  let rustc ← Res.mapOpt (fun v : Val Str => v.resolveAsProgramPath cwd) b.rustc
  let rustcWrapper ← Res.mapOpt (fun v : Val Str => v.resolveAsProgramPath cwd) b.rustcWrapper
  let rustcWorkspaceWrapper ← Res.mapOpt (fun v : Val Str => v.resolveAsProgramPath cwd) b.rustcWorkspaceWrapper
  let rustdoc ← Res.mapOpt (fun v : Val Str => v.resolveAsProgramPath cwd) b.rustdoc
  let target ← Res.mapOpt (fun t : StringOrArray =>
    Res.mapList (fun v : Val Str => TargetTriple.new v.val v.defn (some cwd)) t.asArrayNoSplit) b.target
  let targetDir ← Res.mapOpt (fun v : Val Str => v.resolveAsPath cwd) b.targetDir
  let depInfoBasedir ← Res.mapOpt (fun v : Val Str => v.resolveAsPath cwd) b.depInfoBasedir
  pure
    { jobs := b.jobs.map Val.val
      rustc := rustc
      rustcWrapper := rustcWrapper
      rustcWorkspaceWrapper := rustcWorkspaceWrapper
      rustdoc := rustdoc
      target := target
      targetDir := targetDir
      rustflags := b.rustflags.map EFlags.fromUnresolved
      rustdocflags := b.rustdocflags.map EFlags.fromUnresolved
      incremental := b.incremental.map Val.val
      depInfoBasedir := depInfoBasedir
      overrideTargetRustflags := b.overrideTargetRustflags
      deRustflags := b.rustflags
      overrideTargetRustdocflags := b.overrideTargetRustdocflags
      deRustdocflags := b.rustdocflags }

/-- Models `easy::TargetConfig::from_unresolved` of src/easy.rs 613-627. -/
def ETarget.fromUnresolved (cwd : Path) (t : TargetConfig) : Res ETarget := do
  let linker ← Res.mapOpt (fun v : Val Str => v.resolveAsProgramPath cwd) t.linker
  let runner ← Res.mapOpt (EPathAndArgs.fromUnresolved cwd) t.runner
  pure
    { linker := linker
      runner := runner
      rustflags := t.rustflags.map EFlags.fromUnresolved
      rustdocflags := t.rustdocflags.map EFlags.fromUnresolved }

/-- Models `easy::DocConfig::from_unresolved` of src/easy.rs 646-652. -/
def EDoc.fromUnresolved (cwd : Path) (d : DocConfig) : Res EDoc :=
  Res.mapOpt (EPathAndArgs.fromUnresolved cwd) d.browser >>= fun x => .ok { browser := x }

/-- Models `de::EnvConfigValue::resolve` of src/de.rs 460-472. -/
def EnvConfigValue.resolve (cwd : Path) : EnvConfigValue → Res Str
  | .value v => .ok v.val
  | .table v _ relative =>
    match relative.map Val.val, v.defn with
    | some true, some d => Res.unwrap (d.root cwd) >>= fun r => .ok (Path.join r v.val)
    | _, _ => .ok v.val

/-- Models `easy::EnvConfigValue::from_unresolved` of src/easy.rs 667-690. -/
def EEnvValue.fromUnresolved (cwd : Path) (e : EnvConfigValue) : Res EEnvValue :=
  match e with
  | .table v force relative =>
    match relative.map Val.val with
    | some true =>
      e.resolve cwd >>= fun s => .ok { value := s, force := (force.map Val.val).getD false, relative := false }
    | _ => .ok { value := v.val, force := (force.map Val.val).getD false, relative := false }
  | .value v => .ok { value := v.val, force := false, relative := false }

/-- Models `easy::HttpConfig::from_unresolved` of src/easy.rs 827-838. -/
def EHttp.fromUnresolved (h : HttpConfig) : EHttp :=
  { debug := h.debug.map Val.val
    proxy := h.proxy.map Val.val
    timeout := h.timeout.map Val.val
    cainfo := h.cainfo.map Val.val
    checkRevoke := h.checkRevoke.map Val.val
    lowSpeedLimit := h.lowSpeedLimit.map Val.val
    multiplexing := h.multiplexing.map Val.val
    userAgent := h.userAgent.map Val.val }

/-- Models `easy::NetConfig::from_unresolved` of src/easy.rs 871-876. -/
def ENet.fromUnresolved (n : NetConfig) : ENet :=
  { retry := n.retry.map Val.val
    gitFetchWithCli := n.gitFetchWithCli.map Val.val
    offline := n.offline.map Val.val }

/-- Models `easy::RegistriesConfigValue::from_unresolved` of src/easy.rs 909-917. -/
def ERegistries.fromUnresolved (r : RegistriesConfigValue) : ERegistries :=
  { index := r.index.map Val.val
    token := r.token.map Val.val
    protocol := r.protocol.map Val.val }

/-- Models `easy::RegistryConfig::from_unresolved` of src/easy.rs 959-963. -/
def ERegistry.fromUnresolved (r : RegistryConfig) : ERegistry :=
  { default := r.default.map Val.val
    token := r.token.map Val.val }

/-- Models `easy::TermConfig::from_unresolved` of src/easy.rs 1005-1011 and `TermProgressConfig::from_unresolved` 1031-1035. -/
def ETerm.fromUnresolved (t : TermConfig) : ETerm :=
  { quiet := t.quiet.map Val.val
    verbose := t.verbose.map Val.val
    color := t.color.map Val.val
    progress :=
      { when := t.progress.when.map Val.val
        width := t.progress.width.map Val.val } }

/-- Models `easy::Config::from_unresolved` of src/easy.rs 146-187 (and `FutureIncompatReportConfig::from_unresolved` 738-741,
`CargoNewConfig::from_unresolved` 759-761). -/
def EConfig.fromUnresolved (de : Config) (cx : Ctx) : Res EConfig := do
  let de ← de.applyEnv cx.env
  let build ← EBuild.fromUnresolved cx.currentDir de.build
  let doc ← EDoc.fromUnresolved cx.currentDir de.doc
  let env ← Res.mapVals (EEnvValue.fromUnresolved cx.currentDir) de.env
  pure
    { alias := de.alias.mapVals EStringList.fromUnresolved
      build := build
      doc := doc
      env := env
      futureIncompatReport := { frequency := de.futureIncompatReport.frequency.map Val.val }
      cargoNew := { vcs := de.cargoNew.vcs.map Val.val }
      http := EHttp.fromUnresolved de.http
      net := ENet.fromUnresolved de.net
      registries := de.registries.mapVals ERegistries.fromUnresolved
      registry := ERegistry.fromUnresolved de.registry
      deTarget := de.target
      term := ETerm.fromUnresolved de.term
      cx := cx }

end CC
