import Verif.Model.Context
import Verif.Model.Debug
/-
`Debug` of whole configurations: `de::Config` (src/de.rs) and `easy::Config` with its `ResolveContext` (src/easy.rs, src/resolve.rs).

Simplifications: the order in which a `HashMap` shows its entries is that of the model's list; `OnceCell`, `RefCell`, `PathBuf` and `Cow`
are shown as their contents; an OS string which is not Unicode is shown as its bytes.
-/
namespace CC

/-- `derive(Debug)` of `Option<Value<T>>` (src/value.rs 17). -/
def dbgOptVal {α : Type} (f : α → Dbg) (v : Option (Val α)) : Dbg := Dbg.opt (v.map (Val.dbg f))

/-- `derive(Debug)` of `VersionControlSoftware` (src/de.rs 503). -/
def Vcs.dbg : Vcs → Dbg
  | .git => .atom "Git".toList
  | .mercurial => .atom "Mercurial".toList
  | .pijul => .atom "Pijul".toList
  | .fossil => .atom "Fossil".toList
  | .none => .atom "None".toList

/-- `derive(Debug)` of `Color` (src/de.rs 791). -/
def Color.dbg : Color → Dbg
  | .auto => .atom "Auto".toList
  | .always => .atom "Always".toList
  | .never => .atom "Never".toList

/-- `derive(Debug)` of `When` (src/de.rs 832). -/
def When.dbg : When → Dbg
  | .auto => .atom "Auto".toList
  | .always => .atom "Always".toList
  | .never => .atom "Never".toList

/-- `derive(Debug)` of `Frequency` (src/de.rs 873). -/
def Frequency.dbg : Frequency → Dbg
  | .always => .atom "Always".toList
  | .never => .atom "Never".toList

/-- `derive(Debug)` of `StringOrArray` (src/de.rs 1182). -/
def StringOrArray.dbg : StringOrArray → Dbg
  | .string v => .node "String".toList [([], Val.dbg .str v)]
  | .array l => .node "Array".toList [([], dbgVals l)]

/-! ### `de::Config` -/

/-- `derive(Debug)` of `de::BuildConfig` (src/de.rs 318). -/
def BuildConfig.dbg (x : BuildConfig) : Dbg :=
  .node "BuildConfig".toList
    [("jobs".toList, dbgOptVal Dbg.int x.jobs),
     ("rustc".toList, dbgOptVal .str x.rustc),
     ("rustc_wrapper".toList, dbgOptVal .str x.rustcWrapper),
     ("rustc_workspace_wrapper".toList, dbgOptVal .str x.rustcWorkspaceWrapper),
     ("rustdoc".toList, dbgOptVal .str x.rustdoc),
     ("target".toList, Dbg.opt (x.target.map StringOrArray.dbg)),
     ("target_dir".toList, dbgOptVal .str x.targetDir),
     ("rustflags".toList, Dbg.opt (x.rustflags.map Flags.dbg)),
     ("rustdocflags".toList, Dbg.opt (x.rustdocflags.map Flags.dbg)),
     ("incremental".toList, dbgOptVal Dbg.bool x.incremental),
     ("dep_info_basedir".toList, dbgOptVal .str x.depInfoBasedir),
     ("override_target_rustflags".toList, Dbg.bool x.overrideTargetRustflags),
     ("override_target_rustdocflags".toList, Dbg.bool x.overrideTargetRustdocflags)]

/-- `derive(Debug)` of `de::DocConfig` (src/de.rs 422). -/
def DocConfig.dbg (x : DocConfig) : Dbg :=
  .node "DocConfig".toList
    [("browser".toList, Dbg.opt (x.browser.map PathAndArgs.dbg))]

/-- `derive(Debug)` of `de::FutureIncompatReportConfig` (src/de.rs 478). -/
def FutureIncompatReportConfig.dbg (x : FutureIncompatReportConfig) : Dbg :=
  .node "FutureIncompatReportConfig".toList
    [("frequency".toList, dbgOptVal Frequency.dbg x.frequency)]

/-- `derive(Debug)` of `de::CargoNewConfig` (src/de.rs 492). -/
def CargoNewConfig.dbg (x : CargoNewConfig) : Dbg :=
  .node "CargoNewConfig".toList
    [("vcs".toList, dbgOptVal Vcs.dbg x.vcs)]

/-- `derive(Debug)` of `de::HttpConfig` (src/de.rs 550). -/
def HttpConfig.dbg (x : HttpConfig) : Dbg :=
  .node "HttpConfig".toList
    [("debug".toList, dbgOptVal Dbg.bool x.debug),
     ("proxy".toList, dbgOptVal .str x.proxy),
     ("timeout".toList, dbgOptVal Dbg.nat x.timeout),
     ("cainfo".toList, dbgOptVal .str x.cainfo),
     ("check_revoke".toList, dbgOptVal Dbg.bool x.checkRevoke),
     ("low_speed_limit".toList, dbgOptVal Dbg.nat x.lowSpeedLimit),
     ("multiplexing".toList, dbgOptVal Dbg.bool x.multiplexing),
     ("user_agent".toList, dbgOptVal .str x.userAgent)]

/-- `derive(Debug)` of `de::NetConfig` (src/de.rs 612). -/
def NetConfig.dbg (x : NetConfig) : Dbg :=
  .node "NetConfig".toList
    [("retry".toList, dbgOptVal Dbg.nat x.retry),
     ("git_fetch_with_cli".toList, dbgOptVal Dbg.bool x.gitFetchWithCli),
     ("offline".toList, dbgOptVal Dbg.bool x.offline)]

/-- `derive(Debug)` of `de::TermProgress` (src/de.rs 774). -/
def TermProgress.dbg (x : TermProgress) : Dbg :=
  .node "TermProgress".toList
    [("when".toList, dbgOptVal When.dbg x.when),
     ("width".toList, dbgOptVal Dbg.nat x.width)]

/-- `derive(Debug)` of `de::TermConfig` (src/de.rs 750). -/
def TermConfig.dbg (x : TermConfig) : Dbg :=
  .node "TermConfig".toList
    [("quiet".toList, dbgOptVal Dbg.bool x.quiet),
     ("verbose".toList, dbgOptVal Dbg.bool x.verbose),
     ("color".toList, dbgOptVal Color.dbg x.color),
     ("progress".toList, x.progress.dbg)]

/-- `derive(Debug)` of `de::Config` (src/de.rs 34). -/
def Config.dbg (x : Config) : Dbg :=
  .node "Config".toList
    [("alias".toList, Dbg.map StringList.dbg x.alias),
     ("build".toList, x.build.dbg),
     ("doc".toList, x.doc.dbg),
     ("env".toList, Dbg.map EnvConfigValue.dbg x.env),
     ("future_incompat_report".toList, x.futureIncompatReport.dbg),
     ("cargo_new".toList, x.cargoNew.dbg),
     ("http".toList, x.http.dbg),
     ("net".toList, x.net.dbg),
     ("registries".toList, Dbg.map RegistriesConfigValue.dbg x.registries),
     ("registry".toList, x.registry.dbg),
     ("target".toList, Dbg.map TargetConfig.dbg x.target),
     ("term".toList, x.term.dbg)]

/-! ### `easy::Config` -/

/-- `derive(Debug)` of `easy::Flags` (src/easy.rs 1039). -/
def EFlags.dbg (x : EFlags) : Dbg := .node "Flags".toList [("flags".toList, Dbg.list (x.flags.map .str))]

/-- `derive(Debug)` of `easy::StringList` (src/easy.rs 1247). -/
def EStringList.dbg (x : EStringList) : Dbg := .node "StringList".toList [("list".toList, Dbg.list (x.list.map .str))]

/-- `derive(Debug)` of `easy::PathAndArgs` (src/easy.rs 1190). -/
def EPathAndArgs.dbg (x : EPathAndArgs) : Dbg :=
  .node "PathAndArgs".toList [("path".toList, .str x.path), ("args".toList, Dbg.list (x.args.map .str))]

/-- `derive(Debug)` of `TargetTripleRef` (src/resolve.rs 386). -/
def TargetTriple.dbg (x : TargetTriple) : Dbg :=
  .node "TargetTripleRef".toList [("triple".toList, .str x.triple), ("spec_path".toList, Dbg.opt (x.specPath.map .str))]

/-- `Debug` of `OsString` (std). -/
def OsStr.dbg : OsStr → Dbg
  | .unicode s => .str s
  | .invalid b => .node "bytes".toList (b.map fun n => ([], Dbg.nat n))

/-- `derive(Debug)` of `easy::BuildConfig` (src/easy.rs 434). -/
def EBuild.dbg (x : EBuild) : Dbg :=
  .node "BuildConfig".toList
    [("jobs".toList, Dbg.opt (x.jobs.map Dbg.int)),
     ("rustc".toList, Dbg.opt (x.rustc.map .str)),
     ("rustc_wrapper".toList, Dbg.opt (x.rustcWrapper.map .str)),
     ("rustc_workspace_wrapper".toList, Dbg.opt (x.rustcWorkspaceWrapper.map .str)),
     ("rustdoc".toList, Dbg.opt (x.rustdoc.map .str)),
     ("target".toList, Dbg.opt (x.target.map fun l => Dbg.list (l.map TargetTriple.dbg))),
     ("target_dir".toList, Dbg.opt (x.targetDir.map .str)),
     ("rustflags".toList, Dbg.opt (x.rustflags.map EFlags.dbg)),
     ("rustdocflags".toList, Dbg.opt (x.rustdocflags.map EFlags.dbg)),
     ("incremental".toList, Dbg.opt (x.incremental.map Dbg.bool)),
     ("dep_info_basedir".toList, Dbg.opt (x.depInfoBasedir.map .str)),
     ("override_target_rustflags".toList, Dbg.bool x.overrideTargetRustflags),
     ("de_rustflags".toList, Dbg.opt (x.deRustflags.map Flags.dbg)),
     ("override_target_rustdocflags".toList, Dbg.bool x.overrideTargetRustdocflags),
     ("de_rustdocflags".toList, Dbg.opt (x.deRustdocflags.map Flags.dbg))]

/-- `derive(Debug)` of `easy::TargetConfig` (src/easy.rs 587). -/
def ETarget.dbg (x : ETarget) : Dbg :=
  .node "TargetConfig".toList
    [("linker".toList, Dbg.opt (x.linker.map .str)),
     ("runner".toList, Dbg.opt (x.runner.map EPathAndArgs.dbg)),
     ("rustflags".toList, Dbg.opt (x.rustflags.map EFlags.dbg)),
     ("rustdocflags".toList, Dbg.opt (x.rustdocflags.map EFlags.dbg))]

/-- `derive(Debug)` of `easy::DocConfig` (src/easy.rs 633). -/
def EDoc.dbg (x : EDoc) : Dbg :=
  .node "DocConfig".toList
    [("browser".toList, Dbg.opt (x.browser.map EPathAndArgs.dbg))]

/-- `derive(Debug)` of `easy::EnvConfigValue` (src/easy.rs 658). -/
def EEnvValue.dbg (x : EEnvValue) : Dbg :=
  .node "EnvConfigValue".toList
    [("value".toList, .str x.value),
     ("force".toList, Dbg.bool x.force),
     ("relative".toList, Dbg.bool x.relative)]

/-- `derive(Debug)` of `easy::FutureIncompatReportConfig` (src/easy.rs 726). -/
def EFutureIncompatReport.dbg (x : EFutureIncompatReport) : Dbg :=
  .node "FutureIncompatReportConfig".toList
    [("frequency".toList, Dbg.opt (x.frequency.map Frequency.dbg))]

/-- `derive(Debug)` of `easy::CargoNewConfig` (src/easy.rs 747). -/
def ECargoNew.dbg (x : ECargoNew) : Dbg :=
  .node "CargoNewConfig".toList
    [("vcs".toList, Dbg.opt (x.vcs.map Vcs.dbg))]

/-- `derive(Debug)` of `easy::HttpConfig` (src/easy.rs 767). -/
def EHttp.dbg (x : EHttp) : Dbg :=
  .node "HttpConfig".toList
    [("debug".toList, Dbg.opt (x.debug.map Dbg.bool)),
     ("proxy".toList, Dbg.opt (x.proxy.map .str)),
     ("timeout".toList, Dbg.opt (x.timeout.map Dbg.nat)),
     ("cainfo".toList, Dbg.opt (x.cainfo.map .str)),
     ("check_revoke".toList, Dbg.opt (x.checkRevoke.map Dbg.bool)),
     ("low_speed_limit".toList, Dbg.opt (x.lowSpeedLimit.map Dbg.nat)),
     ("multiplexing".toList, Dbg.opt (x.multiplexing.map Dbg.bool)),
     ("user_agent".toList, Dbg.opt (x.userAgent.map .str))]

/-- `derive(Debug)` of `easy::NetConfig` (src/easy.rs 844). -/
def ENet.dbg (x : ENet) : Dbg :=
  .node "NetConfig".toList
    [("retry".toList, Dbg.opt (x.retry.map Dbg.nat)),
     ("git_fetch_with_cli".toList, Dbg.opt (x.gitFetchWithCli.map Dbg.bool)),
     ("offline".toList, Dbg.opt (x.offline.map Dbg.bool))]

/-- Models `impl Debug for easy::RegistriesConfigValue` of src/easy.rs 920-930. -/
def ERegistries.dbg (x : ERegistries) : Dbg :=
  .node "RegistriesConfigValue".toList
    [("index".toList, Dbg.opt (x.index.map .str)), ("token".toList, Dbg.opt (x.token.map fun _ => .str "[REDACTED]".toList)),
     ("protocol".toList, Dbg.opt (x.protocol.map Protocol.dbg)), ("..".toList, .atom [])]

/-- Models `impl Debug for easy::RegistryConfig` of src/easy.rs 966-975. -/
def ERegistry.dbg (x : ERegistry) : Dbg :=
  .node "RegistryConfig".toList
    [("default".toList, Dbg.opt (x.default.map .str)), ("token".toList, Dbg.opt (x.token.map fun _ => .str "[REDACTED]".toList))]

/-- `derive(Debug)` of `easy::TermProgressConfig` (src/easy.rs 1014). -/
def ETermProgress.dbg (x : ETermProgress) : Dbg :=
  .node "TermProgressConfig".toList
    [("when".toList, Dbg.opt (x.when.map When.dbg)),
     ("width".toList, Dbg.opt (x.width.map Dbg.nat))]

/-- `derive(Debug)` of `easy::TermConfig` (src/easy.rs 980). -/
def ETerm.dbg (x : ETerm) : Dbg :=
  .node "TermConfig".toList
    [("quiet".toList, Dbg.opt (x.quiet.map Dbg.bool)),
     ("verbose".toList, Dbg.opt (x.verbose.map Dbg.bool)),
     ("color".toList, Dbg.opt (x.color.map Color.dbg)),
     ("progress".toList, x.progress.dbg)]

/-- `derive(Debug)` of `RustcVersion` (src/resolve.rs 558). -/
def RustcVersion.dbg (x : RustcVersion) : Dbg :=
  .node "RustcVersion".toList
    [("major".toList, Dbg.nat x.major),
     ("minor".toList, Dbg.nat x.minor),
     ("patch".toList, Dbg.opt (x.patch.map Dbg.nat)),
     ("nightly".toList, Dbg.bool x.nightly)]

/-- `derive(Debug)` of `CargoVersion` (src/resolve.rs 566). -/
def CargoVersion.dbg (x : CargoVersion) : Dbg :=
  .node "CargoVersion".toList
    [("major".toList, Dbg.nat x.major),
     ("minor".toList, Dbg.nat x.minor),
     ("patch".toList, Dbg.nat x.patch),
     ("nightly".toList, Dbg.bool x.nightly)]

/-- `derive(Debug)` of `Cfg` (src/resolve.rs 334). -/
def CfgSet.dbg (x : CfgSet) : Dbg :=
  .node "Cfg".toList
    [("flags".toList, Dbg.list (x.flags.map .str)),
     ("key_values".toList, Dbg.map (fun l => Dbg.list (l.map .str)) x.keyValues)]

/-- `derive(Debug)` of `ResolveContext` (src/resolve.rs 147), with the contents of its cells. -/
def Ctx.dbg (x : Ctx) (s : Cells) : Dbg :=
  .node "ResolveContext".toList
    [("env".toList, Dbg.map OsStr.dbg x.env), ("rustc".toList, Dbg.opt (s.rustc.map EPathAndArgs.dbg)),
     ("cargo".toList, x.cargo.dbg), ("cargo_home".toList, Dbg.opt (s.cargoHome.map fun h => Dbg.opt (h.map .str))),
     ("host_triple".toList, Dbg.opt (s.hostTriple.map .str)), ("rustc_version".toList, Dbg.opt (s.rustcVersion.map RustcVersion.dbg)),
     ("cargo_version".toList, Dbg.opt (s.cargoVersion.map CargoVersion.dbg)), ("cfg".toList, Dbg.map CfgSet.dbg s.cfg),
     ("current_dir".toList, .str x.currentDir)]

/-- `derive(Debug)` of `easy::Config` (src/easy.rs 30), with the contents of its cells. -/
def EConfig.dbg (x : EConfig) (s : Cells) : Dbg :=
  .node "Config".toList
    [("alias".toList, Dbg.map EStringList.dbg x.alias), ("build".toList, x.build.dbg), ("doc".toList, x.doc.dbg),
     ("env".toList, Dbg.map EEnvValue.dbg x.env), ("future_incompat_report".toList, x.futureIncompatReport.dbg),
     ("cargo_new".toList, x.cargoNew.dbg), ("http".toList, x.http.dbg), ("net".toList, x.net.dbg),
     ("registries".toList, Dbg.map ERegistries.dbg x.registries), ("registry".toList, x.registry.dbg),
     ("target".toList, Dbg.map ETarget.dbg s.target), ("de_target".toList, Dbg.map TargetConfig.dbg x.deTarget),
     ("term".toList, x.term.dbg), ("cx".toList, x.cx.dbg s)]

end CC
