import Verif.Model.Serde
import Verif.Model.Easy
import Verif.Model.Context
/-
Serialization of the resolved config `easy::Config` (the serde attributes and hand-written impls of src/easy.rs, and
src/gen/is_none.rs 7-60).

Simplification: paths and OS strings are strings of characters here, so `to_string_lossy` is the identity and the `Serialize` of
`PathBuf`, which fails for a path that is not UTF-8, always succeeds.
-/
namespace CC

/-! ### `is_none` -/

/-- Models `easy::BuildConfig::is_none` of src/gen/is_none.rs 7-15. -/
def EBuild.isNone (b : EBuild) : Bool :=
  b.jobs.isNone && b.rustc.isNone && b.rustcWrapper.isNone
    && b.rustcWorkspaceWrapper.isNone && b.rustdoc.isNone
    && b.target.isNone && b.targetDir.isNone
    && b.rustflags.isNone && b.rustdocflags.isNone
    && b.incremental.isNone && b.depInfoBasedir.isNone

/-- Models `easy::DocConfig::is_none` of src/gen/is_none.rs 16-20. -/
def EDoc.isNone (d : EDoc) : Bool := d.browser.isNone

/-- Models `easy::FutureIncompatReportConfig::is_none` of src/gen/is_none.rs 21-25. -/
def EFutureIncompatReport.isNone (f : EFutureIncompatReport) : Bool := f.frequency.isNone

/-- Models `easy::CargoNewConfig::is_none` of src/gen/is_none.rs 26-30. -/
def ECargoNew.isNone (c : ECargoNew) : Bool := c.vcs.isNone

/-- Models `easy::HttpConfig::is_none` of src/gen/is_none.rs 31-38. -/
def EHttp.isNone (h : EHttp) : Bool :=
  h.debug.isNone && h.proxy.isNone && h.timeout.isNone
    && h.cainfo.isNone && h.checkRevoke.isNone
    && h.lowSpeedLimit.isNone && h.multiplexing.isNone
    && h.userAgent.isNone

/-- Models `easy::NetConfig::is_none` of src/gen/is_none.rs 39-44. -/
def ENet.isNone (n : ENet) : Bool := n.retry.isNone && n.gitFetchWithCli.isNone && n.offline.isNone

/-- Models `easy::RegistryConfig::is_none` of src/gen/is_none.rs 45-49. -/
def ERegistry.isNone (r : ERegistry) : Bool := r.default.isNone && r.token.isNone

/-- Models `easy::TermProgressConfig::is_none` of src/gen/is_none.rs 56-60. -/
def ETermProgress.isNone (p : ETermProgress) : Bool := p.when.isNone && p.width.isNone

/-- Models `easy::TermConfig::is_none` of src/gen/is_none.rs 50-55. -/
def ETerm.isNone (t : ETerm) : Bool :=
  t.quiet.isNone && t.verbose.isNone && t.color.isNone && t.progress.isNone

/-! ### Serialization -/

/-- `Vec<String>`. -/
def serStrs (l : List Str) : Toml := .arr (l.map .str)

/-- Models the derived `Serialize` of `easy::Flags` (src/easy.rs 1039-1044): transparent. -/
def EFlags.ser (f : EFlags) : Toml := serStrs f.flags

/-- Models the derived `Serialize` of `easy::StringList` (src/easy.rs 1247-1252): transparent. -/
def EStringList.ser (l : EStringList) : Toml := serStrs l.list

/-- Models `Serialize for easy::PathAndArgs` of src/easy.rs 1214-1226. -/
def EPathAndArgs.ser (x : EPathAndArgs) : Toml := serStrs (x.path :: x.args)

/-- A boolean field with `#[serde(skip_serializing_if = "ops::Not::not")]`. -/
def serFlag (k : String) (b : Bool) : List (Str × Toml) := if !b then [] else [(k.toList, .bool b)]

/-- Models `Serialize for easy::EnvConfigValue` of src/easy.rs 692-721. -/
def EEnvValue.ser (e : EEnvValue) : Toml :=
  match e.force, e.relative with
  | false, false => .str e.value
  | force, relative => .tbl ([("value".toList, .str e.value)] ++ serFlag "force" force ++ serFlag "relative" relative)

/-- Models the derived `Serialize` of `easy::BuildConfig` (src/easy.rs 434-528); the last four fields are `#[serde(skip)]`. -/
def EBuild.ser (b : EBuild) : Toml := .tbl
  (serField "jobs" b.jobs .int ++
   serField "rustc" b.rustc .str ++
   serField "rustc-wrapper" b.rustcWrapper .str ++
   serField "rustc-workspace-wrapper" b.rustcWorkspaceWrapper .str ++
   serField "rustdoc" b.rustdoc .str ++
   serField "target" b.target (fun l => serStrs (l.map TargetTriple.serialize)) ++
   serField "target-dir" b.targetDir .str ++
   serField "rustflags" b.rustflags EFlags.ser ++
   serField "rustdocflags" b.rustdocflags EFlags.ser ++
   serField "incremental" b.incremental .bool ++
   serField "dep-info-basedir" b.depInfoBasedir .str)

/-- Models the derived `Serialize` of `easy::TargetConfig` (src/easy.rs 587-610). -/
def ETarget.ser (t : ETarget) : Toml := .tbl
  (serField "linker" t.linker .str ++
   serField "runner" t.runner EPathAndArgs.ser ++
   serField "rustflags" t.rustflags EFlags.ser ++
   serField "rustdocflags" t.rustdocflags EFlags.ser)

/-- Models the derived `Serialize` of `easy::DocConfig` (src/easy.rs 633-643). -/
def EDoc.ser (d : EDoc) : Toml := .tbl (serField "browser" d.browser EPathAndArgs.ser)

/-- Models the derived `Serialize` of `easy::FutureIncompatReportConfig` (src/easy.rs 726-735). -/
def EFutureIncompatReport.ser (f : EFutureIncompatReport) : Toml := .tbl
  (serField "frequency" f.frequency (fun x => .str x.serName))

/-- Models the derived `Serialize` of `easy::CargoNewConfig` (src/easy.rs 747-756). -/
def ECargoNew.ser (c : ECargoNew) : Toml := .tbl (serField "vcs" c.vcs (fun x => .str x.serName))

/-- Models the derived `Serialize` of `easy::HttpConfig` (src/easy.rs 767-824). -/
def EHttp.ser (h : EHttp) : Toml := .tbl
  (serField "debug" h.debug .bool ++
   serField "proxy" h.proxy .str ++
   serField "timeout" h.timeout serNat ++
   serField "cainfo" h.cainfo .str ++
   serField "check-revoke" h.checkRevoke .bool ++
   serField "low-speed-limit" h.lowSpeedLimit serNat ++
   serField "multiplexing" h.multiplexing .bool ++
   serField "user-agent" h.userAgent .str)

/-- Models the derived `Serialize` of `easy::NetConfig` (src/easy.rs 844-868). -/
def ENet.ser (n : ENet) : Toml := .tbl
  (serField "retry" n.retry serNat ++
   serField "git-fetch-with-cli" n.gitFetchWithCli .bool ++
   serField "offline" n.offline .bool)

/-- Models the derived `Serialize` of `easy::RegistriesConfigValue` (src/easy.rs 882-906). -/
def ERegistries.ser (r : ERegistries) : Toml := .tbl
  (serField "index" r.index .str ++
   serField "token" r.token .str ++
   serField "protocol" r.protocol (fun x => .str x.serName))

/-- Models the derived `Serialize` of `easy::RegistryConfig` (src/easy.rs 935-956). -/
def ERegistry.ser (r : ERegistry) : Toml := .tbl
  (serField "default" r.default .str ++
   serField "token" r.token .str)

/-- Models the derived `Serialize` of `easy::TermProgressConfig` (src/easy.rs 1014-1028). -/
def ETermProgress.ser (p : ETermProgress) : Toml := .tbl
  (serField "when" p.when (fun x => .str x.serName) ++
   serField "width" p.width serNat)

/-- Models the derived `Serialize` of `easy::TermConfig` (src/easy.rs 980-1002). -/
def ETerm.ser (t : ETerm) : Toml := .tbl
  (serField "quiet" t.quiet .bool ++
   serField "verbose" t.verbose .bool ++
   serField "color" t.color (fun x => .str x.serName) ++
   serSection "progress" t.progress.isNone t.progress.ser)

/-- Models the derived `Serialize` of `easy::Config` (src/easy.rs 30-119): `target` is the map of the targets resolved so far
(here in the cells, keyed by the string a `TargetTriple` is serialized as), `de_target` is `#[serde(skip_serializing)]` and `cx` is
`#[serde(skip)]`. -/
def EConfig.ser (c : EConfig) (s : Cells) : Toml := .tbl
  (serSection "alias" c.alias.isEmpty (serMap EStringList.ser c.alias) ++
   serSection "build" c.build.isNone c.build.ser ++
   serSection "doc" c.doc.isNone c.doc.ser ++
   serSection "env" c.env.isEmpty (serMap EEnvValue.ser c.env) ++
   serSection "future-incompat-report" c.futureIncompatReport.isNone c.futureIncompatReport.ser ++
   serSection "cargo-new" c.cargoNew.isNone c.cargoNew.ser ++
   serSection "http" c.http.isNone c.http.ser ++
   serSection "net" c.net.isNone c.net.ser ++
   serSection "registries" c.registries.isEmpty (serMap ERegistries.ser c.registries) ++
   serSection "registry" c.registry.isNone c.registry.ser ++
   serSection "target" s.target.isEmpty (serMap ETarget.ser s.target) ++
   serSection "term" c.term.isNone c.term.ser)

end CC
