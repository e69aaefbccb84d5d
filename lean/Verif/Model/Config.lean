import Verif.Model.Lists
import Verif.Model.BMap
/-
The unresolved configuration `de::Config` (src/de.rs) as data.

Simplification: `i32` is `Int` and `u32` is `Nat`; the ranges are enforced where the numbers are parsed.
-/
namespace CC

/-- Models `VersionControlSoftware` of src/de.rs 503-518. -/
inductive Vcs where
  | git | mercurial | pijul | fossil | none
deriving DecidableEq, Repr

/-- Models `RegistriesProtocol` of src/de.rs 684-694. -/
inductive Protocol where
  | git | sparse
deriving DecidableEq, Repr

/-- Models `Color` of src/de.rs 790-800. -/
inductive Color where
  | auto | always | never
deriving DecidableEq, Repr

/-- Models `When` of src/de.rs 831-841. -/
inductive When where
  | auto | always | never
deriving DecidableEq, Repr

/-- Models `Frequency` of src/de.rs 872-881. -/
inductive Frequency where
  | always | never
deriving DecidableEq, Repr

/-- Models `de::BuildConfig` of src/de.rs 318-388. -/
structure BuildConfig where
  jobs : Option (Val Int) := none
  rustc : Option (Val Str) := none
  rustcWrapper : Option (Val Str) := none
  rustcWorkspaceWrapper : Option (Val Str) := none
  rustdoc : Option (Val Str) := none
  target : Option StringOrArray := none
  targetDir : Option (Val Str) := none
  rustflags : Option Flags := none
  rustdocflags : Option Flags := none
  incremental : Option (Val Bool) := none
  depInfoBasedir : Option (Val Str) := none
  overrideTargetRustflags : Bool := false
  overrideTargetRustdocflags : Bool := false
deriving DecidableEq, Repr

/-- Models `de::TargetConfig` of src/de.rs 394-417. -/
structure TargetConfig where
  linker : Option (Val Str) := none
  runner : Option PathAndArgs := none
  rustflags : Option Flags := none
  rustdocflags : Option Flags := none
deriving DecidableEq, Repr

/-- Models `de::DocConfig` of src/de.rs 422-432. -/
structure DocConfig where
  browser : Option PathAndArgs := none
deriving DecidableEq, Repr

/-- Models `de::EnvConfigValue` of src/de.rs 438-450. -/
inductive EnvConfigValue where
  | value (v : Val Str)
  | table (value : Val Str) (force : Option (Val Bool)) (relative : Option (Val Bool))
deriving DecidableEq, Repr

/-- Models `de::FutureIncompatReportConfig` of src/de.rs 478-487. -/
structure FutureIncompatReportConfig where
  frequency : Option (Val Frequency) := none
deriving DecidableEq, Repr

/-- Models `de::CargoNewConfig` of src/de.rs 492-501. -/
structure CargoNewConfig where
  vcs : Option (Val Vcs) := none
deriving DecidableEq, Repr

/-- Models `de::HttpConfig` of src/de.rs 550-607. -/
structure HttpConfig where
  debug : Option (Val Bool) := none
  proxy : Option (Val Str) := none
  timeout : Option (Val Nat) := none
  cainfo : Option (Val Str) := none
  checkRevoke : Option (Val Bool) := none
  lowSpeedLimit : Option (Val Nat) := none
  multiplexing : Option (Val Bool) := none
  userAgent : Option (Val Str) := none
deriving DecidableEq, Repr

/-- Models `de::NetConfig` of src/de.rs 612-636. -/
structure NetConfig where
  retry : Option (Val Nat) := none
  gitFetchWithCli : Option (Val Bool) := none
  offline : Option (Val Bool) := none
deriving DecidableEq, Repr

/-- Models `de::RegistriesConfigValue` of src/de.rs 641-665. -/
structure RegistriesConfigValue where
  index : Option (Val Str) := none
  token : Option (Val Str) := none
  protocol : Option (Val Protocol) := none
deriving DecidableEq, Repr

/-- Models `de::RegistryConfig` of src/de.rs 711-732. -/
structure RegistryConfig where
  default : Option (Val Str) := none
  token : Option (Val Str) := none
deriving DecidableEq, Repr

/-- Models `de::TermProgress` of src/de.rs 774-788. -/
structure TermProgress where
  when : Option (Val When) := none
  width : Option (Val Nat) := none
deriving DecidableEq, Repr

/-- Models `de::TermConfig` of src/de.rs 750-772. -/
structure TermConfig where
  quiet : Option (Val Bool) := none
  verbose : Option (Val Bool) := none
  color : Option (Val Color) := none
  progress : TermProgress := {}
deriving DecidableEq, Repr

/-- Models `de::Config` of src/de.rs 34-115. -/
structure Config where
  alias : BMap StringList := []
  build : BuildConfig := {}
  doc : DocConfig := {}
  env : BMap EnvConfigValue := []
  futureIncompatReport : FutureIncompatReportConfig := {}
  cargoNew : CargoNewConfig := {}
  http : HttpConfig := {}
  net : NetConfig := {}
  registries : BMap RegistriesConfigValue := []
  registry : RegistryConfig := {}
  target : BMap TargetConfig := []
  term : TermConfig := {}
deriving DecidableEq, Repr

/-- Representation invariants of a `de::Config` read from a file: the maps are `BTreeMap`s, and the two resolve flags are
still unset (they are `#[serde(skip)]`, src/de.rs 384-387, and only set by `apply_env`). -/
structure Config.WF (c : Config) : Prop where
  alias : c.alias.Sorted
  env : c.env.Sorted
  registries : c.registries.Sorted
  target : c.target.Sorted
  overrideTargetRustflags : c.build.overrideTargetRustflags = false
  overrideTargetRustdocflags : c.build.overrideTargetRustdocflags = false

/-! ### `SetPath` (src/value.rs 119-147, src/gen/de.rs) -/

/-- Models `SetPath for Vec<Value<T>>` of src/value.rs 129-135. -/
def setPathList (p : Path) (l : List (Val Str)) : List (Val Str) := l.map (Val.setPath p)

/-- Models `SetPath for Flags` of src/gen/de.rs 235-239. -/
def Flags.setPath (p : Path) (f : Flags) : Flags := { f with flags := setPathList p f.flags }

/-- Models `SetPath for PathAndArgs` of src/gen/de.rs 245-250 (and `ConfigRelativePath` 240-244). -/
def PathAndArgs.setPath (p : Path) (x : PathAndArgs) : PathAndArgs :=
  { x with path := x.path.setPath p, args := setPathList p x.args }

/-- Models `SetPath for StringList` of src/gen/de.rs 251-255. -/
def StringList.setPath (p : Path) (l : StringList) : StringList := { l with list := setPathList p l.list }

/-- Models `SetPath for StringOrArray` of src/gen/de.rs 256-267. -/
def StringOrArray.setPath (p : Path) : StringOrArray → StringOrArray
  | .string s => .string (s.setPath p)
  | .array l => .array (setPathList p l)

/-- Models `SetPath for BuildConfig` of src/gen/de.rs 58-72. -/
def BuildConfig.setPath (p : Path) (b : BuildConfig) : BuildConfig :=
  { b with
    jobs := b.jobs.map (Val.setPath p)
    rustc := b.rustc.map (Val.setPath p)
    rustcWrapper := b.rustcWrapper.map (Val.setPath p)
    rustcWorkspaceWrapper := b.rustcWorkspaceWrapper.map (Val.setPath p)
    rustdoc := b.rustdoc.map (Val.setPath p)
    target := b.target.map (StringOrArray.setPath p)
    targetDir := b.targetDir.map (Val.setPath p)
    rustflags := b.rustflags.map (Flags.setPath p)
    rustdocflags := b.rustdocflags.map (Flags.setPath p)
    incremental := b.incremental.map (Val.setPath p)
    depInfoBasedir := b.depInfoBasedir.map (Val.setPath p) }

/-- Models `SetPath for TargetConfig` of src/gen/de.rs 82-89. -/
def TargetConfig.setPath (p : Path) (t : TargetConfig) : TargetConfig :=
  { linker := t.linker.map (Val.setPath p)
    runner := t.runner.map (PathAndArgs.setPath p)
    rustflags := t.rustflags.map (Flags.setPath p)
    rustdocflags := t.rustdocflags.map (Flags.setPath p) }

/-- Models `SetPath for EnvConfigValue` of src/gen/de.rs 101-114. -/
def EnvConfigValue.setPath (p : Path) : EnvConfigValue → EnvConfigValue
  | .value v => .value (v.setPath p)
  | .table v f r => .table (v.setPath p) (f.map (Val.setPath p)) (r.map (Val.setPath p))

/-- Models `SetPath for HttpConfig` of src/gen/de.rs 150-161. -/
def HttpConfig.setPath (p : Path) (h : HttpConfig) : HttpConfig :=
  { debug := h.debug.map (Val.setPath p)
    proxy := h.proxy.map (Val.setPath p)
    timeout := h.timeout.map (Val.setPath p)
    cainfo := h.cainfo.map (Val.setPath p)
    checkRevoke := h.checkRevoke.map (Val.setPath p)
    lowSpeedLimit := h.lowSpeedLimit.map (Val.setPath p)
    multiplexing := h.multiplexing.map (Val.setPath p)
    userAgent := h.userAgent.map (Val.setPath p) }

/-- Models `SetPath for NetConfig` of src/gen/de.rs 170-176. -/
def NetConfig.setPath (p : Path) (n : NetConfig) : NetConfig :=
  { retry := n.retry.map (Val.setPath p)
    gitFetchWithCli := n.gitFetchWithCli.map (Val.setPath p)
    offline := n.offline.map (Val.setPath p) }

/-- Models `SetPath for RegistriesConfigValue` of src/gen/de.rs 185-191. -/
def RegistriesConfigValue.setPath (p : Path) (r : RegistriesConfigValue) : RegistriesConfigValue :=
  { index := r.index.map (Val.setPath p)
    token := r.token.map (Val.setPath p)
    protocol := r.protocol.map (Val.setPath p) }

/-- Models `SetPath for RegistryConfig` of src/gen/de.rs 199-204. -/
def RegistryConfig.setPath (p : Path) (r : RegistryConfig) : RegistryConfig :=
  { default := r.default.map (Val.setPath p)
    token := r.token.map (Val.setPath p) }

/-- Models `SetPath for TermConfig` and `TermProgress` of src/gen/de.rs 214-221 and 229-234. -/
def TermConfig.setPath (p : Path) (t : TermConfig) : TermConfig :=
  { quiet := t.quiet.map (Val.setPath p)
    verbose := t.verbose.map (Val.setPath p)
    color := t.color.map (Val.setPath p)
    progress :=
      { when := t.progress.when.map (Val.setPath p)
        width := t.progress.width.map (Val.setPath p) } }

/-- Models `SetPath for Config` of src/gen/de.rs 26-41 (and for `DocConfig` 96-100, `FutureIncompatReportConfig` 121-125,
`CargoNewConfig` 132-136). -/
def Config.setPath (p : Path) (c : Config) : Config :=
  { alias := c.alias.mapVals (StringList.setPath p)
    build := c.build.setPath p
    doc := { browser := c.doc.browser.map (PathAndArgs.setPath p) }
    env := c.env.mapVals (EnvConfigValue.setPath p)
    futureIncompatReport := { frequency := c.futureIncompatReport.frequency.map (Val.setPath p) }
    cargoNew := { vcs := c.cargoNew.vcs.map (Val.setPath p) }
    http := c.http.setPath p
    net := c.net.setPath p
    registries := c.registries.mapVals (RegistriesConfigValue.setPath p)
    registry := c.registry.setPath p
    target := c.target.mapVals (TargetConfig.setPath p)
    term := c.term.setPath p }

end CC
