import Verif.Model.Enums
/-
Serialization and deserialization of `de::Config` (the serde attributes and hand-written impls of src/de.rs, and
src/gen/is_none.rs).

The data model in between is TOML's.  Not modelled: the text of a TOML document (`toml_edit` parses it to such a value) and
the texts of deserialization errors.  Simplifications: a struct is read from a table only (serde's derive would also accept
an array of the fields in order) and an enum from a string only (`toml_edit` would also accept a one-key table for a unit
variant); as in TOML the keys of a table are taken to be distinct.
-/
namespace CC

/-- A TOML value; `other` stands for floats and dates, which no setting of the library takes. -/
inductive Toml where
  | str (s : Str)
  | int (i : Int)
  | bool (b : Bool)
  | other
  | arr (l : List Toml)
  | tbl (l : List (Str × Toml))
deriving Repr

/-! ### `is_none` -/

/-- Models `de::BuildConfig::is_none` of src/gen/is_none.rs 61-69. -/
def BuildConfig.isNone (b : BuildConfig) : Bool :=
  b.jobs.isNone && b.rustc.isNone && b.rustcWrapper.isNone
    && b.rustcWorkspaceWrapper.isNone && b.rustdoc.isNone
    && b.target.isNone && b.targetDir.isNone
    && b.rustflags.isNone && b.rustdocflags.isNone
    && b.incremental.isNone && b.depInfoBasedir.isNone

/-- Models `de::DocConfig::is_none` of src/gen/is_none.rs 70-74. -/
def DocConfig.isNone (d : DocConfig) : Bool := d.browser.isNone

/-- Models `de::FutureIncompatReportConfig::is_none` of src/gen/is_none.rs 75-79. -/
def FutureIncompatReportConfig.isNone (f : FutureIncompatReportConfig) : Bool := f.frequency.isNone

/-- Models `de::CargoNewConfig::is_none` of src/gen/is_none.rs 80-84. -/
def CargoNewConfig.isNone (c : CargoNewConfig) : Bool := c.vcs.isNone

/-- Models `de::HttpConfig::is_none` of src/gen/is_none.rs 85-92. -/
def HttpConfig.isNone (h : HttpConfig) : Bool :=
  h.debug.isNone && h.proxy.isNone && h.timeout.isNone
    && h.cainfo.isNone && h.checkRevoke.isNone
    && h.lowSpeedLimit.isNone && h.multiplexing.isNone
    && h.userAgent.isNone

/-- Models `de::NetConfig::is_none` of src/gen/is_none.rs 93-98. -/
def NetConfig.isNone (n : NetConfig) : Bool :=
  n.retry.isNone && n.gitFetchWithCli.isNone && n.offline.isNone

/-- Models `de::RegistryConfig::is_none` of src/gen/is_none.rs 99-103. -/
def RegistryConfig.isNone (r : RegistryConfig) : Bool := r.default.isNone && r.token.isNone

/-- Models `de::TermProgress::is_none` of src/gen/is_none.rs 110-114. -/
def TermProgress.isNone (p : TermProgress) : Bool := p.when.isNone && p.width.isNone

/-- Models `de::TermConfig::is_none` of src/gen/is_none.rs 104-109. -/
def TermConfig.isNone (t : TermConfig) : Bool :=
  t.quiet.isNone && t.verbose.isNone && t.color.isNone && t.progress.isNone

/-! ### Serialization -/

/-- A field with `#[serde(skip_serializing_if = "Option::is_none")]`. -/
def serField {α : Type} (k : String) (o : Option α) (f : α → Toml) : List (Str × Toml) :=
  match o with
  | none => []
  | some a => [(k.toList, f a)]

/-- A field with `#[serde(skip_serializing_if = ".. ::is_none / is_empty")]`. -/
def serSection (k : String) (skip : Bool) (t : Toml) : List (Str × Toml) :=
  if skip then [] else [(k.toList, t)]

/-- Models the derived `Serialize` of `Value<T>` (src/value.rs 16-26): transparent, the definition is skipped. -/
def serVal {α : Type} (f : α → Toml) (v : Val α) : Toml := f v.val

/-- `u32` as a TOML integer. -/
def serNat (n : Nat) : Toml := .int n

/-- `BTreeMap<String, V>` as a table. -/
def serMap {V : Type} (f : V → Toml) (m : BMap V) : Toml := .tbl (m.mapVals f)

/-- Models the derived `Serialize` of `VersionControlSoftware` (src/de.rs 503-518). -/
def Vcs.serName : Vcs → Str
  | .git => "git".toList
  | .mercurial => "hg".toList
  | .pijul => "pijul".toList
  | .fossil => "fossil".toList
  | .none => "none".toList

/-- Models the derived `Serialize` of `RegistriesProtocol` (src/de.rs 684-694). -/
def Protocol.serName : Protocol → Str
  | .git => "git".toList
  | .sparse => "sparse".toList

/-- Models the derived `Serialize` of `Color` (src/de.rs 790-800). -/
def Color.serName : Color → Str
  | .auto => "auto".toList
  | .always => "always".toList
  | .never => "never".toList

/-- Models the derived `Serialize` of `When` (src/de.rs 831-841). -/
def When.serName : When → Str
  | .auto => "auto".toList
  | .always => "always".toList
  | .never => "never".toList

/-- Models the derived `Serialize` of `Frequency` (src/de.rs 872-881). -/
def Frequency.serName : Frequency → Str
  | .always => "always".toList
  | .never => "never".toList

/-- Models the derived `Serialize` of `Vec<Value<String>>`. -/
def serList (l : List (Val Str)) : Toml := .arr (l.map (serVal .str))

/-- Models the derived `Serialize` of `de::Flags` (src/de.rs 911-918): transparent over `flags`, so always an array. -/
def Flags.ser (f : Flags) : Toml := serList f.flags

/-- The loop of src/de.rs 1067-1070; `s` is the accumulator. -/
def pushArgs (s : Str) : List (Val Str) → Str
  | [] => s
  | a :: as => pushArgs (s ++ [' '] ++ a.val) as

/-- Models `Serialize for PathAndArgs` of src/de.rs 1059-1083. -/
def PathAndArgs.ser (x : PathAndArgs) : Toml :=
  match x.repr with
  | .string => .str (pushArgs x.path.val x.args)
  | .array => serList (x.path :: x.args)

/-- The loop of src/de.rs 1155-1160; `s` is the accumulator. -/
def pushWords (s : Str) : List (Val Str) → Str
  | [] => s
  | a :: as => pushWords ((if !s.isEmpty then s ++ [' '] else s) ++ a.val) as

/-- Models `Serialize for StringList` of src/de.rs 1144-1166. -/
def StringList.ser (l : StringList) : Toml :=
  match l.repr with
  | .string => .str (pushWords [] l.list)
  | .array => serList l.list

/-- Models the derived (untagged) `Serialize` of `StringOrArray` (src/de.rs 1181-1187). -/
def StringOrArray.ser : StringOrArray → Toml
  | .string s => serVal .str s
  | .array l => serList l

/-- Models the derived (untagged) `Serialize` of `EnvConfigValue` (src/de.rs 438-450). -/
def EnvConfigValue.ser : EnvConfigValue → Toml
  | .value v => serVal .str v
  | .table v f r => .tbl
      ([("value".toList, serVal .str v)] ++ serField "force" f (serVal .bool) ++ serField "relative" r (serVal .bool))

/-- Models the derived `Serialize` of `BuildConfig` (src/de.rs 318-388); the two flags are `#[serde(skip)]`. -/
def BuildConfig.ser (b : BuildConfig) : Toml := .tbl
  (serField "jobs" b.jobs (serVal .int) ++
   serField "rustc" b.rustc (serVal .str) ++
   serField "rustc-wrapper" b.rustcWrapper (serVal .str) ++
   serField "rustc-workspace-wrapper" b.rustcWorkspaceWrapper (serVal .str) ++
   serField "rustdoc" b.rustdoc (serVal .str) ++
   serField "target" b.target StringOrArray.ser ++
   serField "target-dir" b.targetDir (serVal .str) ++
   serField "rustflags" b.rustflags Flags.ser ++
   serField "rustdocflags" b.rustdocflags Flags.ser ++
   serField "incremental" b.incremental (serVal .bool) ++
   serField "dep-info-basedir" b.depInfoBasedir (serVal .str))

/-- Models the derived `Serialize` of `TargetConfig` (src/de.rs 394-417). -/
def TargetConfig.ser (t : TargetConfig) : Toml := .tbl
  (serField "linker" t.linker (serVal .str) ++
   serField "runner" t.runner PathAndArgs.ser ++
   serField "rustflags" t.rustflags Flags.ser ++
   serField "rustdocflags" t.rustdocflags Flags.ser)

/-- Models the derived `Serialize` of `DocConfig` (src/de.rs 422-432). -/
def DocConfig.ser (d : DocConfig) : Toml := .tbl (serField "browser" d.browser PathAndArgs.ser)

/-- Models the derived `Serialize` of `FutureIncompatReportConfig` (src/de.rs 478-487). -/
def FutureIncompatReportConfig.ser (f : FutureIncompatReportConfig) : Toml := .tbl
  (serField "frequency" f.frequency (serVal fun x => .str x.serName))

/-- Models the derived `Serialize` of `CargoNewConfig` (src/de.rs 492-501). -/
def CargoNewConfig.ser (c : CargoNewConfig) : Toml := .tbl
  (serField "vcs" c.vcs (serVal fun x => .str x.serName))

/-- Models the derived `Serialize` of `HttpConfig` (src/de.rs 550-607). -/
def HttpConfig.ser (h : HttpConfig) : Toml := .tbl
  (serField "debug" h.debug (serVal .bool) ++
   serField "proxy" h.proxy (serVal .str) ++
   serField "timeout" h.timeout (serVal serNat) ++
   serField "cainfo" h.cainfo (serVal .str) ++
   serField "check-revoke" h.checkRevoke (serVal .bool) ++
   serField "low-speed-limit" h.lowSpeedLimit (serVal serNat) ++
   serField "multiplexing" h.multiplexing (serVal .bool) ++
   serField "user-agent" h.userAgent (serVal .str))

/-- Models the derived `Serialize` of `NetConfig` (src/de.rs 612-636). -/
def NetConfig.ser (n : NetConfig) : Toml := .tbl
  (serField "retry" n.retry (serVal serNat) ++
   serField "git-fetch-with-cli" n.gitFetchWithCli (serVal .bool) ++
   serField "offline" n.offline (serVal .bool))

/-- Models the derived `Serialize` of `RegistriesConfigValue` (src/de.rs 641-665). -/
def RegistriesConfigValue.ser (r : RegistriesConfigValue) : Toml := .tbl
  (serField "index" r.index (serVal .str) ++
   serField "token" r.token (serVal .str) ++
   serField "protocol" r.protocol (serVal fun x => .str x.serName))

/-- Models the derived `Serialize` of `RegistryConfig` (src/de.rs 711-732). -/
def RegistryConfig.ser (r : RegistryConfig) : Toml := .tbl
  (serField "default" r.default (serVal .str) ++
   serField "token" r.token (serVal .str))

/-- Models the derived `Serialize` of `TermProgress` (src/de.rs 774-788). -/
def TermProgress.ser (p : TermProgress) : Toml := .tbl
  (serField "when" p.when (serVal fun x => .str x.serName) ++
   serField "width" p.width (serVal serNat))

/-- Models the derived `Serialize` of `TermConfig` (src/de.rs 750-772). -/
def TermConfig.ser (t : TermConfig) : Toml := .tbl
  (serField "quiet" t.quiet (serVal .bool) ++
   serField "verbose" t.verbose (serVal .bool) ++
   serField "color" t.color (serVal fun x => .str x.serName) ++
   serSection "progress" t.progress.isNone t.progress.ser)

/-- Models the derived `Serialize` of `de::Config` (src/de.rs 34-115). -/
def Config.ser (c : Config) : Toml := .tbl
  (serSection "alias" c.alias.isEmpty (serMap StringList.ser c.alias) ++
   serSection "build" c.build.isNone c.build.ser ++
   serSection "doc" c.doc.isNone c.doc.ser ++
   serSection "env" c.env.isEmpty (serMap EnvConfigValue.ser c.env) ++
   serSection "future-incompat-report" c.futureIncompatReport.isNone c.futureIncompatReport.ser ++
   serSection "cargo-new" c.cargoNew.isNone c.cargoNew.ser ++
   serSection "http" c.http.isNone c.http.ser ++
   serSection "net" c.net.isNone c.net.ser ++
   serSection "registries" c.registries.isEmpty (serMap RegistriesConfigValue.ser c.registries) ++
   serSection "registry" c.registry.isNone c.registry.ser ++
   serSection "target" c.target.isEmpty (serMap TargetConfig.ser c.target) ++
   serSection "term" c.term.isNone c.term.ser)

/-! ### Deserialization -/

/-- A serde error; its text is not modelled. -/
def deErr {α : Type} : Res α := .err (.toml [])

/-- A field of type `Option<T>`: absent gives `None`. -/
def deField {α : Type} (t : List (Str × Toml)) (k : String) (f : Toml → Res α) : Res (Option α) :=
  match BMap.get t k.toList with
  | none => .ok none
  | some v => f v >>= fun a => .ok (some a)

/-- A field with `#[serde(default)]`: absent gives the default. -/
def deSection {α : Type} (t : List (Str × Toml)) (k : String) (d : α) (f : Toml → Res α) : Res α :=
  match BMap.get t k.toList with
  | none => .ok d
  | some v => f v

/-- Models the derived `Deserialize` of `Value<T>` (src/value.rs 16-26): transparent, no definition. -/
def deVal {α : Type} (f : Toml → Res α) (t : Toml) : Res (Val α) :=
  f t >>= fun a => .ok { val := a, defn := none }

/-- `String`. -/
def deStr : Toml → Res Str
  | .str s => .ok s
  | _ => deErr

/-- `bool`. -/
def deBool : Toml → Res Bool
  | .bool b => .ok b
  | _ => deErr

/-- `i32`: an integer in range. -/
def deI32 : Toml → Res Int
  | .int i => if -2147483648 ≤ i ∧ i ≤ 2147483647 then .ok i else deErr
  | _ => deErr

/-- `u32`: an integer in range. -/
def deU32 : Toml → Res Nat
  | .int i => if 0 ≤ i ∧ i ≤ 4294967295 then .ok i.toNat else deErr
  | _ => deErr

/-- A sequence of elements. -/
def deElems {α : Type} (f : Toml → Res α) : List Toml → Res (List α)
  | [] => .ok []
  | t :: ts => do
    let a ← f t
    let as ← deElems f ts
    .ok (a :: as)

/-- `Vec<Value<String>>`. -/
def deList : Toml → Res (List (Val Str))
  | .arr l => deElems (deVal deStr) l
  | _ => deErr

/-- The entries of a map, inserted in order into `m`. -/
def deEntries {V : Type} (f : Toml → Res V) : BMap V → List (Str × Toml) → Res (BMap V)
  | m, [] => .ok m
  | m, (k, t) :: ts => do
    let v ← f t
    deEntries f (m.insert k v) ts

/-- `BTreeMap<String, V>`. -/
def deMap {V : Type} (f : Toml → Res V) : Toml → Res (BMap V)
  | .tbl l => deEntries f [] l
  | _ => deErr

/-- Models the derived `Deserialize` of `VersionControlSoftware` (src/de.rs 503-518). -/
def Vcs.de : Toml → Res Vcs
  | .str s =>
    if s = "git".toList then .ok .git
    else if s = "hg".toList then .ok .mercurial
    else if s = "pijul".toList then .ok .pijul
    else if s = "fossil".toList then .ok .fossil
    else if s = "none".toList then .ok .none
    else deErr
  | _ => deErr

/-- Models the derived `Deserialize` of `RegistriesProtocol` (src/de.rs 684-694). -/
def Protocol.de : Toml → Res Protocol
  | .str s =>
    if s = "git".toList then .ok .git
    else if s = "sparse".toList then .ok .sparse
    else deErr
  | _ => deErr

/-- Models the derived `Deserialize` of `Color` (src/de.rs 790-800). -/
def Color.de : Toml → Res Color
  | .str s =>
    if s = "auto".toList then .ok .auto
    else if s = "always".toList then .ok .always
    else if s = "never".toList then .ok .never
    else deErr
  | _ => deErr

/-- Models the derived `Deserialize` of `When` (src/de.rs 831-841). -/
def When.de : Toml → Res When
  | .str s =>
    if s = "auto".toList then .ok .auto
    else if s = "always".toList then .ok .always
    else if s = "never".toList then .ok .never
    else deErr
  | _ => deErr

/-- Models the derived `Deserialize` of `Frequency` (src/de.rs 872-881). -/
def Frequency.de : Toml → Res Frequency
  | .str s =>
    if s = "always".toList then .ok .always
    else if s = "never".toList then .ok .never
    else deErr
  | _ => deErr

/-- Models the derived (untagged) `Deserialize` of `StringOrArray` (src/de.rs 1181-1187): a string if it is one, else an
array. -/
def StringOrArray.de : Toml → Res StringOrArray
  | .str s => .ok (.string { val := s, defn := none })
  | t => deList t >>= fun l => .ok (.array l)

/-- Models `Deserialize for Flags` of src/de.rs 973-986. -/
def Flags.de (t : Toml) : Res Flags :=
  StringOrArray.de t >>= fun
    | .string s => .ok (Flags.fromSpaceSeparated s.val s.defn)
    | .array l => .ok (Flags.fromArray l)

/-- Models `Deserialize for PathAndArgs` of src/de.rs 1084-1105. -/
def PathAndArgs.de (t : Toml) : Res PathAndArgs :=
  StringOrArray.de t >>= fun v =>
    match (match v with
      | .string s => PathAndArgs.fromString s.val none
      | .array l => PathAndArgs.fromArray l) with
    | some x => .ok x
    | none => deErr

/-- Models `Deserialize for StringList` of src/de.rs 1167-1178. -/
def StringList.de (t : Toml) : Res StringList :=
  StringOrArray.de t >>= fun
    | .string s => .ok (StringList.fromString s.val s.defn)
    | .array l => .ok (StringList.fromArray l)

/-- Models the derived (untagged) `Deserialize` of `EnvConfigValue` (src/de.rs 438-450). -/
def EnvConfigValue.de : Toml → Res EnvConfigValue
  | .str s => .ok (.value { val := s, defn := none })
  | .tbl t => do
    let value ← deField t "value" (deVal deStr)
    let force ← deField t "force" (deVal deBool)
    let relative ← deField t "relative" (deVal deBool)
    let value ← Res.ofOption (.toml []) value
    .ok (.table value force relative)
  | _ => deErr

/-- Models the derived `Deserialize` of `BuildConfig` (src/de.rs 318-388); the two flags are `#[serde(skip)]`. -/
def BuildConfig.de : Toml → Res BuildConfig
  | .tbl t => do
    let jobs ← deField t "jobs" (deVal deI32)
    let rustc ← deField t "rustc" (deVal deStr)
    let rustcWrapper ← deField t "rustc-wrapper" (deVal deStr)
    let rustcWorkspaceWrapper ← deField t "rustc-workspace-wrapper" (deVal deStr)
    let rustdoc ← deField t "rustdoc" (deVal deStr)
    let target ← deField t "target" StringOrArray.de
    let targetDir ← deField t "target-dir" (deVal deStr)
    let rustflags ← deField t "rustflags" Flags.de
    let rustdocflags ← deField t "rustdocflags" Flags.de
    let incremental ← deField t "incremental" (deVal deBool)
    let depInfoBasedir ← deField t "dep-info-basedir" (deVal deStr)
    .ok { jobs := jobs, rustc := rustc, rustcWrapper := rustcWrapper
          rustcWorkspaceWrapper := rustcWorkspaceWrapper, rustdoc := rustdoc, target := target
          targetDir := targetDir, rustflags := rustflags, rustdocflags := rustdocflags
          incremental := incremental, depInfoBasedir := depInfoBasedir
          overrideTargetRustflags := false, overrideTargetRustdocflags := false }
  | _ => deErr

/-- Models the derived `Deserialize` of `TargetConfig` (src/de.rs 394-417). -/
def TargetConfig.de : Toml → Res TargetConfig
  | .tbl t => do
    let linker ← deField t "linker" (deVal deStr)
    let runner ← deField t "runner" PathAndArgs.de
    let rustflags ← deField t "rustflags" Flags.de
    let rustdocflags ← deField t "rustdocflags" Flags.de
    .ok { linker := linker, runner := runner, rustflags := rustflags, rustdocflags := rustdocflags }
  | _ => deErr

/-- Models the derived `Deserialize` of `DocConfig` (src/de.rs 422-432). -/
def DocConfig.de : Toml → Res DocConfig
  | .tbl t => do
    let browser ← deField t "browser" PathAndArgs.de
    .ok { browser := browser }
  | _ => deErr

/-- Models the derived `Deserialize` of `FutureIncompatReportConfig` (src/de.rs 478-487). -/
def FutureIncompatReportConfig.de : Toml → Res FutureIncompatReportConfig
  | .tbl t => do
    let frequency ← deField t "frequency" (deVal Frequency.de)
    .ok { frequency := frequency }
  | _ => deErr

/-- Models the derived `Deserialize` of `CargoNewConfig` (src/de.rs 492-501). -/
def CargoNewConfig.de : Toml → Res CargoNewConfig
  | .tbl t => do
    let vcs ← deField t "vcs" (deVal Vcs.de)
    .ok { vcs := vcs }
  | _ => deErr

/-- Models the derived `Deserialize` of `HttpConfig` (src/de.rs 550-607). -/
def HttpConfig.de : Toml → Res HttpConfig
  | .tbl t => do
    let debug ← deField t "debug" (deVal deBool)
    let proxy ← deField t "proxy" (deVal deStr)
    let timeout ← deField t "timeout" (deVal deU32)
    let cainfo ← deField t "cainfo" (deVal deStr)
    let checkRevoke ← deField t "check-revoke" (deVal deBool)
    let lowSpeedLimit ← deField t "low-speed-limit" (deVal deU32)
    let multiplexing ← deField t "multiplexing" (deVal deBool)
    let userAgent ← deField t "user-agent" (deVal deStr)
    .ok { debug := debug, proxy := proxy, timeout := timeout, cainfo := cainfo, checkRevoke := checkRevoke
          lowSpeedLimit := lowSpeedLimit, multiplexing := multiplexing, userAgent := userAgent }
  | _ => deErr

/-- Models the derived `Deserialize` of `NetConfig` (src/de.rs 612-636). -/
def NetConfig.de : Toml → Res NetConfig
  | .tbl t => do
    let retry ← deField t "retry" (deVal deU32)
    let gitFetchWithCli ← deField t "git-fetch-with-cli" (deVal deBool)
    let offline ← deField t "offline" (deVal deBool)
    .ok { retry := retry, gitFetchWithCli := gitFetchWithCli, offline := offline }
  | _ => deErr

/-- Models the derived `Deserialize` of `RegistriesConfigValue` (src/de.rs 641-665). -/
def RegistriesConfigValue.de : Toml → Res RegistriesConfigValue
  | .tbl t => do
    let index ← deField t "index" (deVal deStr)
    let token ← deField t "token" (deVal deStr)
    let protocol ← deField t "protocol" (deVal Protocol.de)
    .ok { index := index, token := token, protocol := protocol }
  | _ => deErr

/-- Models the derived `Deserialize` of `RegistryConfig` (src/de.rs 711-732). -/
def RegistryConfig.de : Toml → Res RegistryConfig
  | .tbl t => do
    let default ← deField t "default" (deVal deStr)
    let token ← deField t "token" (deVal deStr)
    .ok { default := default, token := token }
  | _ => deErr

/-- Models the derived `Deserialize` of `TermProgress` (src/de.rs 774-788). -/
def TermProgress.de : Toml → Res TermProgress
  | .tbl t => do
    let when ← deField t "when" (deVal When.de)
    let width ← deField t "width" (deVal deU32)
    .ok { when := when, width := width }
  | _ => deErr

/-- Models the derived `Deserialize` of `TermConfig` (src/de.rs 750-772). -/
def TermConfig.de : Toml → Res TermConfig
  | .tbl t => do
    let quiet ← deField t "quiet" (deVal deBool)
    let verbose ← deField t "verbose" (deVal deBool)
    let color ← deField t "color" (deVal Color.de)
    let progress ← deSection t "progress" {} TermProgress.de
    .ok { quiet := quiet, verbose := verbose, color := color, progress := progress }
  | _ => deErr

/-- Models the derived `Deserialize` of `de::Config` (src/de.rs 34-115).  Unknown keys are ignored. -/
def Config.de : Toml → Res Config
  | .tbl t => do
    let alias ← deSection t "alias" [] (deMap StringList.de)
    let build ← deSection t "build" {} BuildConfig.de
    let doc ← deSection t "doc" {} DocConfig.de
    let env ← deSection t "env" [] (deMap EnvConfigValue.de)
    let futureIncompatReport ← deSection t "future-incompat-report" {} FutureIncompatReportConfig.de
    let cargoNew ← deSection t "cargo-new" {} CargoNewConfig.de
    let http ← deSection t "http" {} HttpConfig.de
    let net ← deSection t "net" {} NetConfig.de
    let registries ← deSection t "registries" [] (deMap RegistriesConfigValue.de)
    let registry ← deSection t "registry" {} RegistryConfig.de
    let target ← deSection t "target" [] (deMap TargetConfig.de)
    let term ← deSection t "term" {} TermConfig.de
    .ok { alias := alias, build := build, doc := doc, env := env, futureIncompatReport := futureIncompatReport
          cargoNew := cargoNew, http := http, net := net, registries := registries, registry := registry
          target := target, term := term }
  | _ => deErr

end CC
