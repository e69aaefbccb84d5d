import Verif.Model.Enums
/-
Environment variables: the part of `ResolveOptions`/`ResolveContext` that reads them (src/resolve.rs) and
`Config::apply_env` (src/env.rs).
-/
namespace CC

/-- `HashMap<String, OsString>` (std): its entries in iteration order.  The order is arbitrary; the keys are distinct. -/
abbrev Env := List (Str × OsStr)

/-- `HashMap::get`. -/
def Env.get : Env → Str → Option OsStr
  | [], _ => none
  | (k', v) :: m, k => if k' = k then some v else Env.get m k

/-- `HashMap::insert`: replaces the value of an existing key (the position of a new key is arbitrary). -/
def Env.insert (k : Str) (v : OsStr) : Env → Env
  | [] => [(k, v)]
  | (k', v') :: m => if k' = k then (k, v) :: m else (k', v') :: Env.insert k v m

/-- The filter on names in `ResolveOptions::env` of src/resolve.rs 100. -/
def envRelevant (k : Str) : Bool :=
  startsWith "CARGO".toList k || startsWith "RUST".toList k || k = "BROWSER".toList

/-- The loop of `ResolveOptions::env` of src/resolve.rs 98-104. -/
def optEnvLoop : Env → List (OsStr × OsStr) → Env
  | m, [] => m
  | m, (k, v) :: vars =>
    match k.toStr? with
    | some k => optEnvLoop (if envRelevant k then m.insert k v else m) vars
    | none => optEnvLoop m vars

/-- Models `ResolveOptions::env` of src/resolve.rs 93-107. -/
def optEnv (vars : List (OsStr × OsStr)) : Env := optEnvLoop [] vars

/-- Models `Error::env_not_unicode` of src/error.rs 42-47. -/
def Err.envNotUnicode (name : Str) (raw : OsStr) : Err :=
  .context "failed to parse environment variable `{}`".toList [name] [] (some (.notUnicode raw))

/-- Models `Error::env_not_unicode_redacted` of src/error.rs 48-53. -/
def Err.envNotUnicodeRedacted (name : Str) : Err :=
  .context "failed to parse environment variable `{}`".toList [name] [] (some .redacted)

/-- Models `ResolveContext::env` of src/resolve.rs 239-247 and `env_dyn` 273-281 (the same code). -/
def Env.var (env : Env) (name : Str) : Res (Option (Val Str)) :=
  match env.get name with
  | none => .ok none
  | some v =>
    match v.toStr? with
    | some s => .ok (some { val := s, defn := some (.environment name) })
    | none => .err (.envNotUnicode name v)

/-- Models `ResolveContext::env_redacted` of src/resolve.rs 248-259. -/
def Env.varRedacted (env : Env) (name : Str) : Res (Option (Val Str)) :=
  match env.get name with
  | none => .ok none
  | some v =>
    match v.toStr? with
    | some s => .ok (some { val := s, defn := some (.environment name) })
    | none => .err (.envNotUnicodeRedacted name)

/-- Models `Value::<String>::parse` of src/value.rs 29-31, given `FromStr` of the type. -/
def Val.parse {α : Type} (fromStr : Str → Res α) (v : Val Str) : Res (Val α) :=
  fromStr v.val >>= fun a => .ok { val := a, defn := v.defn }

/-- Models `ResolveContext::env_parse` of src/resolve.rs 260-272. -/
def Env.parse {α : Type} (fromStr : Str → Res α) (env : Env) (name : Str) : Res (Option (Val α)) :=
  env.var name >>= fun o =>
    match o with
    | some v =>
      (v.parse fromStr).withContext "failed to parse environment variable `{}`".toList [name] []
        >>= fun x => .ok (some x)
    | none => .ok none

/-- `if let Some(v) = r? { field = f(v) }`: the new value of the field, whose old value is `b`. -/
def Res.ifSome {α β : Type} (r : Res (Option α)) (b : β) (f : α → β) : Res β :=
  r >>= fun o =>
    match o with
    | some v => .ok (f v)
    | none => .ok b

/-- `if let Some(v) = r? { field = f(v) } else if let Some(w) = s? { field = g(w) }`: the new value of the field. -/
def Res.ifSomeElse {α α' β : Type} (r : Res (Option α)) (f : α → β) (s : Res (Option α')) (b : β) (g : α' → β) : Res β :=
  r >>= fun o =>
    match o with
    | some v => .ok (f v)
    | none => s.ifSome b g

/-- The empty-means-unset rule of src/env.rs 132-136, 138-142, 150-154 and 158-162: a wrapper variable's value as the new setting. -/
def wrapperOf (v : Val Str) : Option (Val Str) := if v.val.isEmpty then none else some v

/-- The rustflags part of `BuildConfig::apply_env`, src/env.rs 195-206 and 213-228, as the new flags and override switch. -/
def rustflagsFromEnv (env : Env) (encoded plain build : Str) (old : Option Flags) : Res (Option Flags × Bool) :=
  env.var encoded >>= fun o =>
    match o with
    | some v => .ok (some (Flags.fromEncoded v), true)
    | none =>
      Res.ifSomeElse (env.var plain) (fun v => (some (Flags.fromSpaceSeparated v.val v.defn), true))
        (env.var build) (old, false) (fun v => (some (Flags.fromSpaceSeparated v.val v.defn), false))

/-- Models `ApplyEnv for BuildConfig` of src/env.rs 108-250. -/
def BuildConfig.applyEnv (env : Env) (b : BuildConfig) : Res BuildConfig := do
  let x ← (env.parse i32FromStr "CARGO_BUILD_JOBS".toList).ifSome b.jobs fun v => some v
  let b := { b with jobs := x }
  let x ← Res.ifSomeElse (env.var "RUSTC".toList) (fun v => some v)
    (env.var "CARGO_BUILD_RUSTC".toList) b.rustc (fun v => some v)
  let b := { b with rustc := x }
  let x ← Res.ifSomeElse (env.var "RUSTC_WRAPPER".toList) (fun v => wrapperOf v)
    (env.var "CARGO_BUILD_RUSTC_WRAPPER".toList) b.rustcWrapper (fun v => wrapperOf v)
  let b := { b with rustcWrapper := x }
  let x ← Res.ifSomeElse (env.var "RUSTC_WORKSPACE_WRAPPER".toList) (fun v => wrapperOf v)
    (env.var "CARGO_BUILD_RUSTC_WORKSPACE_WRAPPER".toList) b.rustcWorkspaceWrapper (fun v => wrapperOf v)
  let b := { b with rustcWorkspaceWrapper := x }
  let x ← Res.ifSomeElse (env.var "RUSTDOC".toList) (fun v => some v)
    (env.var "CARGO_BUILD_RUSTDOC".toList) b.rustdoc (fun v => some v)
  let b := { b with rustdoc := x }
  let x ← (env.var "CARGO_BUILD_TARGET".toList).ifSome b.target fun v => some (.string v)
  let b := { b with target := x }
  let x ← Res.ifSomeElse (env.var "CARGO_TARGET_DIR".toList) (fun v => some v)
    (env.var "CARGO_BUILD_TARGET_DIR".toList) b.targetDir (fun v => some v)
  let b := { b with targetDir := x }
  let (f, o) ← rustflagsFromEnv env "CARGO_ENCODED_RUSTFLAGS".toList "RUSTFLAGS".toList
    "CARGO_BUILD_RUSTFLAGS".toList b.rustflags
  let b := { b with rustflags := f, overrideTargetRustflags := o }
  let (f, o) ← rustflagsFromEnv env "CARGO_ENCODED_RUSTDOCFLAGS".toList "RUSTDOCFLAGS".toList
    "CARGO_BUILD_RUSTDOCFLAGS".toList b.rustdocflags
  let b := { b with rustdocflags := f, overrideTargetRustdocflags := o }
  let x ← Res.ifSomeElse (env.var "CARGO_INCREMENTAL".toList) (fun v => some { val := v.val = "1".toList, defn := v.defn })
    (env.parse boolFromStr "CARGO_BUILD_INCREMENTAL".toList) b.incremental (fun v => some v)
  let b := { b with incremental := x }
  let x ← (env.var "CARGO_BUILD_DEP_INFO_BASEDIR".toList).ifSome b.depInfoBasedir fun v => some v
  pure { b with depInfoBasedir := x }

/-- Models `ApplyEnv for DocConfig` of src/env.rs 252-266. -/
def DocConfig.applyEnv (env : Env) (d : DocConfig) : Res DocConfig :=
  match d.browser with
  | some _ => .ok d
  | none =>
    env.var "BROWSER".toList >>= fun o =>
      match o with
      | some v =>
        match PathAndArgs.fromString v.val v.defn with
        | some x => .ok { d with browser := some x }
        | none => .err (.context "invalid length 0, expected at least one element".toList [] [] none)
      | none => .ok d

/-- Models `ApplyEnv for FutureIncompatReportConfig` of src/env.rs 268-276. -/
def FutureIncompatReportConfig.applyEnv (env : Env) (f : FutureIncompatReportConfig) :
    Res FutureIncompatReportConfig := do
  let x ← (env.parse Frequency.fromStr "CARGO_FUTURE_INCOMPAT_REPORT_FREQUENCY".toList).ifSome f.frequency fun v => some v
  pure { f with frequency := x }

/-- Models `ApplyEnv for CargoNewConfig` of src/env.rs 278-286.  `Config::apply_env` does not call it. -/
def CargoNewConfig.applyEnv (env : Env) (n : CargoNewConfig) : Res CargoNewConfig := do
  let x ← (env.parse Vcs.fromStr "CARGO_CARGO_NEW_VCS".toList).ifSome n.vcs fun v => some v
  pure { n with vcs := x }

/-- Models `ApplyEnv for HttpConfig` of src/env.rs 288-328. -/
def HttpConfig.applyEnv (env : Env) (h : HttpConfig) : Res HttpConfig := do
  let x ← (env.parse boolFromStr "CARGO_HTTP_DEBUG".toList).ifSome h.debug fun v => some v
  let h := { h with debug := x }
  let x ← (env.var "CARGO_HTTP_PROXY".toList).ifSome h.proxy fun v => some v
  let h := { h with proxy := x }
  let x ← (env.parse u32FromStr "CARGO_HTTP_TIMEOUT".toList).ifSome h.timeout fun v => some v
  let h := { h with timeout := x }
  let x ← (env.var "CARGO_HTTP_CAINFO".toList).ifSome h.cainfo fun v => some v
  let h := { h with cainfo := x }
  let x ← (env.parse boolFromStr "CARGO_HTTP_CHECK_REVOKE".toList).ifSome h.checkRevoke fun v => some v
  let h := { h with checkRevoke := x }
  let x ← (env.parse u32FromStr "CARGO_HTTP_LOW_SPEED_LIMIT".toList).ifSome h.lowSpeedLimit fun v => some v
  let h := { h with lowSpeedLimit := x }
  let x ← (env.parse boolFromStr "CARGO_HTTP_MULTIPLEXING".toList).ifSome h.multiplexing fun v => some v
  let h := { h with multiplexing := x }
  let x ← (env.var "CARGO_HTTP_USER_AGENT".toList).ifSome h.userAgent fun v => some v
  pure { h with userAgent := x }

/-- Models `ApplyEnv for NetConfig` of src/env.rs 330-346. -/
def NetConfig.applyEnv (env : Env) (n : NetConfig) : Res NetConfig := do
  let x ← (env.parse u32FromStr "CARGO_NET_RETRY".toList).ifSome n.retry fun v => some v
  let n := { n with retry := x }
  let x ← (env.parse boolFromStr "CARGO_NET_GIT_FETCH_WITH_CLI".toList).ifSome n.gitFetchWithCli fun v => some v
  let n := { n with gitFetchWithCli := x }
  let x ← (env.parse boolFromStr "CARGO_NET_OFFLINE".toList).ifSome n.offline fun v => some v
  pure { n with offline := x }

/-- Models `ApplyEnv for RegistryConfig` of src/env.rs 348-360. -/
def RegistryConfig.applyEnv (env : Env) (r : RegistryConfig) : Res RegistryConfig := do
  let x ← (env.var "CARGO_REGISTRY_DEFAULT".toList).ifSome r.default fun v => some v
  let r := { r with default := x }
  let x ← (env.varRedacted "CARGO_REGISTRY_TOKEN".toList).ifSome r.token fun v => some v
  pure { r with token := x }

/-- Models `ApplyEnv for TermProgress` of src/env.rs 381-393. -/
def TermProgress.applyEnv (env : Env) (p : TermProgress) : Res TermProgress := do
  let x ← (env.parse When.fromStr "CARGO_TERM_PROGRESS_WHEN".toList).ifSome p.when fun v => some v
  let p := { p with when := x }
  let x ← (env.parse u32FromStr "CARGO_TERM_PROGRESS_WIDTH".toList).ifSome p.width fun v => some v
  pure { p with width := x }

/-- Models `ApplyEnv for TermConfig` of src/env.rs 362-379. -/
def TermConfig.applyEnv (env : Env) (t : TermConfig) : Res TermConfig := do
  let x ← (env.parse boolFromStr "CARGO_TERM_QUIET".toList).ifSome t.quiet fun v => some v
  let t := { t with quiet := x }
  let x ← (env.parse boolFromStr "CARGO_TERM_VERBOSE".toList).ifSome t.verbose fun v => some v
  let t := { t with verbose := x }
  let x ← (env.parse Color.fromStr "CARGO_TERM_COLOR".toList).ifSome t.color fun v => some v
  let t := { t with color := x }
  let p ← t.progress.applyEnv env
  pure { t with progress := p }

/-- `if let Some(x) = self.registries.get_mut(k) { upd(x) } else { self.registries.insert(k, upd(empty)) }`,
src/env.rs 53-61, 66-74 and 81-89. -/
def updRegistry (k : Str) (upd : RegistriesConfigValue → RegistriesConfigValue) (m : BMap RegistriesConfigValue) :
    BMap RegistriesConfigValue :=
  match m.get k with
  | some x => m.insert k (upd x)
  | none => m.insert k (upd {})

/-- Models the body of the loop in `Config::apply_env` of src/env.rs 33-92, for the variable `name` with value `v`. -/
def Config.applyVar (c : Config) (name : Str) (v : OsStr) : Res Config :=
  match stripPrefix "CARGO_ALIAS_".toList name with
  | some k =>
    match v.toStr? with
    | some s => .ok { c with alias := c.alias.insert k (StringList.fromString s (some (.environment name))) }
    | none => .err (.envNotUnicode name v)
  | none =>
    match stripPrefix "CARGO_REGISTRIES_".toList name with
    | none => .ok c
    | some r =>
      match stripSuffix "_INDEX".toList r with
      | some k =>
        match v.toStr? with
        | some s => .ok { c with
            registries := updRegistry k (fun x => { x with index := some ⟨s, some (.environment name)⟩ }) c.registries }
        | none => .err (.envNotUnicode name v)
      | none =>
        match stripSuffix "_TOKEN".toList r with
        | some k =>
          match v.toStr? with
          | some s => .ok { c with
              registries := updRegistry k (fun x => { x with token := some ⟨s, some (.environment name)⟩ }) c.registries }
          | none => .err (.envNotUnicodeRedacted name)
        | none =>
          if r = "CRATES_IO_PROTOCOL".toList then
            match v.toStr? with
            | some s =>
              Val.parse Protocol.fromStr ⟨s, some (.environment name)⟩ >>= fun p => .ok { c with
                registries := updRegistry "crates-io".toList (fun x => { x with protocol := some p }) c.registries }
            | none => .err (.envNotUnicode name v)
          else .ok c

/-- The loop of `Config::apply_env` of src/env.rs 32-93. -/
def Config.applyVars (c : Config) : Env → Res Config
  | [] => .ok c
  | (name, v) :: env => c.applyVar name v >>= fun c => c.applyVars env

/-- Models `Config::apply_env` of src/env.rs 31-105.  The `&mut self` is returned. -/
def Config.applyEnv (env : Env) (c : Config) : Res Config := do
  let c ← c.applyVars env
  let build ← c.build.applyEnv env
  let c := { c with build := build }
  let doc ← c.doc.applyEnv env
  let c := { c with doc := doc }
  let fir ← c.futureIncompatReport.applyEnv env
  let c := { c with futureIncompatReport := fir }
  let http ← c.http.applyEnv env
  let c := { c with http := http }
  let net ← c.net.applyEnv env
  let c := { c with net := net }
  let registry ← c.registry.applyEnv env
  let c := { c with registry := registry }
  let term ← c.term.applyEnv env
  pure { c with term := term }

end CC
