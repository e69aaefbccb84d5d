import Verif.Model.Query
import Verif.Spec.Serde
import Verif.Spec.Env
import Verif.Spec.Load
import Verif.Spec.Walk
import Verif.Spec.Home
import Verif.Spec.Target
/-
Specification of a resolved configuration in terms of the file system, the environment and the TOML documents found.

Of the model, only the data types (`ProcEnv`, `Options`, `Fs`, `EConfig`, `Toml`) are used, no function that loads, merges, applies the
environment or resolves.
-/
namespace CC

/-- The variables consulted: those given with `ResolveOptions::env`, else those of the process that may matter to Cargo. -/
def EnvOf (p : ProcEnv) (o : Options) (look : Str → Option OsStr) : Prop :=
  match o.env with
  | some e => look = Env.get e
  | none => ∀ n, (CargoVariable n → look n = lastValue p.vars n) ∧ (¬ CargoVariable n → look n = none)

/-- The directory used as `CARGO_HOME`: the one given with `ResolveOptions::cargo_home`, else the one of the process. -/
def HomeOf (p : ProcEnv) (o : Options) (cwd : Path) (home : Option Path) : Prop :=
  match o.cargoHome with
  | some h => home = h
  | none => HomeRule cwd ((firstValue p.vars "CARGO_HOME".toList).map OsStr.path) p.home home

/-- `docs` are the config files that apply in `cwd`, nearest first, with their contents as TOML documents. -/
def DocumentsOf (fs : Fs) (toml : Str → Res Toml) (cwd : Path) (home : Option Path) (docs : List (Path × Toml)) : Prop :=
  ∃ dirs, SearchDirs cwd home dirs ∧ ConfigsOf fs.ex dirs (docs.map Prod.fst) ∧
    ∀ f t, (f, t) ∈ docs → ∃ text, fs.read f = .ok text ∧ toml text = .ok t

/-- The variables consulted for a single-valued setting.  `CARGO_CARGO_NEW_VCS` is not (see C24). -/
def ScalarKey.consulted (k : ScalarKey) : List ScalarSource := if k = .cargoNewVcs then [] else k.sources

/-- The value of a single-valued setting in TOML, and where it comes from: the first variable that is set, else the nearest document
that has the setting. -/
def ScalarKey.source (look : Str → Option OsStr) (docs : List (Path × Toml)) (k : ScalarKey) : Option (Toml × Definition) :=
  match readEnv look k.consulted with
  | some (some (n, a)) => a.map fun a => (a.toml, .environment n)
  | _ => firstSome (docs.map fun (f, t) => (t.at (k.path t.envIsTable)).map fun x => (x, .path f))

/-- The values of a list setting found in the documents. -/
inductive ListsIn (split : Bool) (path : List Str) : List (Path × Toml) → List (Repr' × List (Val Str)) → Prop where
  | nil : ListsIn split path [] []
  | unset {f t docs xs} : t.at path = none → ListsIn split path docs xs → ListsIn split path ((f, t) :: docs) xs
  | set {f t docs xs x r ws} : t.at path = some x → TomlList split x r ws → ListsIn split path docs xs →
      ListsIn split path ((f, t) :: docs) ((r, ws.map fun w => ⟨w, some (.path f)⟩) :: xs)

/-- The value of a list setting: the first variable that is set, else all documents joined. -/
def ListKey.Source (look : Str → Option OsStr) (docs : List (Path × Toml)) (k : ListKey) (y : Option (Repr' × List (Val Str))) : Prop :=
  match readEnv look k.sources with
  | some (some (n, x)) => y = some (listFromVar n x)
  | _ => ∃ xs, ListsIn k.splits k.path docs xs ∧ JoinedList xs y

/-- The value of a command setting: all documents joined, else its variable. -/
def ProgKey.Source (look : Str → Option OsStr) (docs : List (Path × Toml)) (k : ProgKey) (y : Option (Repr' × List (Val Str))) : Prop :=
  ∃ xs, ListsIn true k.path docs xs ∧
    (xs ≠ [] → JoinedProg xs y) ∧
    (xs = [] → match readEnv look k.sources with
      | some (some (n, x)) => y = some (listFromVar n x)
      | _ => y = none)

/-- The single-valued settings that are taken over as they are (outer `none`: paths, `[env]` and `[target]`). -/
def ScalarKey.plain (c : EConfig) : ScalarKey → Option (Option Atom)
  | .buildJobs => some (c.build.jobs.map .int)
  | .buildIncremental => some (c.build.incremental.map .bool)
  | .futureIncompatReportFrequency => some (c.futureIncompatReport.frequency.map .frequency)
  | .cargoNewVcs => some (c.cargoNew.vcs.map .vcs)
  | .httpDebug => some (c.http.debug.map .bool)
  | .httpProxy => some (c.http.proxy.map .str)
  | .httpTimeout => some (c.http.timeout.map .nat)
  | .httpCainfo => some (c.http.cainfo.map .str)
  | .httpCheckRevoke => some (c.http.checkRevoke.map .bool)
  | .httpLowSpeedLimit => some (c.http.lowSpeedLimit.map .nat)
  | .httpMultiplexing => some (c.http.multiplexing.map .bool)
  | .httpUserAgent => some (c.http.userAgent.map .str)
  | .netRetry => some (c.net.retry.map .nat)
  | .netGitFetchWithCli => some (c.net.gitFetchWithCli.map .bool)
  | .netOffline => some (c.net.offline.map .bool)
  | .registriesIndex k => some (((BMap.get c.registries k).bind (·.index)).map .str)
  | .registriesToken k => some (((BMap.get c.registries k).bind (·.token)).map .str)
  | .registriesProtocol k => some (((BMap.get c.registries k).bind (·.protocol)).map .protocol)
  | .registryDefault => some (c.registry.default.map .str)
  | .registryToken => some (c.registry.token.map .str)
  | .termQuiet => some (c.term.quiet.map .bool)
  | .termVerbose => some (c.term.verbose.map .bool)
  | .termColor => some (c.term.color.map .color)
  | .termProgressWhen => some (c.term.progress.when.map .when)
  | .termProgressWidth => some (c.term.progress.width.map .nat)
  | _ => none

/-- The settings that name a program. -/
def ScalarKey.program (c : EConfig) : ScalarKey → Option (Option Path)
  | .buildRustc => some c.build.rustc
  | .buildRustcWrapper => some c.build.rustcWrapper
  | .buildRustcWorkspaceWrapper => some c.build.rustcWorkspaceWrapper
  | .buildRustdoc => some c.build.rustdoc
  | _ => none

/-- The settings that name a directory. -/
def ScalarKey.directory (c : EConfig) : ScalarKey → Option (Option Path)
  | .buildTargetDir => some c.build.targetDir
  | .buildDepInfoBasedir => some c.build.depInfoBasedir
  | _ => none

/-- The lists of strings that are taken over as they are. -/
def ListKey.plain (c : EConfig) : ListKey → Option (Option (List Str))
  | .alias k => some ((BMap.get c.alias k).map (·.list))
  | .buildRustflags => some (c.build.rustflags.map (·.flags))
  | .buildRustdocflags => some (c.build.rustdocflags.map (·.flags))
  | _ => none

/-- A target named by a string of `build.target`: a triple, or a spec file relative to where it was written. -/
inductive TargetNamed (cwd : Path) : Val Str → TargetTriple → Prop where
  | triple (s : Str) (d : Option Definition) : ¬ NamesSpecFile s → TargetNamed cwd ⟨s, d⟩ ⟨s, none⟩
  | spec (s : Str) (d : Definition) (f stem base : Str) : NamesSpecFile s → EndsInFile s f → IsStem f stem → BaseDir cwd d base →
      TargetNamed cwd ⟨s, some d⟩ ⟨stem, some (Path.join base s)⟩

end CC
