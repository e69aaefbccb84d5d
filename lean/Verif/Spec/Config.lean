import Verif.Model.Config
/-
Specification vocabulary for configurations: the settings of a config, addressed by key.

These definitions only read the data type `Config`; they do not use merging, loading or any other function of the model.
-/
namespace CC

/-- A single value of any type that occurs in a config. -/
inductive Atom where
  | str (s : Str) | int (i : Int) | nat (n : Nat) | bool (b : Bool)
  | vcs (v : Vcs) | protocol (p : Protocol) | color (c : Color) | when (w : When) | frequency (f : Frequency)
deriving DecidableEq, Repr

/-- Change the value, keep the location. -/
def Val.map {α β : Type} (f : α → β) (v : Val α) : Val β := { val := f v.val, defn := v.defn }

/-- The value as found in the file `p`. -/
def Val.foundIn {α : Type} (p : Path) (v : Val α) : Val α := { val := v.val, defn := some (.path p) }

/-- The value of an `[env]` entry. -/
def EnvConfigValue.theValue : EnvConfigValue → Val Str
  | .value v => v
  | .table v _ _ => v

/-- The `force` key of an `[env]` entry. -/
def EnvConfigValue.theForce : EnvConfigValue → Option (Val Bool)
  | .value _ => none
  | .table _ f _ => f

/-- The `relative` key of an `[env]` entry. -/
def EnvConfigValue.theRelative : EnvConfigValue → Option (Val Bool)
  | .value _ => none
  | .table _ _ r => r

/-- Whether an `[env]` entry is a table. -/
def EnvConfigValue.isTable : EnvConfigValue → Bool
  | .value _ => false
  | .table .. => true

/-- The settings that hold a single value. -/
inductive ScalarKey where
  | buildJobs | buildRustc | buildRustcWrapper | buildRustcWorkspaceWrapper | buildRustdoc | buildTargetDir
  | buildIncremental | buildDepInfoBasedir
  | envValue (k : Str) | envForce (k : Str) | envRelative (k : Str)
  | futureIncompatReportFrequency
  | cargoNewVcs
  | httpDebug | httpProxy | httpTimeout | httpCainfo | httpCheckRevoke | httpLowSpeedLimit | httpMultiplexing | httpUserAgent
  | netRetry | netGitFetchWithCli | netOffline
  | registriesIndex (k : Str) | registriesToken (k : Str) | registriesProtocol (k : Str)
  | registryDefault | registryToken
  | targetLinker (k : Str)
  | termQuiet | termVerbose | termColor | termProgressWhen | termProgressWidth
deriving DecidableEq, Repr

/-- The value of a single-valued setting. -/
def ScalarKey.get (c : Config) : ScalarKey → Option (Val Atom)
  | .buildJobs => c.build.jobs.map (Val.map .int)
  | .buildRustc => c.build.rustc.map (Val.map .str)
  | .buildRustcWrapper => c.build.rustcWrapper.map (Val.map .str)
  | .buildRustcWorkspaceWrapper => c.build.rustcWorkspaceWrapper.map (Val.map .str)
  | .buildRustdoc => c.build.rustdoc.map (Val.map .str)
  | .buildTargetDir => c.build.targetDir.map (Val.map .str)
  | .buildIncremental => c.build.incremental.map (Val.map .bool)
  | .buildDepInfoBasedir => c.build.depInfoBasedir.map (Val.map .str)
  | .envValue k => (c.env.get k).map fun e => e.theValue.map .str
  | .envForce k => ((c.env.get k).bind EnvConfigValue.theForce).map (Val.map .bool)
  | .envRelative k => ((c.env.get k).bind EnvConfigValue.theRelative).map (Val.map .bool)
  | .futureIncompatReportFrequency => c.futureIncompatReport.frequency.map (Val.map .frequency)
  | .cargoNewVcs => c.cargoNew.vcs.map (Val.map .vcs)
  | .httpDebug => c.http.debug.map (Val.map .bool)
  | .httpProxy => c.http.proxy.map (Val.map .str)
  | .httpTimeout => c.http.timeout.map (Val.map .nat)
  | .httpCainfo => c.http.cainfo.map (Val.map .str)
  | .httpCheckRevoke => c.http.checkRevoke.map (Val.map .bool)
  | .httpLowSpeedLimit => c.http.lowSpeedLimit.map (Val.map .nat)
  | .httpMultiplexing => c.http.multiplexing.map (Val.map .bool)
  | .httpUserAgent => c.http.userAgent.map (Val.map .str)
  | .netRetry => c.net.retry.map (Val.map .nat)
  | .netGitFetchWithCli => c.net.gitFetchWithCli.map (Val.map .bool)
  | .netOffline => c.net.offline.map (Val.map .bool)
  | .registriesIndex k => ((c.registries.get k).bind (·.index)).map (Val.map .str)
  | .registriesToken k => ((c.registries.get k).bind (·.token)).map (Val.map .str)
  | .registriesProtocol k => ((c.registries.get k).bind (·.protocol)).map (Val.map .protocol)
  | .registryDefault => c.registry.default.map (Val.map .str)
  | .registryToken => c.registry.token.map (Val.map .str)
  | .targetLinker k => ((c.target.get k).bind (·.linker)).map (Val.map .str)
  | .termQuiet => c.term.quiet.map (Val.map .bool)
  | .termVerbose => c.term.verbose.map (Val.map .bool)
  | .termColor => c.term.color.map (Val.map .color)
  | .termProgressWhen => c.term.progress.when.map (Val.map .when)
  | .termProgressWidth => c.term.progress.width.map (Val.map .nat)

/-- The settings that hold a list of strings, which may be written as one string or as an array. -/
inductive ListKey where
  | alias (k : Str)
  | buildTarget | buildRustflags | buildRustdocflags
  | targetRustflags (k : Str) | targetRustdocflags (k : Str)
deriving DecidableEq, Repr

/-- How the list is written, and its elements. -/
def ListKey.get (c : Config) : ListKey → Option (Repr' × List (Val Str))
  | .alias k => (c.alias.get k).map fun l => (l.repr, l.list)
  | .buildTarget => c.build.target.map fun
    | .string s => (.string, [s])
    | .array l => (.array, l)
  | .buildRustflags => c.build.rustflags.map fun l => (l.repr, l.flags)
  | .buildRustdocflags => c.build.rustdocflags.map fun l => (l.repr, l.flags)
  | .targetRustflags k => ((c.target.get k).bind (·.rustflags)).map fun l => (l.repr, l.flags)
  | .targetRustdocflags k => ((c.target.get k).bind (·.rustdocflags)).map fun l => (l.repr, l.flags)

/-- The settings that hold an executable with arguments, which may be written as one string or as an array. -/
inductive ProgKey where
  | docBrowser
  | targetRunner (k : Str)
deriving DecidableEq, Repr

/-- How the command is written, and its words: the program and its arguments. -/
def ProgKey.get (c : Config) : ProgKey → Option (Repr' × List (Val Str))
  | .docBrowser => c.doc.browser.map fun x => (x.repr, x.path :: x.args)
  | .targetRunner k => ((c.target.get k).bind (·.runner)).map fun x => (x.repr, x.path :: x.args)

/-- The entries of the tables with arbitrary keys. -/
inductive TableKey where
  | alias (k : Str) | env (k : Str) | registries (k : Str) | target (k : Str)
deriving DecidableEq, Repr

/-- Whether the table has the entry. -/
def TableKey.present (c : Config) : TableKey → Bool
  | .alias k => (c.alias.get k).isSome
  | .env k => (c.env.get k).isSome
  | .registries k => (c.registries.get k).isSome
  | .target k => (c.target.get k).isSome

/-- Two configs have the same entry. -/
def TableKey.Same (c d : Config) : TableKey → Prop
  | .alias k => c.alias.get k = d.alias.get k
  | .env k => c.env.get k = d.env.get k
  | .registries k => c.registries.get k = d.registries.get k
  | .target k => c.target.get k = d.target.get k

/-- Whether an `[env]` entry is a table (`none` if there is no entry). -/
def envShape (c : Config) (k : Str) : Option Bool := (c.env.get k).map EnvConfigValue.isTable

/-- One config writes a setting as a string that the other writes as an array (or, in `[env]`, as a table). -/
inductive ShapeConflict (a b : Config) : Prop where
  | list (k : ListKey) (r s : Repr') (x y : List (Val Str)) :
      k.get a = some (r, x) → k.get b = some (s, y) → r ≠ s → ShapeConflict a b
  | prog (k : ProgKey) (r s : Repr') (x y : List (Val Str)) :
      k.get a = some (r, x) → k.get b = some (s, y) → r ≠ s → ShapeConflict a b
  | env (k : Str) (r s : Bool) : envShape a k = some r → envShape b k = some s → r ≠ s → ShapeConflict a b

/-- The first value that is set. -/
def firstSome {α : Type} : List (Option α) → Option α
  | [] => none
  | some a :: _ => some a
  | none :: l => firstSome l

end CC
