import Verif.Spec.Config
import Verif.Spec.Text
/-
Specification vocabulary for environment variables: which variables set which setting, and how their texts are read.

The tables below are written from the Cargo reference; they do not use `apply_env` or anything else of Model/Env.
-/
namespace CC

/-- A variable that sets a setting, and what its text stands for (`none`: malformed). -/
abbrev Source (α : Type) := Str × (Str → Option α)

/-- The setting as the environment gives it: `none` if none of the variables is set, `some none` if the first
variable that is set is malformed, else the name of the first variable that is set and what it stands for. -/
def readEnv {α : Type} (env : Str → Option OsStr) : List (Source α) → Option (Option (Str × α))
  | [] => none
  | (n, rd) :: l =>
    match env n with
    | none => readEnv env l
    | some (.invalid _) => some none
    | some (.unicode s) => some ((rd s).map fun a => (n, a))

/-- What a variable for a single-valued setting stands for: the new value, or (inner `none`) "no value". -/
abbrev ScalarSource := Source (Option Atom)

/-- The text itself. -/
def asText (n : String) : ScalarSource := (n.toList, fun s => some (some (.str s)))
/-- The text itself, where the empty text removes the setting. -/
def asWrapper (n : String) : ScalarSource := (n.toList, fun s => if s = [] then some none else some (some (.str s)))
/-- `true` or `false`. -/
def asBool (n : String) : ScalarSource := (n.toList, fun s =>
  if s = "true".toList then some (some (.bool true)) else if s = "false".toList then some (some (.bool false)) else none)
/-- The number written with the decimal digits `s` (at least one). -/
def decimalValue (s : Str) : Option Nat :=
  if s ≠ [] ∧ s.all (fun c => '0' ≤ c && c ≤ '9') then some (s.foldl (fun n c => 10 * n + (c.toNat - 48)) 0) else none
/-- The number written with the decimal digits `s`, unless it exceeds `max`. -/
def decimalUpTo (max : Nat) (s : Str) : Option Nat :=
  match decimalValue s with
  | some n => if n ≤ max then some n else none
  | none => none
/-- The text of an unsigned 32-bit number, possibly with a plus sign. -/
def textU32 : Str → Option Nat
  | '+' :: s => decimalUpTo 4294967295 s
  | s => decimalUpTo 4294967295 s
/-- The text of a signed 32-bit number, possibly with a sign. -/
def textI32 : Str → Option Int
  | '-' :: s => (decimalUpTo 2147483648 s).map fun n => -(n : Int)
  | '+' :: s => (decimalUpTo 2147483647 s).map fun n => (n : Int)
  | s => (decimalUpTo 2147483647 s).map fun n => (n : Int)
/-- An unsigned 32-bit number. -/
def asU32 (n : String) : ScalarSource := (n.toList, fun s => (textU32 s).map fun n => some (.nat n))
/-- A signed 32-bit number. -/
def asI32 (n : String) : ScalarSource := (n.toList, fun s => (textI32 s).map fun n => some (.int n))
/-- One of the words listed. -/
def asWord (n : String) (l : List (String × Atom)) : ScalarSource := (n.toList, fun s =>
  (l.find? fun e => e.1.toList == s).map fun e => some e.2)

/-- The variables that set a single-valued setting, the preferred ones first. -/
def ScalarKey.sources : ScalarKey → List ScalarSource
  | .buildJobs => [asI32 "CARGO_BUILD_JOBS"]
  | .buildRustc => [asText "RUSTC", asText "CARGO_BUILD_RUSTC"]
  | .buildRustcWrapper => [asWrapper "RUSTC_WRAPPER", asWrapper "CARGO_BUILD_RUSTC_WRAPPER"]
  | .buildRustcWorkspaceWrapper => [asWrapper "RUSTC_WORKSPACE_WRAPPER", asWrapper "CARGO_BUILD_RUSTC_WORKSPACE_WRAPPER"]
  | .buildRustdoc => [asText "RUSTDOC", asText "CARGO_BUILD_RUSTDOC"]
  | .buildTargetDir => [asText "CARGO_TARGET_DIR", asText "CARGO_BUILD_TARGET_DIR"]
  | .buildIncremental =>
    [("CARGO_INCREMENTAL".toList, fun s => some (some (.bool (s = "1".toList)))), asBool "CARGO_BUILD_INCREMENTAL"]
  | .buildDepInfoBasedir => [asText "CARGO_BUILD_DEP_INFO_BASEDIR"]
  | .envValue _ | .envForce _ | .envRelative _ | .targetLinker _ => []
  | .futureIncompatReportFrequency =>
    [asWord "CARGO_FUTURE_INCOMPAT_REPORT_FREQUENCY" [("always", .frequency .always), ("never", .frequency .never)]]
  | .cargoNewVcs =>
    [asWord "CARGO_CARGO_NEW_VCS" [("git", .vcs .git), ("hg", .vcs .mercurial), ("pijul", .vcs .pijul),
      ("fossil", .vcs .fossil), ("none", .vcs .none)]]
  | .httpDebug => [asBool "CARGO_HTTP_DEBUG"]
  | .httpProxy => [asText "CARGO_HTTP_PROXY"]
  | .httpTimeout => [asU32 "CARGO_HTTP_TIMEOUT"]
  | .httpCainfo => [asText "CARGO_HTTP_CAINFO"]
  | .httpCheckRevoke => [asBool "CARGO_HTTP_CHECK_REVOKE"]
  | .httpLowSpeedLimit => [asU32 "CARGO_HTTP_LOW_SPEED_LIMIT"]
  | .httpMultiplexing => [asBool "CARGO_HTTP_MULTIPLEXING"]
  | .httpUserAgent => [asText "CARGO_HTTP_USER_AGENT"]
  | .netRetry => [asU32 "CARGO_NET_RETRY"]
  | .netGitFetchWithCli => [asBool "CARGO_NET_GIT_FETCH_WITH_CLI"]
  | .netOffline => [asBool "CARGO_NET_OFFLINE"]
  | .registriesIndex k => [("CARGO_REGISTRIES_".toList ++ k ++ "_INDEX".toList, fun s => some (some (.str s)))]
  | .registriesToken k => [("CARGO_REGISTRIES_".toList ++ k ++ "_TOKEN".toList, fun s => some (some (.str s)))]
  | .registriesProtocol k =>
    if k = "crates-io".toList then
      [asWord "CARGO_REGISTRIES_CRATES_IO_PROTOCOL" [("git", .protocol .git), ("sparse", .protocol .sparse)]]
    else []
  | .registryDefault => [asText "CARGO_REGISTRY_DEFAULT"]
  | .registryToken => [asText "CARGO_REGISTRY_TOKEN"]
  | .termQuiet => [asBool "CARGO_TERM_QUIET"]
  | .termVerbose => [asBool "CARGO_TERM_VERBOSE"]
  | .termColor =>
    [asWord "CARGO_TERM_COLOR" [("auto", .color .auto), ("always", .color .always), ("never", .color .never)]]
  | .termProgressWhen =>
    [asWord "CARGO_TERM_PROGRESS_WHEN" [("auto", .when .auto), ("always", .when .always), ("never", .when .never)]]
  | .termProgressWidth => [asU32 "CARGO_TERM_PROGRESS_WIDTH"]

/-- The single-valued setting after the environment `env` was applied, when it was `old` before. -/
def ScalarKey.withEnv (env : Str → Option OsStr) (k : ScalarKey) (old : Option (Val Atom)) : Option (Val Atom) :=
  match readEnv env k.sources with
  | some (some (n, a)) => a.map fun a => ⟨a, some (.environment n)⟩
  | _ => old

/-- What a variable for a list stands for. -/
abbrev ListSource := Source (Repr' × List Str)

/-- Words separated by spaces (see `C51_wordsIn`). -/
def asWords (n : Str) : ListSource := (n, fun s => some (.string, wordsIn s))
/-- Items separated by 0x1f (see `C50_pieces`). -/
def asEncoded (n : Str) : ListSource := (n, fun s => some (.array, piecesAt (Char.ofNat 0x1f) s))

/-- The variables that set a list, the preferred ones first. -/
def ListKey.sources : ListKey → List ListSource
  | .alias k => [asWords ("CARGO_ALIAS_".toList ++ k)]
  | .buildTarget => [("CARGO_BUILD_TARGET".toList, fun s => some (.string, [s]))]
  | .buildRustflags => [asEncoded "CARGO_ENCODED_RUSTFLAGS".toList, asWords "RUSTFLAGS".toList, asWords "CARGO_BUILD_RUSTFLAGS".toList]
  | .buildRustdocflags =>
    [asEncoded "CARGO_ENCODED_RUSTDOCFLAGS".toList, asWords "RUSTDOCFLAGS".toList, asWords "CARGO_BUILD_RUSTDOCFLAGS".toList]
  | .targetRustflags _ | .targetRustdocflags _ => []

/-- A list as found in the variable `n`. -/
def listFromVar (n : Str) (x : Repr' × List Str) : Repr' × List (Val Str) :=
  (x.1, x.2.map fun w => ⟨w, some (.environment n)⟩)

/-- The list after the environment `env` was applied, when it was `old` before. -/
def ListKey.withEnv (env : Str → Option OsStr) (k : ListKey) (old : Option (Repr' × List (Val Str))) :
    Option (Repr' × List (Val Str)) :=
  match readEnv env k.sources with
  | some (some (n, x)) => some (listFromVar n x)
  | _ => old

/-- The variables that set a command. -/
def ProgKey.sources : ProgKey → List ListSource
  | .docBrowser => [("BROWSER".toList, fun s =>
      if wordsIn s = [] then none else some (.string, wordsIn s))]
  | .targetRunner _ => []

/-- The command after the environment `env` was applied, when it was `old` before: here the files are preferred. -/
def ProgKey.withEnv (env : Str → Option OsStr) (k : ProgKey) (old : Option (Repr' × List (Val Str))) :
    Option (Repr' × List (Val Str)) :=
  match old with
  | some x => some x
  | none =>
    match readEnv env k.sources with
    | some (some (n, x)) => some (listFromVar n x)
    | _ => none

/-- The variables that create an entry of a table. -/
def TableKey.vars : TableKey → List Str
  | .alias k => ["CARGO_ALIAS_".toList ++ k]
  | .registries k =>
    ["CARGO_REGISTRIES_".toList ++ k ++ "_INDEX".toList, "CARGO_REGISTRIES_".toList ++ k ++ "_TOKEN".toList] ++
      (if k = "crates-io".toList then ["CARGO_REGISTRIES_CRATES_IO_PROTOCOL".toList] else [])
  | .env _ | .target _ => []

/-- The name of a variable that may matter to Cargo's configuration. -/
def CargoVariable (n : Str) : Prop := (∃ r, n = "CARGO".toList ++ r) ∨ (∃ r, n = "RUST".toList ++ r) ∨ n = "BROWSER".toList

/-- The variables with a fixed name that have an influence.  (`CARGO_CARGO_NEW_VCS` is not among them, see C24.) -/
def plainVariables : List String :=
  ["BROWSER", "CARGO", "CARGO_BUILD_DEP_INFO_BASEDIR", "CARGO_BUILD_INCREMENTAL", "CARGO_BUILD_JOBS", "CARGO_BUILD_RUSTC",
   "CARGO_BUILD_RUSTC_WORKSPACE_WRAPPER", "CARGO_BUILD_RUSTC_WRAPPER", "CARGO_BUILD_RUSTDOC", "CARGO_BUILD_RUSTDOCFLAGS",
   "CARGO_BUILD_RUSTFLAGS", "CARGO_BUILD_TARGET", "CARGO_BUILD_TARGET_DIR", "CARGO_ENCODED_RUSTDOCFLAGS", "CARGO_ENCODED_RUSTFLAGS",
   "CARGO_FUTURE_INCOMPAT_REPORT_FREQUENCY", "CARGO_HTTP_CAINFO", "CARGO_HTTP_CHECK_REVOKE", "CARGO_HTTP_DEBUG",
   "CARGO_HTTP_LOW_SPEED_LIMIT", "CARGO_HTTP_MULTIPLEXING", "CARGO_HTTP_PROXY", "CARGO_HTTP_TIMEOUT", "CARGO_HTTP_USER_AGENT",
   "CARGO_INCREMENTAL", "CARGO_NET_GIT_FETCH_WITH_CLI", "CARGO_NET_OFFLINE", "CARGO_NET_RETRY", "CARGO_REGISTRIES_CRATES_IO_PROTOCOL",
   "CARGO_REGISTRY_DEFAULT", "CARGO_REGISTRY_TOKEN", "CARGO_TARGET_DIR", "CARGO_TERM_COLOR", "CARGO_TERM_PROGRESS_WHEN",
   "CARGO_TERM_PROGRESS_WIDTH", "CARGO_TERM_QUIET", "CARGO_TERM_VERBOSE", "RUSTC", "RUSTC_WORKSPACE_WRAPPER", "RUSTC_WRAPPER", "RUSTDOC",
   "RUSTDOCFLAGS", "RUSTFLAGS"]

/-- The name of a variable that has an influence on the configuration or on what is said about some target. -/
inductive InfluentialVariable : Str → Prop
  | plain {n : String} : n ∈ plainVariables → InfluentialVariable n.toList
  | alias (k : Str) : InfluentialVariable ("CARGO_ALIAS_".toList ++ k)
  | index (k : Str) : InfluentialVariable ("CARGO_REGISTRIES_".toList ++ k ++ "_INDEX".toList)
  | token (k : Str) : InfluentialVariable ("CARGO_REGISTRIES_".toList ++ k ++ "_TOKEN".toList)
  | target {t u : Str} {key : String} : EnvNameOf t u → key ∈ ["LINKER", "RUNNER", "RUSTFLAGS", "RUSTDOCFLAGS"] →
    InfluentialVariable ("CARGO_TARGET_".toList ++ u ++ "_".toList ++ key.toList)

/-- The environment as a lookup function: of several variables with the same name, the last one counts. -/
def lastValue (vars : List (OsStr × OsStr)) (n : Str) : Option OsStr :=
  ((vars.filter fun e => e.1 == .unicode n).getLast?).map Prod.snd

/-- The variable of the process with this name; of several, the first one counts. -/
def firstValue (vars : List (OsStr × OsStr)) (n : Str) : Option OsStr :=
  ((vars.filter fun e => e.1 == .unicode n).head?).map Prod.snd

/-- Keys are distinct: the entries of a hash map. -/
def DistinctKeys (m : List (Str × OsStr)) : Prop := m.Pairwise fun a b => a.1 ≠ b.1

instance (m : List (Str × OsStr)) : Decidable (DistinctKeys m) := inferInstanceAs (Decidable (List.Pairwise _ m))

end CC
