import Verif.Spec.Cause
import Verif.Spec.Tokens
/-
Specification of which variable the error of a failed load is about if several are malformed, and of the cause it has.

Of the model only data types are used.
-/
namespace CC

/-- The variables with a part of the name that is free, and the one for the protocol of crates-io: they are looked at first, in no
fixed order. -/
inductive FreeName : Str → Prop where
  | alias (k : Str) : FreeName ("CARGO_ALIAS_".toList ++ k)
  | index (k : Str) : FreeName ("CARGO_REGISTRIES_".toList ++ k ++ "_INDEX".toList)
  | token (k : Str) : FreeName ("CARGO_REGISTRIES_".toList ++ k ++ "_TOKEN".toList)
  | protocol : FreeName "CARGO_REGISTRIES_CRATES_IO_PROTOCOL".toList

/-- The message about a defect of one of these variables. -/
inductive FreeDefect (look : Str → Option OsStr) : Str → Prop where
  | notText (n : Str) (bytes : List Nat) : FreeName n → look n = some (.invalid bytes) → FreeDefect look (varMessage n)
  | protocol (s : Str) : look "CARGO_REGISTRIES_CRATES_IO_PROTOCOL".toList = some (.unicode s) → s ≠ "git".toList → s ≠ "sparse".toList →
      FreeDefect look ("must be git or sparse, but found ".toList ++ quoted s)

/-- The settings whose variables have fixed names. -/
inductive FixedName where
  | scalar (k : ScalarKey)
  | list (k : ListKey)
  | browser
deriving DecidableEq, Repr

/-- These settings in the order in which their variables are looked at. -/
def fixedNames : List FixedName :=
  [.scalar .buildJobs, .scalar .buildRustc, .scalar .buildRustcWrapper, .scalar .buildRustcWorkspaceWrapper, .scalar .buildRustdoc,
   .list .buildTarget, .scalar .buildTargetDir, .list .buildRustflags, .list .buildRustdocflags, .scalar .buildIncremental,
   .scalar .buildDepInfoBasedir,
   .browser,
   .scalar .futureIncompatReportFrequency,
   .scalar .httpDebug, .scalar .httpProxy, .scalar .httpTimeout, .scalar .httpCainfo, .scalar .httpCheckRevoke,
   .scalar .httpLowSpeedLimit, .scalar .httpMultiplexing, .scalar .httpUserAgent,
   .scalar .netRetry, .scalar .netGitFetchWithCli, .scalar .netOffline,
   .scalar .registryDefault, .scalar .registryToken,
   .scalar .termQuiet, .scalar .termVerbose, .scalar .termColor, .scalar .termProgressWhen, .scalar .termProgressWidth]

/-- The message about the variables of a setting, if there is something wrong with them: of its variables the first that is set counts;
`BROWSER` only counts if no document has `doc.browser`. -/
def FixedName.defect (look : Str → Option OsStr) (docs : List (Path × Toml)) : FixedName → Option Str
  | .scalar k => (malformedVar look k.sources).map varMessage
  | .list k => (malformedVar look k.sources).map varMessage
  | .browser =>
    if docs.all fun x => (x.2.at ["doc".toList, "browser".toList]).isNone then
      match look "BROWSER".toList with
      | none => none
      | some (.invalid _) => some (varMessage "BROWSER".toList)
      | some (.unicode s) => if wordsIn s = [] then some "invalid length 0, expected at least one element".toList else none
    else none

/-- The variables that must be one of some words, and the message if they are not. -/
def wordVars : List (String × List String × String) :=
  [("CARGO_FUTURE_INCOMPAT_REPORT_FREQUENCY", ["always", "never"], "must be always or never, but found "),
   ("CARGO_TERM_COLOR", ["auto", "always", "never"], "must be auto, always, or never, but found "),
   ("CARGO_TERM_PROGRESS_WHEN", ["auto", "always", "never"], "must be auto, always, or never, but found ")]

/-- The variables that must be `true` or `false`. -/
def boolVars : List String :=
  ["CARGO_BUILD_INCREMENTAL", "CARGO_HTTP_DEBUG", "CARGO_HTTP_CHECK_REVOKE", "CARGO_HTTP_MULTIPLEXING", "CARGO_NET_GIT_FETCH_WITH_CLI",
   "CARGO_NET_OFFLINE", "CARGO_TERM_QUIET", "CARGO_TERM_VERBOSE"]

/-- The variables that must be an unsigned 32-bit number. -/
def u32Vars : List String := ["CARGO_HTTP_TIMEOUT", "CARGO_HTTP_LOW_SPEED_LIMIT", "CARGO_NET_RETRY", "CARGO_TERM_PROGRESS_WIDTH"]

/-- The cause of an error that is about the variable `n`. -/
inductive VarReason (look : Str → Option OsStr) (n : Str) : Err → Prop where
  /-- Not Unicode: the cause is `std::env::VarError::NotUnicode` with the value. -/
  | notText (bytes : List Nat) : look n = some (.invalid bytes) → ¬ TokenVar n → VarReason look n (.notUnicode (.invalid bytes))
  /-- A token that is not Unicode: the cause does not have the value. -/
  | token (bytes : List Nat) : look n = some (.invalid bytes) → TokenVar n → VarReason look n .redacted
  /-- Not one of the words: the cause tells the words and the value. -/
  | word (v : String) (ws : List String) (msg : String) (s : Str) (src : Err) : (v, ws, msg) ∈ wordVars → n = v.toList →
      look n = some (.unicode s) → (∀ w ∈ ws, s ≠ w.toList) → (∀ sh, src.display sh = msg.toList ++ quoted s) → VarReason look n src
  /-- Neither `true` nor `false`: the cause is `std::str::ParseBoolError`. -/
  | boolean (v : String) (s : Str) : v ∈ boolVars → n = v.toList → look n = some (.unicode s) → s ≠ "true".toList → s ≠ "false".toList →
      VarReason look n (.std "ParseBoolError".toList)
  /-- Not a number or out of range: the cause is `std::num::ParseIntError`. -/
  | unsigned (v : String) (s : Str) : v ∈ u32Vars → n = v.toList → look n = some (.unicode s) → textU32 s = none →
      VarReason look n (.std "ParseIntError".toList)
  | signed (s : Str) : n = "CARGO_BUILD_JOBS".toList → look n = some (.unicode s) → textI32 s = none →
      VarReason look n (.std "ParseIntError".toList)

end CC
