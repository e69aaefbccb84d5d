import Verif.Model.Serde
import Verif.Spec.Config
import Verif.Spec.Text
import Verif.Spec.Resolve
/-
Specification vocabulary for configurations as TOML documents: where each setting is found, and how its value is written.

These definitions do not use the serialization functions of the model, only the data type `Toml`.
-/
namespace CC

/-- The value at a path of keys. -/
def Toml.at : Toml → List Str → Option Toml
  | t, [] => some t
  | .tbl l, k :: ks => (BMap.get l k).bind fun t => t.at ks
  | _, _ :: _ => none

/-- No table of the document has a key twice. -/
def Toml.DistinctKeys (t : Toml) : Prop :=
  ∀ p l, t.at p = some (.tbl l) → (l.map Prod.fst).Nodup

/-- How a single value is written in TOML. -/
def Atom.toml : Atom → Toml
  | .str s => .str s
  | .int i => .int i
  | .nat n => .int n
  | .bool b => .bool b
  | .vcs .git => .str "git".toList
  | .vcs .mercurial => .str "hg".toList
  | .vcs .pijul => .str "pijul".toList
  | .vcs .fossil => .str "fossil".toList
  | .vcs .none => .str "none".toList
  | .protocol .git => .str "git".toList
  | .protocol .sparse => .str "sparse".toList
  | .color .auto => .str "auto".toList
  | .color .always => .str "always".toList
  | .color .never => .str "never".toList
  | .when .auto => .str "auto".toList
  | .when .always => .str "always".toList
  | .when .never => .str "never".toList
  | .frequency .always => .str "always".toList
  | .frequency .never => .str "never".toList

/-- Where a single-valued setting is found; for `[env]` this depends on whether the entry is a table. -/
def ScalarKey.path (envIsTable : Str → Option Bool) : ScalarKey → List Str
  | .buildJobs => ["build".toList, "jobs".toList]
  | .buildRustc => ["build".toList, "rustc".toList]
  | .buildRustcWrapper => ["build".toList, "rustc-wrapper".toList]
  | .buildRustcWorkspaceWrapper => ["build".toList, "rustc-workspace-wrapper".toList]
  | .buildRustdoc => ["build".toList, "rustdoc".toList]
  | .buildTargetDir => ["build".toList, "target-dir".toList]
  | .buildIncremental => ["build".toList, "incremental".toList]
  | .buildDepInfoBasedir => ["build".toList, "dep-info-basedir".toList]
  | .envValue k => if envIsTable k = some true then ["env".toList, k, "value".toList] else ["env".toList, k]
  | .envForce k => ["env".toList, k, "force".toList]
  | .envRelative k => ["env".toList, k, "relative".toList]
  | .futureIncompatReportFrequency => ["future-incompat-report".toList, "frequency".toList]
  | .cargoNewVcs => ["cargo-new".toList, "vcs".toList]
  | .httpDebug => ["http".toList, "debug".toList]
  | .httpProxy => ["http".toList, "proxy".toList]
  | .httpTimeout => ["http".toList, "timeout".toList]
  | .httpCainfo => ["http".toList, "cainfo".toList]
  | .httpCheckRevoke => ["http".toList, "check-revoke".toList]
  | .httpLowSpeedLimit => ["http".toList, "low-speed-limit".toList]
  | .httpMultiplexing => ["http".toList, "multiplexing".toList]
  | .httpUserAgent => ["http".toList, "user-agent".toList]
  | .netRetry => ["net".toList, "retry".toList]
  | .netGitFetchWithCli => ["net".toList, "git-fetch-with-cli".toList]
  | .netOffline => ["net".toList, "offline".toList]
  | .registriesIndex k => ["registries".toList, k, "index".toList]
  | .registriesToken k => ["registries".toList, k, "token".toList]
  | .registriesProtocol k => ["registries".toList, k, "protocol".toList]
  | .registryDefault => ["registry".toList, "default".toList]
  | .registryToken => ["registry".toList, "token".toList]
  | .targetLinker k => ["target".toList, k, "linker".toList]
  | .termQuiet => ["term".toList, "quiet".toList]
  | .termVerbose => ["term".toList, "verbose".toList]
  | .termColor => ["term".toList, "color".toList]
  | .termProgressWhen => ["term".toList, "progress".toList, "when".toList]
  | .termProgressWidth => ["term".toList, "progress".toList, "width".toList]

/-- Where a list setting is found. -/
def ListKey.path : ListKey → List Str
  | .alias k => ["alias".toList, k]
  | .buildTarget => ["build".toList, "target".toList]
  | .buildRustflags => ["build".toList, "rustflags".toList]
  | .buildRustdocflags => ["build".toList, "rustdocflags".toList]
  | .targetRustflags k => ["target".toList, k, "rustflags".toList]
  | .targetRustdocflags k => ["target".toList, k, "rustdocflags".toList]

/-- Where a command setting is found. -/
def ProgKey.path : ProgKey → List Str
  | .docBrowser => ["doc".toList, "browser".toList]
  | .targetRunner k => ["target".toList, k, "runner".toList]

/-- Where a table entry is found. -/
def TableKey.path : TableKey → List Str
  | .alias k => ["alias".toList, k]
  | .env k => ["env".toList, k]
  | .registries k => ["registries".toList, k]
  | .target k => ["target".toList, k]

/-- Whether a string spelling of the setting stands for the words in it, or for itself. -/
def ListKey.splits : ListKey → Bool
  | .buildTarget => false
  | _ => true

/-- The settings `rustflags` and `rustdocflags`, which are always written as an array. -/
def ListKey.isFlags : ListKey → Bool
  | .alias _ => false
  | .buildTarget => false
  | _ => true

/-- `TomlList split t r ws`: the TOML value `t` spells the list `ws` as an array of strings, or as one string which stands for
the words in it (if `split`) or for itself. -/
inductive TomlList (split : Bool) : Toml → Repr' → List Str → Prop where
  | array (ws : List Str) : TomlList split (.arr (ws.map .str)) .array ws
  | words (s : Str) : split = true → TomlList split (.str s) .string (wordsIn s)
  | whole (s : Str) : split = false → TomlList split (.str s) .string [s]

/-- The spelling and the texts of a list, without the locations. -/
def listTexts (x : Repr' × List (Val Str)) : Repr' × List Str := (x.1, x.2.map Val.val)

/-- What holds of every config read from TOML (see `C52_readable`): integers are in the ranges of `i32` and `u32`, and lists
spelled as one string consist of words. -/
structure Config.Readable (c : Config) : Prop where
  wf : c.WF
  i32 : ∀ (k : ScalarKey) (i : Int) (d : Option Definition), k.get c = some ⟨.int i, d⟩ →
    -2147483648 ≤ i ∧ i ≤ 2147483647
  u32 : ∀ (k : ScalarKey) (n : Nat) (d : Option Definition), k.get c = some ⟨.nat n, d⟩ → n ≤ 4294967295
  words : ∀ (k : ListKey) (l : List (Val Str)), k.get c = some (.string, l) → k.splits = true →
    ∀ v ∈ l, Word v.val
  command : ∀ (k : ProgKey) (l : List (Val Str)), k.get c = some (.string, l) → ∀ v ∈ l, Word v.val

/-- Whether the entry `k` of `[env]` is a table in the document. -/
def Toml.envIsTable (t : Toml) (k : Str) : Option Bool :=
  (t.at ["env".toList, k]).map fun
    | .tbl _ => true
    | _ => false

/-- The values a single-valued setting takes: numbers of 32 bits, booleans, strings, or one of the documented words. -/
def ScalarKey.Takes : ScalarKey → Toml → Prop
  | .buildJobs, x => ∃ i : Int, x = .int i ∧ -2 ^ 31 ≤ i ∧ i < 2 ^ 31
  | .httpTimeout, x | .httpLowSpeedLimit, x | .netRetry, x | .termProgressWidth, x => ∃ n : Nat, x = .int n ∧ n < 2 ^ 32
  | .buildIncremental, x | .envForce _, x | .envRelative _, x | .httpDebug, x | .httpCheckRevoke, x | .httpMultiplexing, x
  | .netGitFetchWithCli, x | .netOffline, x | .termQuiet, x | .termVerbose, x => ∃ b, x = .bool b
  | .futureIncompatReportFrequency, x => x = .str "always".toList ∨ x = .str "never".toList
  | .cargoNewVcs, x => x = .str "git".toList ∨ x = .str "hg".toList ∨ x = .str "pijul".toList ∨ x = .str "fossil".toList ∨
      x = .str "none".toList
  | .registriesProtocol _, x => x = .str "git".toList ∨ x = .str "sparse".toList
  | .termColor, x | .termProgressWhen, x => x = .str "auto".toList ∨ x = .str "always".toList ∨ x = .str "never".toList
  | _, x => ∃ s, x = .str s

/-- The keys that have to be tables. -/
def sectionPaths : List (List Str) :=
  [["alias".toList], ["build".toList], ["doc".toList], ["env".toList], ["future-incompat-report".toList],
   ["cargo-new".toList], ["http".toList], ["net".toList], ["registries".toList], ["registry".toList], ["target".toList],
   ["term".toList], ["term".toList, "progress".toList]]

/-- The document is a config: it is a table, the keys that have to be tables are, and every setting that is present has a value
it takes.  Nothing is asked of other keys. -/
structure Toml.IsConfig (t : Toml) : Prop where
  table : ∃ l, t = .tbl l
  sections : ∀ p ∈ sectionPaths, ∀ x, t.at p = some x → ∃ l, x = .tbl l
  registries : ∀ k x, t.at ["registries".toList, k] = some x → ∃ l, x = .tbl l
  target : ∀ k x, t.at ["target".toList, k] = some x → ∃ l, x = .tbl l
  env : ∀ k x, t.at ["env".toList, k] = some x → (∃ s, x = .str s) ∨ ∃ v, t.at ["env".toList, k, "value".toList] = some v
  scalars : ∀ (k : ScalarKey) x, t.at (k.path t.envIsTable) = some x → k.Takes x
  lists : ∀ (k : ListKey) x, t.at k.path = some x → (∃ s, x = .str s) ∨ ∃ ws : List Str, x = .arr (ws.map .str)
  commands : ∀ (k : ProgKey) x, t.at k.path = some x →
    (∃ s, x = .str s ∧ ¬ Blank s) ∨ ∃ (w : Str) (ws : List Str), x = .arr ((w :: ws).map .str)

end CC
