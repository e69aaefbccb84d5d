import Verif.Model.EasySerde
import Verif.Model.Query
import Verif.Model.ErrorText
import Verif.Conformance.CfgExpr
import Verif.Conformance.Resolve
/-
The crate's integration tests (tests/test.rs) that use the library alone, transcribed and evaluated on the model.  These are tests of
the model, not proofs of properties.  The TOML files are given as documents, the compiler by what it prints.
-/
namespace CC.Conformance

/-- tests/fixtures/reference/.cargo/config.toml. -/
def reference : Toml :=
  .tbl [("alias".toList, .tbl [("b".toList, .str "build".toList),
      ("c".toList, .str "check".toList),
      ("t".toList, .str "test".toList),
      ("r".toList, .str "run".toList),
      ("rr".toList, .str "run --release".toList),
      ("recursive_example".toList, .str "rr --example recursions".toList),
      ("space_example".toList, .arr [.str "run".toList, .str "--release".toList, .str "--".toList, .str "\"command list\"".toList])]),
    ("build".toList, .tbl [("jobs".toList, .int 1),
      ("rustc".toList, .str "rustc".toList),
      ("rustc-wrapper".toList, .str "…".toList),
      ("rustc-workspace-wrapper".toList, .str "…".toList),
      ("rustdoc".toList, .str "rustdoc".toList),
      ("target".toList, .str "triple".toList),
      ("target-dir".toList, .str "target".toList),
      ("rustflags".toList, .arr [.str "…".toList, .str "…".toList]),
      ("rustdocflags".toList, .arr [.str "…".toList, .str "…".toList]),
      ("incremental".toList, .bool true),
      ("dep-info-basedir".toList, .str "…".toList)]),
    ("doc".toList, .tbl [("browser".toList, .str "chromium".toList)]),
    ("env".toList, .tbl [("ENV_VAR_NAME".toList, .tbl [("value".toList, .str "value".toList),
        ("force".toList, .bool true)]),
      ("ENV_VAR_NAME_2".toList, .str "value".toList),
      ("ENV_VAR_NAME_3".toList, .tbl [("value".toList, .str "relative/path".toList),
        ("relative".toList, .bool true)])]),
    ("future-incompat-report".toList, .tbl [("frequency".toList, .str "always".toList)]),
    ("cargo-new".toList, .tbl [("vcs".toList, .str "none".toList)]),
    ("http".toList, .tbl [("debug".toList, .bool false),
      ("proxy".toList, .str "host:port".toList),
      ("timeout".toList, .int 30),
      ("low-speed-limit".toList, .int 10),
      ("cainfo".toList, .str "cert.pem".toList),
      ("check-revoke".toList, .bool true),
      ("multiplexing".toList, .bool true),
      ("user-agent".toList, .str "foo-usr-agt".toList)]),
    ("net".toList, .tbl [("retry".toList, .int 2),
      ("git-fetch-with-cli".toList, .bool true),
      ("offline".toList, .bool true)]),
    ("registries".toList, .tbl [("crates-io".toList, .tbl [("index".toList, .str "https://github.com/rust-lang/crates.io-index".toList),
        ("token".toList, .str "00000000000000000000000000000000000".toList),
        ("protocol".toList, .str "git".toList)])]),
    ("registry".toList, .tbl [("default".toList, .str "crates-io".toList),
      ("token".toList, .str "00000000000000000000000000000000000".toList)]),
    ("target".toList, .tbl [("x86_64-unknown-linux-gnu".toList, .tbl [("linker".toList, .str "b".toList),
        ("runner".toList, .str "b".toList),
        ("rustflags".toList, .arr [.str "b".toList, .str "bb".toList]),
        ("rustdocflags".toList, .arr [.str "d".toList, .str "dd".toList])]),
      ("cfg(target_arch = \"x86_64\")".toList, .tbl [("runner".toList, .str "c".toList),
        ("rustflags".toList, .arr [.str "c".toList, .str "cc".toList])])]),
    ("term".toList, .tbl [("quiet".toList, .bool false),
      ("verbose".toList, .bool false),
      ("color".toList, .str "auto".toList),
      ("progress".toList, .tbl [("when".toList, .str "auto".toList),
        ("width".toList, .int 80)])])]

/-- A project in `/tmp/p` with one config file. -/
def project : Fs :=
  { ex := fun p => p = "/tmp/p/.cargo/config.toml".toList, read := fun p => if p = "/tmp/p/.cargo/config.toml".toList then .ok [] else .err (.io []) }

/-- `test_options()`. -/
def testOptions : Options := ((Options.withEnv {} []).withCargoHome none).withRustc ⟨"rustc".toList, []⟩

/-- `Config::load_with_options(dir, test_options())` in that project, if the file holds this document.  The variables of the process
must not matter. -/
def loadDoc (t : Toml) : Option (EConfig × Cells) :=
  (EConfig.loadWithOptions { vars := vars [("CARGO_BUILD_JOBS", "x"), ("RUSTFLAGS", "-z")], home := some "/tmp".toList } project
    (fun _ => Config.de t) "/tmp/p".toList testOptions).toOption

def config : EConfig × Cells := (loadDoc reference).getD ({ cx := { env := [], cargo := .unicode [], currentDir := [] } }, {})

example : (loadDoc reference).isSome = true := by decide +kernel

def strs (l : List String) : List Str := l.map String.toList

/-! ### `assert_reference_example` -/

/-- `[alias]` -/
example : config.1.alias = [("b", "build"), ("c", "check"), ("r", "run")].map (fun x => (x.1.toList, EStringList.fromString x.2.toList)) ++
    [("recursive_example".toList, EStringList.fromString "rr --example recursions".toList),
     ("rr".toList, EStringList.fromString "run --release".toList),
     ("space_example".toList, EStringList.fromArray (strs ["run", "--release", "--", "\"command list\""])),
     ("t".toList, EStringList.fromString "test".toList)] := by decide +kernel

/-- `[build]` -/
example : config.1.build.rustc = some "rustc".toList ∧ config.1.build.rustcWrapper = some "…".toList ∧
    config.1.build.rustcWorkspaceWrapper = some "…".toList ∧ config.1.build.rustdoc = some "rustdoc".toList ∧
    config.1.build.target = some [⟨"triple".toList, none⟩] ∧ config.1.build.targetDir = some "/tmp/p/target".toList ∧
    config.1.build.rustflags = some ⟨strs ["…", "…"]⟩ ∧ config.1.build.rustdocflags = some ⟨strs ["…", "…"]⟩ ∧
    config.1.build.incremental = some true ∧ config.1.build.depInfoBasedir = some "/tmp/p/…".toList := by decide +kernel

/-- `[doc]` and `[env]` -/
example : config.1.doc.browser = some ⟨"chromium".toList, []⟩ ∧
    config.1.env.get "ENV_VAR_NAME".toList = some ⟨"value".toList, true, false⟩ ∧
    config.1.env.get "ENV_VAR_NAME_2".toList = some ⟨"value".toList, false, false⟩ ∧
    config.1.env.get "ENV_VAR_NAME_3".toList = some ⟨"/tmp/p/relative/path".toList, false, false⟩ := by decide +kernel

/-- `[future-incompat-report]`, `[cargo-new]`, `[http]` and `[net]` -/
example : config.1.futureIncompatReport.frequency = some .always ∧ config.1.cargoNew.vcs = some .none ∧
    config.1.http = { debug := some false, proxy := some "host:port".toList, timeout := some 30, lowSpeedLimit := some 10,
                      cainfo := some "cert.pem".toList, checkRevoke := some true, multiplexing := some true,
                      userAgent := some "foo-usr-agt".toList } ∧
    config.1.net = { retry := some 2, gitFetchWithCli := some true, offline := some true } := by decide +kernel

/-- `[registries]`, `[registry]` and `[term]` -/
example : config.1.registries = [("crates-io".toList,
      { index := some "https://github.com/rust-lang/crates.io-index".toList, token := some "00000000000000000000000000000000000".toList,
        protocol := some .git })] ∧
    config.1.registry = { default := some "crates-io".toList, token := some "00000000000000000000000000000000000".toList } ∧
    config.1.term = { quiet := some false, verbose := some false, color := some .auto,
                      progress := { when := some .auto, width := some 80 } } := by decide +kernel

/-- A compiler that prints the settings of Linux. -/
def linuxWorld : World := { checks := true, run := fun _ _ => .succeeded (.unicode linux.toList), exist := fun _ _ => false }

/-- The target that a string is converted to. -/
def triple (s : String) : TargetTriple := ((TargetTriple.ofStr s.toList).toOption).getD ⟨[], none⟩

/-- `[target]` -/
example : (config.1.target (triple "x86_64-unknown-linux-gnu") linuxWorld config.2).1.toOption =
    some { linker := some "b".toList, runner := some ⟨"b".toList, []⟩, rustflags := some ⟨strs ["b", "bb", "c", "cc"]⟩,
           rustdocflags := some ⟨strs ["d", "dd"]⟩ } := by decide +kernel

example : (config.1.linker (triple "x86_64-unknown-linux-gnu") linuxWorld config.2).1.toOption = some (some "b".toList) ∧
    (config.1.runner (triple "x86_64-unknown-linux-gnu") linuxWorld config.2).1.toOption = some (some ⟨"b".toList, []⟩) ∧
    (config.1.rustflags (triple "x86_64-unknown-linux-gnu") linuxWorld config.2).1.toOption =
      some (some ⟨strs ["b", "bb", "c", "cc"]⟩) ∧
    (config.1.rustdocflags (triple "x86_64-unknown-linux-gnu") linuxWorld config.2).1.toOption = some (some ⟨strs ["d", "dd"]⟩) := by
  decide +kernel

/-- "resolved target config cannot be accessed by cfg(...)" -/
def messageOf {α : Type} (r : Res α) : Option Str :=
  match r with
  | .err e => some (e.display shownAs)
  | _ => none

example : messageOf (config.1.target (triple "cfg(target_arch = \"x86_64\")") linuxWorld config.2).1 =
      some "'cfg(target_arch = \"x86_64\")' is not valid target triple".toList ∧
    messageOf (config.1.linker (triple "cfg(target_arch = \"x86_64\")") linuxWorld config.2).1 =
      some "'cfg(target_arch = \"x86_64\")' is not valid target triple".toList ∧
    messageOf (config.1.runner (triple "cfg(target_arch = \"x86_64\")") linuxWorld config.2).1 =
      some "'cfg(target_arch = \"x86_64\")' is not valid target triple".toList ∧
    messageOf (config.1.rustflags (triple "cfg(target_arch = \"x86_64\")") linuxWorld config.2).1 =
      some "'cfg(target_arch = \"x86_64\")' is not valid target triple".toList := by decide +kernel

/-! ### the other tests -/

/-- The document is empty. -/
def isEmptyTable : Toml → Bool
  | .tbl [] => true
  | _ => false

/-- `no_manifest_dir`. -/
example : (EConfig.loadWithOptions {} { project with ex := fun _ => false } (fun _ => Config.de reference) "/tmp/p".toList
    testOptions).toOption.map (fun x => isEmptyTable (x.1.ser x.2)) = some true := by decide +kernel

/-- `de`. -/
example : (loadConfig project (fun _ => Config.de reference) "/tmp/p".toList none).isOk = true ∧
    isEmptyTable (Config.ser {}) = true := by decide +kernel

/-- The document of `custom_target`. -/
def avrDoc : Toml := .tbl [("target".toList, .tbl [("cfg(target_arch = \"avr\")".toList,
  .tbl [("linker".toList, .str "avr-gcc".toList), ("rustflags".toList, .str "-C opt-level=s".toList)])])]

def avrWorld : World :=
  { checks := true, run := fun _ _ => .succeeded (.unicode "target_arch=\"avr\"\ntarget_os=\"none\"\n".toList), exist := fun _ _ => false }

def avr : EConfig × Cells := (loadDoc avrDoc).getD ({ cx := { env := [], cargo := .unicode [], currentDir := [] } }, {})

example : ∀ x ∈ [("avr-unknown-gnu-atmega328", "avr-unknown-gnu-atmega328", "avr-unknown-gnu-atmega328.json"),
      ("avr-unknown-gnu-atmega2560", "/fixtures/target-specs/avr-unknown-gnu-atmega2560.json", "avr-unknown-gnu-atmega2560.json")],
    (avr.1.buildTargetForConfig [triple x.2.1] avrWorld avr.2).1.toOption.map (fun l => l.map (·.triple)) = some [x.1.toList] ∧
    (avr.1.buildTargetForCli [x.2.1.toList] avrWorld avr.2).1.toOption = some [x.2.1.toList] ∧
    (avr.1.linker (triple x.2.1) avrWorld avr.2).1.toOption = some (some "avr-gcc".toList) ∧
    (avr.1.rustflags (triple x.2.1) avrWorld avr.2).1.toOption = some (some ⟨strs ["-C", "opt-level=s"]⟩) ∧
    (avr.1.buildTargetForConfig [triple x.2.2] avrWorld avr.2).1.toOption.map (fun l => l.map (·.specPath)) =
      some [some x.2.2.toList] ∧
    (avr.1.buildTargetForCli [x.2.2.toList] avrWorld avr.2).1.toOption = some [x.2.2.toList] := by decide +kernel

end CC.Conformance
