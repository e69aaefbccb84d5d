import Verif.Model.Query
import Verif.Model.ErrorText
import Verif.Model.Walk
/-
The crate's own tests of environment variables (src/env.rs 395-417 and src/resolve.rs 652-920) and of the walk (src/walk.rs 126-150),
transcribed and evaluated on the model.  These are tests of the model, not proofs of properties.
-/
namespace CC.Conformance

def vars (l : List (String × String)) : List (OsStr × OsStr) := l.map fun x => (.unicode x.1.toList, .unicode x.2.toList)

/-- `ResolveOptions::default().env(env_list).into_context(current_dir)`. -/
def contextOf (l : List (String × String)) : Ctx × Cells := (Options.withEnv {} (vars l)).intoContext {} "/w".toList

/-- `empty_string_wrapper_envs` of src/env.rs. -/
example : (BuildConfig.applyEnv (contextOf [("RUSTC_WRAPPER", ""), ("RUSTC_WORKSPACE_WRAPPER", "")]).1.env
      { rustcWrapper := some ⟨"rustc_wrapper".toList, none⟩,
        rustcWorkspaceWrapper := some ⟨"rustc_workspace_wrapper".toList, none⟩ }).toOption.map
    (fun b => (b.rustcWrapper.isNone, b.rustcWorkspaceWrapper.isNone)) = some (true, true) := by decide +kernel

/-- The variables of `env_filter` of src/resolve.rs. -/
def envList : List (String × String) :=
  [("CARGO_BUILD_JOBS", "-1"), ("RUSTC", "rustc"), ("CARGO_BUILD_RUSTC", "rustc"),
   ("RUSTC_WRAPPER", "rustc_wrapper"), ("CARGO_BUILD_RUSTC_WRAPPER", "rustc_wrapper"), ("RUSTC_WORKSPACE_WRAPPER", "rustc_workspace_wrapper"),
   ("CARGO_BUILD_RUSTC_WORKSPACE_WRAPPER", "rustc_workspace_wrapper"), ("RUSTDOC", "rustdoc"), ("CARGO_BUILD_RUSTDOC", "rustdoc"),
   ("CARGO_BUILD_TARGET", "triple"), ("CARGO_TARGET_DIR", "target"), ("CARGO_BUILD_TARGET_DIR", "target"),
   ("CARGO_ENCODED_RUSTFLAGS", "1"), ("RUSTFLAGS", "1"), ("CARGO_BUILD_RUSTFLAGS", "1"),
   ("CARGO_ENCODED_RUSTDOCFLAGS", "1"), ("RUSTDOCFLAGS", "1"), ("CARGO_BUILD_RUSTDOCFLAGS", "1"),
   ("CARGO_INCREMENTAL", "false"), ("CARGO_BUILD_INCREMENTAL", "1"), ("CARGO_BUILD_DEP_INFO_BASEDIR", "1"),
   ("BROWSER", "1"), ("CARGO_FUTURE_INCOMPAT_REPORT_FREQUENCY", "always"), ("CARGO_CARGO_NEW_VCS", "git"),
   ("CARGO_HTTP_DEBUG", "true"), ("CARGO_HTTP_PROXY", "-"), ("CARGO_HTTP_TIMEOUT", "1"),
   ("CARGO_HTTP_CAINFO", "-"), ("CARGO_HTTP_CHECK_REVOKE", "true"), ("CARGO_HTTP_LOW_SPEED_LIMIT", "1"),
   ("CARGO_HTTP_MULTIPLEXING", "true"), ("CARGO_HTTP_USER_AGENT", "-"), ("CARGO_NET_RETRY", "1"),
   ("CARGO_NET_GIT_FETCH_WITH_CLI", "false"), ("CARGO_NET_OFFLINE", "false"), ("CARGO_REGISTRIES_crates-io_INDEX", "https://github.com/rust-lang/crates.io-index"),
   ("CARGO_REGISTRIES_crates-io_TOKEN", "00000000000000000000000000000000000"), ("CARGO_REGISTRY_DEFAULT", "crates-io"), ("CARGO_REGISTRY_TOKEN", "00000000000000000000000000000000000"),
   ("CARGO_REGISTRIES_CRATES_IO_PROTOCOL", "git"), ("CARGO_TERM_QUIET", "false"), ("CARGO_TERM_VERBOSE", "false"),
   ("CARGO_TERM_COLOR", "auto"), ("CARGO_TERM_PROGRESS_WHEN", "auto"), ("CARGO_TERM_PROGRESS_WIDTH", "100")]

example : (Config.applyEnv (contextOf envList).1.env {}).isOk = true := by decide +kernel

example : (contextOf (envList ++ [("A", "B")])).1.env.get "A".toList = none ∧
    ∀ x ∈ envList, (contextOf (envList ++ [("A", "B")])).1.env.get x.1.toList = some (.unicode x.2.toList) := by decide +kernel

/-- The cases of `rustc_wrapper` of src/resolve.rs: the variables, the program and the arguments. -/
def wrapperCases : List (List (String × String) × String × List String) :=
  [([("RUSTC", "rustc"), ("CARGO_BUILD_RUSTC", "cargo_build_rustc"), ("RUSTC_WRAPPER", "rustc_wrapper"), ("CARGO_BUILD_RUSTC_WRAPPER", "cargo_build_rustc_wrapper"), ("RUSTC_WORKSPACE_WRAPPER", "rustc_workspace_wrapper"), ("CARGO_BUILD_RUSTC_WORKSPACE_WRAPPER", "cargo_build_rustc_workspace_wrapper")],
      "rustc_wrapper", ["rustc_workspace_wrapper", "rustc"]),
   ([("RUSTC", "rustc"), ("CARGO_BUILD_RUSTC", "cargo_build_rustc"), ("RUSTC_WRAPPER", ""), ("CARGO_BUILD_RUSTC_WRAPPER", "cargo_build_rustc_wrapper"), ("RUSTC_WORKSPACE_WRAPPER", "rustc_workspace_wrapper"), ("CARGO_BUILD_RUSTC_WORKSPACE_WRAPPER", "cargo_build_rustc_workspace_wrapper")],
      "rustc_workspace_wrapper", ["rustc"]),
   ([("RUSTC", "rustc"), ("CARGO_BUILD_RUSTC", "cargo_build_rustc"), ("RUSTC_WRAPPER", "rustc_wrapper"), ("CARGO_BUILD_RUSTC_WRAPPER", "cargo_build_rustc_wrapper"), ("RUSTC_WORKSPACE_WRAPPER", ""), ("CARGO_BUILD_RUSTC_WORKSPACE_WRAPPER", "cargo_build_rustc_workspace_wrapper")],
      "rustc_wrapper", ["rustc"]),
   ([("CARGO_BUILD_RUSTC", "cargo_build_rustc"), ("CARGO_BUILD_RUSTC_WRAPPER", "cargo_build_rustc_wrapper"), ("CARGO_BUILD_RUSTC_WORKSPACE_WRAPPER", "cargo_build_rustc_workspace_wrapper")],
      "cargo_build_rustc_wrapper", ["cargo_build_rustc_workspace_wrapper", "cargo_build_rustc"]),
   ([("RUSTC", "rustc"), ("RUSTC_WRAPPER", "rustc_wrapper"), ("RUSTC_WORKSPACE_WRAPPER", "rustc_workspace_wrapper")],
      "rustc_wrapper", ["rustc_workspace_wrapper", "rustc"]),
   ([("RUSTC", "rustc"), ("RUSTC_WRAPPER", "rustc_wrapper"), ("RUSTC_WORKSPACE_WRAPPER", "")],
      "rustc_wrapper", ["rustc"]),
   ([("RUSTC", "rustc"), ("RUSTC_WRAPPER", ""), ("RUSTC_WORKSPACE_WRAPPER", "rustc_workspace_wrapper")],
      "rustc_workspace_wrapper", ["rustc"]),
   ([("RUSTC", "rustc"), ("RUSTC_WRAPPER", "rustc_wrapper")],
      "rustc_wrapper", ["rustc"]),
   ([("RUSTC", "rustc"), ("RUSTC_WORKSPACE_WRAPPER", "rustc_workspace_wrapper")],
      "rustc_workspace_wrapper", ["rustc"]),
   ([("RUSTC", "rustc"), ("RUSTC_WRAPPER", "")],
      "rustc", []),
   ([("RUSTC", "rustc"), ("RUSTC_WORKSPACE_WRAPPER", "")],
      "rustc", [])]

def nothingRuns : World := { checks := true, run := fun _ _ => .succeeded (.unicode []), exist := fun _ _ => false }

def rustcFor (l : List (String × String)) : Option EPathAndArgs :=
  let (cx, s) := contextOf l
  (Config.applyEnv cx.env {}).toOption.bind fun c =>
    (EBuild.fromUnresolved cx.currentDir c.build).toOption.bind fun b => (queryRustc cx b nothingRuns s).1.toOption

example : ∀ x ∈ wrapperCases, rustcFor x.1 = some ⟨x.2.1.toList, x.2.2.map String.toList⟩ := by decide +kernel

/-- `env_non_utf8` of src/resolve.rs.  How `std` shows the value is a parameter of the model. -/
def badAlias : Ctx × Cells :=
  (((Options.withEnv {} [(.unicode "CARGO_ALIAS_a".toList, .invalid [102, 111, 128, 111])]).withCargoHome none).withRustc
    ⟨"rustc".toList, []⟩).intoContext {} "/w".toList

def shownAs : Shown :=
  { dbg := fun _ => [], io := id, toml := id, std := id
    notUnicode := fun _ => "environment variable was not valid unicode: \"fo\\x80o\"".toList }

def aliasError : Option Err :=
  match badAlias.1.env.var "CARGO_ALIAS_a".toList with
  | .err e => some e
  | _ => none

example : aliasError.map (Err.display shownAs) = some "failed to parse environment variable `CARGO_ALIAS_a`".toList ∧
    (aliasError.bind Err.source).map (Err.display shownAs) =
      some "environment variable was not valid unicode: \"fo\\x80o\"".toList := by decide +kernel

/-- `target_triple` of src/resolve.rs. -/
example : (TargetTriple.ofStr "x86_64-unknown-linux-gnu".toList).toOption = some ⟨"x86_64-unknown-linux-gnu".toList, none⟩ := by
  decide +kernel

/-- `walk` of src/walk.rs, in `/tmp`. -/
example : walk (fun p => p ∈ ["/tmp/a/.cargo/config".toList, "/tmp/a/b/.cargo/config".toList, "/tmp/a/b/.cargo/config.toml".toList,
      "/tmp/a/b/c/.cargo/config.toml".toList]) "/tmp/a/b/c".toList (some "/tmp/a/.cargo".toList) =
    ["/tmp/a/b/c/.cargo/config.toml".toList, "/tmp/a/b/.cargo/config".toList, "/tmp/a/.cargo/config".toList] := by decide +kernel

end CC.Conformance
