import Verif.Lemmas.EnvDep
/-
Environment variables: C18-C26.

`DistinctKeys env` says that the environment is a map; `optEnv` produces such maps (`C18_map`).
-/
namespace CC

variable {env env' : Env} {c c' : Config}

/-! ### a sample environment and config -/

section sample

def sampleEnv : Env :=
  [("RUSTC_WRAPPER".toList, .unicode []), ("CARGO_BUILD_RUSTC_WRAPPER".toList, .unicode "sccache".toList),
   ("CARGO_BUILD_JOBS".toList, .unicode "3".toList), ("CARGO_BUILD_RUSTC".toList, .unicode "rc".toList),
   ("RUSTC".toList, .unicode "my rustc".toList), ("CARGO_BUILD_INCREMENTAL".toList, .invalid [255]),
   ("CARGO_INCREMENTAL".toList, .unicode "0".toList), ("RUSTFLAGS".toList, .unicode " -g  -O ".toList),
   ("CARGO_BUILD_RUSTFLAGS".toList, .unicode "-x".toList), ("CARGO_BUILD_RUSTDOCFLAGS".toList, .unicode "-d".toList),
   ("CARGO_ALIAS_b".toList, .unicode "build --release".toList), ("CARGO_REGISTRIES_FOO_INDEX".toList, .unicode "i".toList),
   ("CARGO_REGISTRIES_FOO_TOKEN".toList, .unicode "s3cret".toList),
   ("CARGO_REGISTRIES_CRATES_IO_PROTOCOL".toList, .unicode "sparse".toList),
   ("BROWSER".toList, .unicode "lynx -x".toList), ("CARGO_CARGO_NEW_VCS".toList, .unicode "hg".toList),
   ("UNRELATED".toList, .invalid [254])]

def sampleFile : Definition := .path "/w/.cargo/config.toml".toList

def sampleConfig : Config :=
  { alias := [("b".toList, ⟨[⟨"bench".toList, some sampleFile⟩], .array⟩), ("r".toList, ⟨[⟨"run".toList, some sampleFile⟩], .array⟩)]
    build := { jobs := some ⟨8, some sampleFile⟩, rustcWrapper := some ⟨"w".toList, some sampleFile⟩,
               targetDir := some ⟨"t".toList, some sampleFile⟩ }
    cargoNew := { vcs := some ⟨.git, some sampleFile⟩ }
    registries := [("FOO".toList, { token := some ⟨"old".toList, some sampleFile⟩ }), ("bar".toList, {})] }

def sampleAfter : Config := (sampleConfig.applyEnv sampleEnv).toOption.getD {}

/-- The sample meets the hypotheses of the theorems below. -/
theorem sample_distinct : DistinctKeys sampleEnv := by decide +kernel
theorem sample_applied : sampleConfig.applyEnv sampleEnv = .ok sampleAfter := by
  have h : (sampleConfig.applyEnv sampleEnv).isOk = true := by decide +kernel
  unfold sampleAfter
  cases hc : sampleConfig.applyEnv sampleEnv with
  | ok a => rfl
  | err e => rw [hc] at h; cases h
  | panic => rw [hc] at h; cases h
example : sampleConfig.alias.Sorted ∧ sampleConfig.registries.Sorted := by decide +kernel
example :
    ScalarKey.buildRustc.get sampleAfter = some ⟨.str "my rustc".toList, some (.environment "RUSTC".toList)⟩ ∧
    ScalarKey.buildJobs.get sampleAfter = some ⟨.int 3, some (.environment "CARGO_BUILD_JOBS".toList)⟩ ∧
    ScalarKey.buildRustcWrapper.get sampleAfter = none ∧
    ScalarKey.buildTargetDir.get sampleAfter = some ⟨.str "t".toList, some sampleFile⟩ ∧
    ListKey.buildRustflags.get sampleAfter = some (.string, [⟨"-g".toList, some (.environment "RUSTFLAGS".toList)⟩,
    ⟨"-O".toList, some (.environment "RUSTFLAGS".toList)⟩]) ∧
    sampleAfter.build.overrideTargetRustflags = true ∧ sampleAfter.build.overrideTargetRustdocflags = false ∧
    ProgKey.docBrowser.get sampleAfter = some (.string, [⟨"lynx".toList, some (.environment "BROWSER".toList)⟩,
    ⟨"-x".toList, some (.environment "BROWSER".toList)⟩]) ∧
    (ScalarKey.registriesProtocol "crates-io".toList).get sampleAfter =
    some ⟨.protocol .sparse, some (.environment "CARGO_REGISTRIES_CRATES_IO_PROTOCOL".toList)⟩ := by
  decide +kernel

end sample

/-! ### C18 -/

/-- C18: after `ResolveOptions::env`, a variable that may matter has the last value given for it. -/
theorem C18_lookup (vars : List (OsStr × OsStr)) {n : Str} (h : CargoVariable n) : (optEnv vars).get n = lastValue vars n := by
  unfold optEnv
  rw [optEnvLoop_get, if_pos ((envRelevant_iff n).2 h)]
  cases lastValue vars n <;> rfl

/-- C18: after `ResolveOptions::env`, no other variable is left. -/
theorem C18_dropped (vars : List (OsStr × OsStr)) {n : Str} (h : ¬ CargoVariable n) : (optEnv vars).get n = none := by
  unfold optEnv
  rw [optEnvLoop_get, if_neg (fun hr => h ((envRelevant_iff n).1 hr))]
  rfl

/-- C18: the variables kept form a map. -/
theorem C18_map (vars : List (OsStr × OsStr)) : DistinctKeys (optEnv vars) :=
  optEnvLoop_distinct vars [] List.Pairwise.nil

example : CargoVariable "CARGO_X".toList ∧ ¬ CargoVariable "PATH".toList := by
  constructor
  · exact Or.inl ⟨"_X".toList, by decide⟩
  · rw [← envRelevant_iff]; decide
example : lastValue [(.unicode "RUSTC".toList, .unicode "a".toList), (.invalid [1], .unicode []),
    (.unicode "RUSTC".toList, .unicode "b".toList)] "RUSTC".toList = some (.unicode "b".toList) := by decide

/-- C18: every variable `apply_env` looks at passes the filter on names: two environments that agree on the variables that may
matter have the same effect, whatever else they contain. -/
theorem C18_no_influence (hd : DistinctKeys env) (hd' : DistinctKeys env') (ha : c.alias.Sorted) (hr : c.registries.Sorted)
    (h : ∀ n, CargoVariable n → env.get n = env'.get n) : (c.applyEnv env).Same (c.applyEnv env') := by
  exact applyEnv_congr hd hd' ha hr fun n hn => h n hn.relevant

/-- The sample environment with a further variable. -/
example : (sampleConfig.applyEnv sampleEnv).Same (sampleConfig.applyEnv (("PATH".toList, .unicode "x".toList) :: sampleEnv)) := by
  refine C18_no_influence sample_distinct (by decide +kernel) (by decide +kernel) (by decide +kernel) fun n hn => ?_
  rw [show Env.get (("PATH".toList, .unicode "x".toList) :: sampleEnv) n =
    if "PATH".toList = n then some (.unicode "x".toList) else sampleEnv.get n from rfl, if_neg]
  rintro rfl
  rcases hn with ⟨r, hr⟩ | ⟨r, hr⟩ | hr
  · exact absurd (congrArg List.head? hr) (by simp)
  · exact absurd (congrArg List.head? hr) (by simp)
  · exact absurd hr (by decide)

/-- C18: lists of variables given to `ResolveOptions::env` that agree on the variables that may matter give the same config. -/
theorem C18_options {vars vars' : List (OsStr × OsStr)} (ha : c.alias.Sorted) (hr : c.registries.Sorted)
    (h : ∀ n, CargoVariable n → lastValue vars n = lastValue vars' n) :
    (c.applyEnv (optEnv vars)).Same (c.applyEnv (optEnv vars')) :=
  C18_no_influence (C18_map vars) (C18_map vars') ha hr fun n hn => by
    rw [C18_lookup vars hn, C18_lookup vars' hn, h n hn]

example : (∀ n, CargoVariable n → lastValue [(.unicode "PATH".toList, .unicode "a".toList), (.invalid [1], .unicode [])] n =
    lastValue [] n) := by
  intro n hn
  rw [← envRelevant_iff] at hn
  rw [lastValue_cons_ne, lastValue_cons_ne]
  · simp
  · intro e; cases e; exact absurd hn (by decide)

/-! ### C19 -/

/-- C19: the order of the variables does not matter. -/
theorem C19_order (hd : DistinctKeys env) (ha : c.alias.Sorted) (hr : c.registries.Sorted) (h : env.Perm env') :
    (c.applyEnv env).Same (c.applyEnv env') :=
  C18_no_influence hd (h.pairwise hd fun h e => h e.symm) ha hr fun n _ => congrFun (Env.get_perm hd h) n

example : sampleEnv.Perm sampleEnv.reverse := (List.reverse_perm _).symm

/-! ### C20 -/

/-- C20: every single-valued setting except cargo-new.vcs has the value of its highest-priority variable that is set, else its old
value; settings without a variable (`ScalarKey.sources k = []`) are unchanged. -/
theorem C20_scalar (hd : DistinctKeys env) (h : c.applyEnv env = .ok c') (k : ScalarKey) (hk : k ≠ .cargoNewVcs) :
    k.get c' = k.withEnv env.get (k.get c) := by
  rw [applyEnv_ok_iff] at h
  by_cases hr : ∃ s, k = .registriesIndex s ∨ k = .registriesToken s ∨ k = .registriesProtocol s
  · exact (loop_scalar hd h k hr).2
  · refine (section_scalar h k hk fun s => ?_).2
    exact ⟨fun e => hr ⟨s, Or.inl e⟩, fun e => hr ⟨s, Or.inr (Or.inl e)⟩, fun e => hr ⟨s, Or.inr (Or.inr e)⟩⟩

/-- C20: every list has the value of its highest-priority variable that is set, else its old value. -/
theorem C20_list (hd : DistinctKeys env) (h : c.applyEnv env = .ok c') (k : ListKey) :
    k.get c' = k.withEnv env.get (k.get c) := by
  rw [applyEnv_ok_iff] at h
  exact (applied_list hd h k).2

/-- C20: every command keeps its old value, and otherwise has the value of its variable. -/
theorem C20_prog (h : c.applyEnv env = .ok c') (k : ProgKey) : k.get c' = k.withEnv env.get (k.get c) := by
  rw [applyEnv_ok_iff] at h
  exact (applied_prog h k).2

/-- In the sample `build.rustc` has two variables, `build.target-dir` none that is set; the flags have two, the browser one. -/
example : ScalarKey.buildRustc.get sampleAfter = some ⟨.str "my rustc".toList, some (.environment "RUSTC".toList)⟩ ∧
    ScalarKey.buildTargetDir.get sampleAfter = ScalarKey.buildTargetDir.get sampleConfig ∧
    ListKey.buildRustdocflags.get sampleAfter = some (.string, [⟨"-d".toList, some (.environment "CARGO_BUILD_RUSTDOCFLAGS".toList)⟩]) ∧
    ProgKey.docBrowser.get sampleAfter ≠ none := by
  refine ⟨(C20_scalar sample_distinct sample_applied _ (by simp)).trans (by decide +kernel),
    (C20_scalar sample_distinct sample_applied _ (by simp)).trans (by decide +kernel),
    (C20_list sample_distinct sample_applied _).trans (by decide +kernel), ?_⟩
  rw [C20_prog sample_applied]
  decide +kernel

/-- C20: the priorities in plain words, for the settings with two variables that hold any text: the first variable wins, then the
second, then the file. -/
theorem C20_two_variables (hd : DistinctKeys env) (h : c.applyEnv env = .ok c') {k : ScalarKey} {first second : String}
    (hk : (k, first, second) ∈ [(ScalarKey.buildRustc, "RUSTC", "CARGO_BUILD_RUSTC"),
      (.buildRustdoc, "RUSTDOC", "CARGO_BUILD_RUSTDOC"), (.buildTargetDir, "CARGO_TARGET_DIR", "CARGO_BUILD_TARGET_DIR")]) :
    (∀ s, env.get first.toList = some (.unicode s) → k.get c' = some ⟨.str s, some (.environment first.toList)⟩) ∧
    (∀ s, env.get first.toList = none → env.get second.toList = some (.unicode s) →
      k.get c' = some ⟨.str s, some (.environment second.toList)⟩) ∧
    (env.get first.toList = none → env.get second.toList = none → k.get c' = k.get c) := by
  have key : k ≠ .cargoNewVcs ∧ k.sources = [asText first, asText second] := by
    simp only [List.mem_cons, Prod.mk.injEq, List.not_mem_nil, or_false] at hk
    rcases hk with ⟨rfl, rfl, rfl⟩ | ⟨rfl, rfl, rfl⟩ | ⟨rfl, rfl, rfl⟩ <;> exact ⟨by decide, rfl⟩
  have hv := C20_scalar hd h k key.1
  rw [hv]
  unfold ScalarKey.withEnv
  rw [key.2]
  refine ⟨fun s h1 => ?_, fun s h1 h2 => ?_, fun h1 h2 => ?_⟩
  · simp only [readEnv, asText, h1, Option.map_some]
  · simp only [readEnv, asText, h1, h2, Option.map_some]
  · simp only [readEnv, asText, h1, h2]

example : sampleEnv.get "RUSTC".toList = some (.unicode "my rustc".toList) := by decide +kernel

/-- C20: build.incremental. -/
theorem C20_incremental (hd : DistinctKeys env) (h : c.applyEnv env = .ok c') :
    (∀ s, env.get "CARGO_INCREMENTAL".toList = some (.unicode s) → ScalarKey.buildIncremental.get c' =
      some ⟨.bool (decide (s = ['1'])), some (.environment "CARGO_INCREMENTAL".toList)⟩) ∧
    (∀ b : Bool, env.get "CARGO_INCREMENTAL".toList = none →
      env.get "CARGO_BUILD_INCREMENTAL".toList = some (.unicode (if b then "true".toList else "false".toList)) →
      ScalarKey.buildIncremental.get c' = some ⟨.bool b, some (.environment "CARGO_BUILD_INCREMENTAL".toList)⟩) := by
  rw [C20_scalar hd h _ (by decide)]
  unfold ScalarKey.withEnv ScalarKey.sources
  refine ⟨fun s h1 => ?_, fun b h1 h2 => ?_⟩
  · simp only [readEnv, h1, Option.map_some]
    rfl
  · simp only [readEnv, asBool, h1, h2]
    cases b <;> rfl

example : sampleEnv.get "CARGO_INCREMENTAL".toList = some (.unicode "0".toList) := by decide +kernel

/-! ### C21 -/

/-- C21: an empty wrapper variable, if it is the one that counts, removes the wrapper whatever the files say. -/
theorem C21_disabled (hd : DistinctKeys env) (h : c.applyEnv env = .ok c') :
    (env.get "RUSTC_WRAPPER".toList = some (.unicode []) → c'.build.rustcWrapper = none) ∧
    (env.get "RUSTC_WRAPPER".toList = none → env.get "CARGO_BUILD_RUSTC_WRAPPER".toList = some (.unicode []) →
      c'.build.rustcWrapper = none) ∧
    (env.get "RUSTC_WORKSPACE_WRAPPER".toList = some (.unicode []) → c'.build.rustcWorkspaceWrapper = none) ∧
    (env.get "RUSTC_WORKSPACE_WRAPPER".toList = none →
      env.get "CARGO_BUILD_RUSTC_WORKSPACE_WRAPPER".toList = some (.unicode []) → c'.build.rustcWorkspaceWrapper = none) := by
  have h1 := C20_scalar hd h .buildRustcWrapper (by decide)
  have h2 := C20_scalar hd h .buildRustcWorkspaceWrapper (by decide)
  simp only [ScalarKey.withEnv, ScalarKey.sources, ScalarKey.get] at h1 h2
  refine ⟨fun g => ?_, fun g g' => ?_, fun g => ?_, fun g g' => ?_⟩
  · simp only [readEnv, asWrapper, g, if_true, Option.map_some, Option.map_none] at h1
    simpa using h1
  · simp only [readEnv, asWrapper, g, g', if_true, Option.map_some, Option.map_none] at h1
    simpa using h1
  · simp only [readEnv, asWrapper, g, if_true, Option.map_some, Option.map_none] at h2
    simpa using h2
  · simp only [readEnv, asWrapper, g, g', if_true, Option.map_some, Option.map_none] at h2
    simpa using h2

example : sampleEnv.get "RUSTC_WRAPPER".toList = some (.unicode []) ∧ sampleConfig.build.rustcWrapper.isSome = true := by
  decide +kernel

/-- C21: a wrapper variable with a non-empty value, if it is the one that counts, is the wrapper. -/
theorem C21_enabled (hd : DistinctKeys env) (h : c.applyEnv env = .ok c') {s : Str} (hs : s ≠ []) :
    (env.get "RUSTC_WRAPPER".toList = some (.unicode s) →
      c'.build.rustcWrapper = some ⟨s, some (.environment "RUSTC_WRAPPER".toList)⟩) ∧
    (env.get "RUSTC_WRAPPER".toList = none → env.get "CARGO_BUILD_RUSTC_WRAPPER".toList = some (.unicode s) →
      c'.build.rustcWrapper = some ⟨s, some (.environment "CARGO_BUILD_RUSTC_WRAPPER".toList)⟩) ∧
    (env.get "RUSTC_WORKSPACE_WRAPPER".toList = some (.unicode s) →
      c'.build.rustcWorkspaceWrapper = some ⟨s, some (.environment "RUSTC_WORKSPACE_WRAPPER".toList)⟩) ∧
    (env.get "RUSTC_WORKSPACE_WRAPPER".toList = none →
      env.get "CARGO_BUILD_RUSTC_WORKSPACE_WRAPPER".toList = some (.unicode s) →
      c'.build.rustcWorkspaceWrapper = some ⟨s, some (.environment "CARGO_BUILD_RUSTC_WORKSPACE_WRAPPER".toList)⟩) := by
  have h1 := C20_scalar hd h .buildRustcWrapper (by decide)
  have h2 := C20_scalar hd h .buildRustcWorkspaceWrapper (by decide)
  simp only [ScalarKey.withEnv, ScalarKey.sources, ScalarKey.get] at h1 h2
  have conv : ∀ {o : Option (Val Str)} {n : Str}, o.map (Val.map Atom.str) = some ⟨.str s, some (.environment n)⟩ →
      o = some ⟨s, some (.environment n)⟩ := by
    intro o n h
    rcases o with _ | ⟨v, d⟩
    · cases h
    · simp only [Option.map_some, Val.map, Option.some.injEq, Val.mk.injEq, Atom.str.injEq] at h
      rw [h.1, h.2]
  refine ⟨fun g => conv ?_, fun g g' => conv ?_, fun g => conv ?_, fun g g' => conv ?_⟩
  · simpa only [readEnv, asWrapper, g, if_neg hs, Option.map_some] using h1
  · simpa only [readEnv, asWrapper, g, g', if_neg hs, Option.map_some] using h1
  · simpa only [readEnv, asWrapper, g, if_neg hs, Option.map_some] using h2
  · simpa only [readEnv, asWrapper, g, g', if_neg hs, Option.map_some] using h2

example : (({ build := { rustcWrapper := some ⟨"w".toList, some sampleFile⟩ } } : Config).applyEnv
      [("CARGO_BUILD_RUSTC_WRAPPER".toList, .unicode "sccache".toList)]).toOption.bind (·.build.rustcWrapper) =
    some ⟨"sccache".toList, some (.environment "CARGO_BUILD_RUSTC_WRAPPER".toList)⟩ := by decide +kernel

/-- C21: a wrapper that comes from the environment is never the empty string. -/
theorem C21_never_empty (hd : DistinctKeys env) (h : c.applyEnv env = .ok c') {k : ScalarKey}
    (hk : k = .buildRustcWrapper ∨ k = .buildRustcWorkspaceWrapper)
    (hc : ∀ v n, k.get c = some v → v.defn ≠ some (.environment n)) {a : Atom} {n : Str}
    (hv : k.get c' = some ⟨a, some (.environment n)⟩) : ∃ s, a = .str s ∧ s ≠ [] := by
  have hn : k ≠ .cargoNewVcs := by rcases hk with rfl | rfl <;> decide
  have hs : ∃ a b, k.sources = [asWrapper a, asWrapper b] := by rcases hk with rfl | rfl <;> exact ⟨_, _, rfl⟩
  obtain ⟨x, y, hs⟩ := hs
  have key : ∀ x (l : List ScalarSource), (∀ o n, readEnv env.get l = some (some (n, some o)) → ∃ s, o = Atom.str s ∧ s ≠ []) →
      ∀ o n, readEnv env.get (asWrapper x :: l) = some (some (n, some o)) → ∃ s, o = Atom.str s ∧ s ≠ [] := by
    intro x l ih o n ho
    simp only [asWrapper, readEnv] at ho
    rcases hg : env.get x.toList with _ | t | t <;> simp only [hg] at ho
    · exact ih o n ho
    · by_cases ht : t = []
      · simp [ht] at ho
      · simp only [if_neg ht, Option.map_some, Option.some.injEq, Prod.mk.injEq] at ho
        exact ⟨t, ho.2.symm, ht⟩
    · cases ho
  have hw := C20_scalar hd h k hn
  rw [hv] at hw
  unfold ScalarKey.withEnv at hw
  rw [hs] at hw
  rcases hre : readEnv env.get [asWrapper x, asWrapper y] with _ | _ | ⟨n', _ | o⟩ <;> rw [hre] at hw
  · exact absurd rfl (hc _ n hw.symm)
  · exact absurd rfl (hc _ n hw.symm)
  · cases hw
  · obtain ⟨s, rfl, hs'⟩ := key x _ (key y _ (by intro o n h; cases h)) o n' hre
    simp only [Option.map_some, Option.some.injEq, Val.mk.injEq] at hw
    exact ⟨s, hw.1, hs'⟩

example : ∃ c' : Config, ScalarKey.buildRustcWrapper.get c' = some ⟨.str "s".toList, some (.environment "RUSTC_WRAPPER".toList)⟩ ∧
    (({} : Config).applyEnv [("RUSTC_WRAPPER".toList, .unicode "s".toList)]).toOption = some c' := by
  refine ⟨_, ?_, rfl⟩
  decide +kernel

/-! ### C22 -/

/-- C22: the sources of build.rustflags (`enc`/`plain`/`build` are the three variables) and of build.rustdocflags. -/
theorem C22_sources (hd : DistinctKeys env) (h : c.applyEnv env = .ok c') {k : ListKey} {enc plain build : String}
    (hk : (k, enc, plain, build) ∈
      [(ListKey.buildRustflags, "CARGO_ENCODED_RUSTFLAGS", "RUSTFLAGS", "CARGO_BUILD_RUSTFLAGS"),
       (.buildRustdocflags, "CARGO_ENCODED_RUSTDOCFLAGS", "RUSTDOCFLAGS", "CARGO_BUILD_RUSTDOCFLAGS")]) :
    (∀ s, env.get enc.toList = some (.unicode s) → k.get c' = some (.array,
      (piecesAt (Char.ofNat 0x1f) s).map fun w => ⟨w, some (.environment enc.toList)⟩)) ∧
    (∀ s, env.get enc.toList = none → env.get plain.toList = some (.unicode s) → k.get c' = some (.string,
      (wordsIn s).map fun w => ⟨w, some (.environment plain.toList)⟩)) ∧
    (∀ s, env.get enc.toList = none → env.get plain.toList = none → env.get build.toList = some (.unicode s) →
      k.get c' = some (.string, (wordsIn s).map fun w => ⟨w, some (.environment build.toList)⟩)) ∧
    (env.get enc.toList = none → env.get plain.toList = none → env.get build.toList = none → k.get c' = k.get c) := by
  have key : k.sources = [asEncoded enc.toList, asWords plain.toList, asWords build.toList] := by
    simp only [List.mem_cons, Prod.mk.injEq, List.not_mem_nil, or_false] at hk
    rcases hk with ⟨rfl, rfl, rfl, rfl⟩ | ⟨rfl, rfl, rfl, rfl⟩ <;> rfl
  rw [C20_list hd h k]
  unfold ListKey.withEnv
  rw [key]
  refine ⟨fun s h1 => ?_, fun s h1 h2 => ?_, fun s h1 h2 h3 => ?_, fun h1 h2 h3 => ?_⟩
  · simp only [readEnv, asEncoded, h1, Option.map_some, listFromVar]
  · simp only [readEnv, asEncoded, asWords, h1, h2, Option.map_some, listFromVar]
  · simp only [readEnv, asEncoded, asWords, h1, h2, h3, Option.map_some, listFromVar]
  · simp only [readEnv, asEncoded, asWords, h1, h2, h3]

/-- In the sample `RUSTFLAGS` is set and hides `CARGO_BUILD_RUSTFLAGS`; of the variables for rustdoc only the last is set. -/
example : ListKey.buildRustflags.get sampleAfter =
      some (.string, (wordsIn " -g  -O ".toList).map fun w => ⟨w, some (.environment "RUSTFLAGS".toList)⟩) ∧
    ListKey.buildRustdocflags.get sampleAfter =
      some (.string, (wordsIn "-d".toList).map fun w => ⟨w, some (.environment "CARGO_BUILD_RUSTDOCFLAGS".toList)⟩) :=
  ⟨(C22_sources (enc := "CARGO_ENCODED_RUSTFLAGS") (build := "CARGO_BUILD_RUSTFLAGS") sample_distinct sample_applied
      (by simp)).2.1 _ (by decide +kernel) (by decide +kernel),
    (C22_sources (enc := "CARGO_ENCODED_RUSTDOCFLAGS") (plain := "RUSTDOCFLAGS") sample_distinct sample_applied
      (by simp)).2.2.1 _ (by decide +kernel) (by decide +kernel) (by decide +kernel)⟩

/-- C22: target-specific flags are suppressed exactly if one of the first two variables is set. -/
theorem C22_suppressed (h : c.applyEnv env = .ok c') :
    (c'.build.overrideTargetRustflags = true ↔
      (env.get "CARGO_ENCODED_RUSTFLAGS".toList ≠ none ∨ env.get "RUSTFLAGS".toList ≠ none)) ∧
    (c'.build.overrideTargetRustdocflags = true ↔
      (env.get "CARGO_ENCODED_RUSTDOCFLAGS".toList ≠ none ∨ env.get "RUSTDOCFLAGS".toList ≠ none)) := by
  rw [applyEnv_ok_iff] at h
  obtain ⟨-, -, -, -, -, -, -, b8, b9, -, -⟩ := (BuildConfig.applyEnv_ok_iff env _ _).1 h.build
  rw [rustflags_override b8, rustflags_override b9, Bool.or_eq_true, Bool.or_eq_true]
  refine ⟨?_, ?_⟩ <;> simp [Option.isSome_iff_ne_none]

example : sampleEnv.get "CARGO_ENCODED_RUSTFLAGS".toList = none ∧
    sampleEnv.get "RUSTFLAGS".toList = some (.unicode " -g  -O ".toList) := by decide +kernel

/-! ### C23 -/

/-- C23: applying the environment fails exactly if, for some setting, the variable that counts is malformed.  `readEnv` only looks at
the first variable of the setting that is set, so shadowed variables do not matter; doc.browser's variable only counts if no
file sets it. -/
theorem C23_fails_iff (hd : DistinctKeys env) : (c.applyEnv env).isErr = true ↔
    (∃ k : ScalarKey, k ≠ .cargoNewVcs ∧ readEnv env.get k.sources = some none) ∨
    (∃ k : ListKey, readEnv env.get k.sources = some none) ∨
    (∃ k : ProgKey, k.get c = none ∧ readEnv env.get k.sources = some none) := by
  have hok : (c.applyEnv env).isErr = true ↔ ¬ EnvFine env.get c := by
    constructor
    · intro h hf
      obtain ⟨c', hc⟩ := applied_of_fine hd hf
      rw [(applyEnv_ok_iff _ _ _).2 hc] at h
      cases h
    · intro h
      cases hc : c.applyEnv env with
      | ok a => exact absurd (envFine_of_applied hd ((applyEnv_ok_iff _ _ _).1 hc)) h
      | panic => exact absurd hc (applyEnv_ne_panic env c)
      | err e => rfl
  rw [hok]
  constructor
  · intro h
    refine Classical.byContradiction fun hn => h ⟨fun k hk he => hn (Or.inl ⟨k, hk, he⟩),
      fun k he => hn (Or.inr (Or.inl ⟨k, he⟩)), fun k hk he => hn (Or.inr (Or.inr ⟨k, hk, he⟩))⟩
  · rintro (⟨k, hk, he⟩ | ⟨k, he⟩ | ⟨k, hk, he⟩) hf
    · exact hf.scalar k hk he
    · exact hf.list k he
    · exact hf.prog k hk he

/-- C23: applying the environment never panics. -/
theorem C23_no_panic : c.applyEnv env ≠ .panic := applyEnv_ne_panic env c

/-- CARGO_BUILD_INCREMENTAL is malformed but shadowed in the sample, so that the sample does not fail; without CARGO_INCREMENTAL it
does fail. -/
example : readEnv (Env.get sampleEnv) (ScalarKey.sources .buildIncremental) ≠ some none ∧
    readEnv (Env.get (sampleEnv.filter fun e => e.1 ≠ "CARGO_INCREMENTAL".toList)) (ScalarKey.sources .buildIncremental) =
      some none := by decide +kernel
example : readEnv (Env.get [("CARGO_HTTP_TIMEOUT".toList, .unicode "4294967296".toList)]) (ScalarKey.sources .httpTimeout) =
    some none := by decide +kernel

/-! ### C24 -/

/-- C24 is false of the code: CARGO_CARGO_NEW_VCS is well formed, and ignored. -/
theorem C24_cargo_new_vcs_fails : ∃ (env : Env) (c c' : Config), DistinctKeys env ∧
    env.get "CARGO_CARGO_NEW_VCS".toList = some (.unicode "hg".toList) ∧ c.applyEnv env = .ok c' ∧
    c'.cargoNew.vcs.map (·.val) = some .git := by
  refine ⟨[("CARGO_CARGO_NEW_VCS".toList, .unicode "hg".toList)], { cargoNew := { vcs := some ⟨.git, none⟩ } }, _,
    by decide, rfl, rfl, rfl⟩

/-- C24: in fact cargo-new.vcs never changes. -/
theorem C24_cargo_new_vcs_ignored (h : c.applyEnv env = .ok c') : c'.cargoNew = c.cargoNew :=
  ((applyEnv_ok_iff _ _ _).1 h).cargoNew

/-- C24 for all other settings: the variable is honoured.  Missing: cargo-new.vcs (see `C24_cargo_new_vcs_fails`). -/
theorem C24_honoured_partial (hd : DistinctKeys env) (h : c.applyEnv env = .ok c') :
    (∀ (k : ScalarKey) n a, k ≠ .cargoNewVcs → readEnv env.get k.sources = some (some (n, a)) →
      k.get c' = a.map fun a => ⟨a, some (.environment n)⟩) ∧
    (∀ (k : ListKey) n x, readEnv env.get k.sources = some (some (n, x)) → k.get c' = some (listFromVar n x)) ∧
    (∀ (k : ProgKey) n x, k.get c = none → readEnv env.get k.sources = some (some (n, x)) →
      k.get c' = some (listFromVar n x)) := by
  refine ⟨fun k n a hk hr => ?_, fun k n x hr => ?_, fun k n x hk hr => ?_⟩
  · rw [C20_scalar hd h k hk]; unfold ScalarKey.withEnv; rw [hr]
  · rw [C20_list hd h k]; unfold ListKey.withEnv; rw [hr]
  · rw [C20_prog h k]; unfold ProgKey.withEnv; rw [hk]; simp only [hr]

example : readEnv (Env.get sampleEnv) (ScalarKey.sources .buildJobs) = some (some ("CARGO_BUILD_JOBS".toList, some (.int 3))) := by
  decide +kernel

/-! ### C25 -/

/-- C25: applying the environment a second time changes nothing. -/
theorem C25_idempotent (hd : DistinctKeys env) (ha : c.alias.Sorted) (hr : c.registries.Sorted)
    (h : c.applyEnv env = .ok c') : c'.applyEnv env = .ok c' := by
  rw [applyEnv_ok_iff] at h ⊢
  exact applied_idem hd ha hr h

example : sampleAfter.applyEnv sampleEnv = .ok sampleAfter :=
  C25_idempotent sample_distinct (by decide +kernel) (by decide +kernel) sample_applied

/-- C25: `[env]` and `[target]` are not modified. -/
theorem C25_local (h : c.applyEnv env = .ok c') : c'.env = c.env ∧ c'.target = c.target :=
  ⟨((applyEnv_ok_iff _ _ _).1 h).env, ((applyEnv_ok_iff _ _ _).1 h).target⟩

/-- C25: doc.browser from a file is preferred over BROWSER, which is otherwise split at spaces. -/
theorem C25_browser (h : c.applyEnv env = .ok c') :
    (∀ x, c.doc.browser = some x → c'.doc.browser = some x) ∧
    (∀ s, c.doc.browser = none → env.get "BROWSER".toList = some (.unicode s) → ProgKey.docBrowser.get c' =
      some (.string, (wordsIn s).map fun w => ⟨w, some (.environment "BROWSER".toList)⟩)) ∧
    (c.doc.browser = none → env.get "BROWSER".toList = none → c'.doc.browser = none) := by
  have h0 := (applyEnv_ok_iff _ _ _).1 h
  have h1 := C20_prog h .docBrowser
  have h2 := (applied_prog h0 .docBrowser).1
  refine ⟨fun x hx => ?_, fun s hx hs => ?_, fun hx hs => ?_⟩
  · have hd := h0.doc
    rw [DocConfig.applyEnv_some hx] at hd
    rw [← Res.ok.inj hd, hx]
  · have hn : ProgKey.docBrowser.get c = none := by simp [ProgKey.get, hx]
    have h2 := h2 hn
    rw [h1]
    unfold ProgKey.withEnv
    rw [hn]
    simp only [ProgKey.sources, readEnv, hs] at h2 ⊢
    by_cases he : wordsIn s = []
    · simp [he] at h2
    · simp only [if_neg he, Option.map_some, listFromVar]
  · have hn : ProgKey.docBrowser.get c = none := by simp [ProgKey.get, hx]
    unfold ProgKey.withEnv at h1
    rw [hn] at h1
    simp only [ProgKey.sources, readEnv, hs, ProgKey.get, Option.map_eq_none_iff] at h1
    exact h1

/-- In the sample the browser is from the variable. -/
example : ProgKey.docBrowser.get sampleAfter =
    some (.string, (wordsIn "lynx -x".toList).map fun w => ⟨w, some (.environment "BROWSER".toList)⟩) :=
  (C25_browser sample_applied).2.1 _ rfl (by decide +kernel)

/-! ### C26 -/

/-- C26: aliases. -/
theorem C26_alias (hd : DistinctKeys env) (h : c.applyEnv env = .ok c') (k : Str) :
    (∀ s, env.get ("CARGO_ALIAS_".toList ++ k) = some (.unicode s) → (ListKey.alias k).get c' = some (.string,
      (wordsIn s).map fun w => ⟨w, some (.environment ("CARGO_ALIAS_".toList ++ k))⟩)) ∧
    (env.get ("CARGO_ALIAS_".toList ++ k) = none → c'.alias.get k = c.alias.get k) := by
  refine ⟨fun s hs => ?_, fun hn => ?_⟩
  · rw [C20_list hd h]
    simp only [ListKey.withEnv, ListKey.sources, asWords, readEnv, hs, Option.map_some, listFromVar]
  · have hv := ((applyEnv_ok_iff _ _ _).1 h).loopView hd
    have := congrFun (congrArg LoopView.alias hv) k
    have hn' : env.get (aliasVar k) = none := hn
    simpa only [loopView, LoopView.final, hn'] using this

/-- In the sample the alias `b` of the file is replaced, `r` stays. -/
example : (ListKey.alias "b".toList).get sampleAfter = some (.string,
      (wordsIn "build --release".toList).map fun w => ⟨w, some (.environment ("CARGO_ALIAS_".toList ++ "b".toList))⟩) ∧
    sampleAfter.alias.get "r".toList = sampleConfig.alias.get "r".toList :=
  ⟨(C26_alias sample_distinct sample_applied "b".toList).1 _ (by decide +kernel),
    (C26_alias sample_distinct sample_applied "r".toList).2 (by decide +kernel)⟩

/-- C26: the index and the token of a registry, and the protocol of crates-io. -/
theorem C26_registries (hd : DistinctKeys env) (h : c.applyEnv env = .ok c') (k : Str) :
    (∀ s, env.get ("CARGO_REGISTRIES_".toList ++ k ++ "_INDEX".toList) = some (.unicode s) →
      (ScalarKey.registriesIndex k).get c' =
        some ⟨.str s, some (.environment ("CARGO_REGISTRIES_".toList ++ k ++ "_INDEX".toList))⟩) ∧
    (env.get ("CARGO_REGISTRIES_".toList ++ k ++ "_INDEX".toList) = none →
      (ScalarKey.registriesIndex k).get c' = (ScalarKey.registriesIndex k).get c) ∧
    (∀ s, env.get ("CARGO_REGISTRIES_".toList ++ k ++ "_TOKEN".toList) = some (.unicode s) →
      (ScalarKey.registriesToken k).get c' =
        some ⟨.str s, some (.environment ("CARGO_REGISTRIES_".toList ++ k ++ "_TOKEN".toList))⟩) ∧
    (env.get ("CARGO_REGISTRIES_".toList ++ k ++ "_TOKEN".toList) = none →
      (ScalarKey.registriesToken k).get c' = (ScalarKey.registriesToken k).get c) := by
  refine ⟨fun s hs => ?_, fun hn => ?_, fun s hs => ?_, fun hn => ?_⟩
  · rw [C20_scalar hd h _ (by simp)]
    simp only [ScalarKey.withEnv, ScalarKey.sources, readEnv, hs, Option.map_some]
  · rw [C20_scalar hd h _ (by simp)]
    simp only [ScalarKey.withEnv, ScalarKey.sources, readEnv, hn]
  · rw [C20_scalar hd h _ (by simp)]
    simp only [ScalarKey.withEnv, ScalarKey.sources, readEnv, hs, Option.map_some]
  · rw [C20_scalar hd h _ (by simp)]
    simp only [ScalarKey.withEnv, ScalarKey.sources, readEnv, hn]

/-- In the sample the registry `FOO` gets an index and a new token. -/
example : (ScalarKey.registriesIndex "FOO".toList).get sampleAfter =
      some ⟨.str "i".toList, some (.environment ("CARGO_REGISTRIES_".toList ++ "FOO".toList ++ "_INDEX".toList))⟩ ∧
    (ScalarKey.registriesToken "FOO".toList).get sampleAfter =
      some ⟨.str "s3cret".toList, some (.environment ("CARGO_REGISTRIES_".toList ++ "FOO".toList ++ "_TOKEN".toList))⟩ :=
  ⟨(C26_registries sample_distinct sample_applied "FOO".toList).1 _ (by decide +kernel),
    (C26_registries sample_distinct sample_applied "FOO".toList).2.2.1 _ (by decide +kernel)⟩

/-- C26: the protocol of crates-io follows its variable; the protocol of another registry never changes. -/
theorem C26_protocol (hd : DistinctKeys env) (h : c.applyEnv env = .ok c') :
    (∀ p : Protocol, env.get "CARGO_REGISTRIES_CRATES_IO_PROTOCOL".toList =
        some (.unicode (match p with | .git => "git".toList | .sparse => "sparse".toList)) →
      (ScalarKey.registriesProtocol "crates-io".toList).get c' =
        some ⟨.protocol p, some (.environment "CARGO_REGISTRIES_CRATES_IO_PROTOCOL".toList)⟩) ∧
    (env.get "CARGO_REGISTRIES_CRATES_IO_PROTOCOL".toList = none →
      (ScalarKey.registriesProtocol "crates-io".toList).get c' = (ScalarKey.registriesProtocol "crates-io".toList).get c) ∧
    (∀ k, k ≠ "crates-io".toList → (ScalarKey.registriesProtocol k).get c' = (ScalarKey.registriesProtocol k).get c) := by
  refine ⟨fun p hp => ?_, fun hn => ?_, fun k hk => ?_⟩
  · rw [C20_scalar hd h _ (by simp)]
    unfold ScalarKey.withEnv
    rw [sources_protocol rfl, readEnv_unicode (n := protoVar) hp]
    cases p <;> rfl
  · rw [C20_scalar hd h _ (by simp)]
    unfold ScalarKey.withEnv
    rw [sources_protocol rfl, readEnv_none (n := protoVar) hn]
  · rw [C20_scalar hd h _ (by simp)]
    unfold ScalarKey.withEnv
    rw [sources_protocol_none hk]
    rfl

example : (ScalarKey.registriesProtocol "crates-io".toList).get sampleAfter =
    some ⟨.protocol .sparse, some (.environment "CARGO_REGISTRIES_CRATES_IO_PROTOCOL".toList)⟩ :=
  (C26_protocol sample_distinct sample_applied).1 .sparse (by decide +kernel)

/-- C26: the entries of the tables afterwards are the old ones and those named by a variable. -/
theorem C26_present (hd : DistinctKeys env) (h : c.applyEnv env = .ok c') (k : TableKey) :
    k.present c' = true ↔ k.present c = true ∨ ∃ n ∈ k.vars, env.get n ≠ none := by
  have h0 := (applyEnv_ok_iff _ _ _).1 h
  have hv := h0.loopView hd
  cases k with
  | env k => simp [TableKey.present, TableKey.vars, h0.env]
  | target k => simp [TableKey.present, TableKey.vars, h0.target]
  | alias k =>
    have hl := (applied_list hd h0 (.alias k)).1
    have := congrFun (congrArg LoopView.alias hv) k
    show (c'.alias.get k).isSome = true ↔ (c.alias.get k).isSome = true ∨ ∃ n ∈ [aliasVar k], env.get n ≠ none
    simp only [loopView, LoopView.final] at this
    rw [this]
    rw [sources_alias] at hl
    simp only [List.mem_singleton, exists_eq_left]
    rcases hg : env.get (aliasVar k) with _ | t | t
    · simp
    · simp [OsStr.toStr?]
    · exact absurd (readEnv_invalid hg) hl
  | registries k =>
    have := congrFun (congrArg LoopView.present hv) k
    have hvars : (∃ n ∈ (TableKey.registries k).vars, env.get n ≠ none) ↔ (env.get (indexVar k) ≠ none ∨
        env.get (tokenVar k) ≠ none ∨ (k = "crates-io".toList ∧ env.get protoVar ≠ none)) := by
      show (∃ n ∈ [indexVar k, tokenVar k] ++ (if k = "crates-io".toList then [protoVar] else []), env.get n ≠ none) ↔ _
      by_cases hk : k = "crates-io".toList
      · rw [if_pos hk]; simp only [hk, true_and, List.cons_append, List.nil_append, List.mem_cons, List.not_mem_nil, or_false,
          exists_eq_or_imp, exists_eq_left]
      · rw [if_neg hk]; simp only [hk, false_and, or_false, List.append_nil, List.mem_cons, List.not_mem_nil,
          exists_eq_or_imp, exists_eq_left]
    rw [hvars]
    show (c'.registries.get k).isSome = true ↔ (c.registries.get k).isSome = true ∨ _
    simp only [loopView, LoopView.final] at this
    rw [this]
    generalize "crates-io".toList = ci
    simp only [Bool.or_eq_true, Bool.and_eq_true, decide_eq_true_eq, Option.isSome_iff_ne_none, or_assoc, ne_eq]

/-- C26: entries not named by a variable are untouched. -/
theorem C26_untouched (hd : DistinctKeys env) (h : c.applyEnv env = .ok c') (k : TableKey)
    (hk : ∀ n ∈ k.vars, env.get n = none) : k.Same c c' := by
  have h0 := (applyEnv_ok_iff _ _ _).1 h
  have hv := h0.loopView hd
  cases k with
  | env k => simp [TableKey.Same, h0.env]
  | target k => simp [TableKey.Same, h0.target]
  | alias k => exact ((C26_alias hd h k).2 (hk _ (by simp [TableKey.vars]))).symm
  | registries k =>
    have hi : env.get (indexVar k) = none := hk (indexVar k) (List.mem_append_left _ List.mem_cons_self)
    have ht : env.get (tokenVar k) = none := hk (tokenVar k) (List.mem_append_left _ (List.mem_cons_of_mem _ List.mem_cons_self))
    have hp : k = "crates-io".toList → env.get protoVar = none := fun e => by
      refine hk protoVar ?_
      refine List.mem_append_right _ ?_
      rw [if_pos e]; exact List.mem_cons_self
    have e1 := congrFun (congrArg LoopView.present hv) k
    have e2 := congrFun (congrArg LoopView.index hv) k
    have e3 := congrFun (congrArg LoopView.token hv) k
    have e4 := congrFun (congrArg LoopView.protocol hv) k
    show c.registries.get k = c'.registries.get k
    simp only [loopView, LoopView.final, hi, ht] at e1 e2 e3 e4
    generalize "crates-io".toList = ci at hp e1 e4
    have e4' : (c'.registries.get k).bind (·.protocol) = (c.registries.get k).bind (·.protocol) := by
      rw [e4]
      by_cases hkc : k = ci
      · rw [if_pos hkc, hp hkc]
      · rw [if_neg hkc]
    have e1' : (c'.registries.get k).isSome = (c.registries.get k).isSome := by
      rw [e1]
      by_cases hkc : k = ci
      · rw [hp hkc]; simp
      · simp [hkc]
    clear e1 e4
    rcases h1 : c'.registries.get k with _ | a <;> rcases h2 : c.registries.get k with _ | b <;>
      simp only [h1, h2] at e1' e2 e3 e4'
    · rfl
    · cases e1'
    · cases e1'
    · obtain ⟨a1, a2, a3⟩ := a
      obtain ⟨b1, b2, b3⟩ := b
      simp only [Option.bind_some] at e2 e3 e4'
      rw [e2, e3, e4']

example : (TableKey.registries "bar".toList).present sampleConfig = true ∧
    ∀ n ∈ (TableKey.registries "bar".toList).vars, sampleEnv.get n = none := by decide +kernel
example : (TableKey.registries "crates-io".toList).present sampleConfig = false ∧
    ∃ n ∈ (TableKey.registries "crates-io".toList).vars, Env.get sampleEnv n ≠ none := by decide +kernel

/-- The other statements about the sample. -/
example : sampleAfter.cargoNew = sampleConfig.cargoNew := C24_cargo_new_vcs_ignored sample_applied

example : sampleAfter.env = sampleConfig.env ∧ sampleAfter.target = sampleConfig.target := C25_local sample_applied

example : (TableKey.registries "FOO".toList).present sampleAfter = true :=
  (C26_present sample_distinct sample_applied _).2 (.inr (by decide +kernel))

example : (optEnv [(.unicode "RUSTC".toList, .unicode "a".toList), (.unicode "PATH".toList, .unicode "p".toList),
      (.unicode "RUSTC".toList, .unicode "b".toList)]).get "RUSTC".toList = some (.unicode "b".toList) ∧
    (optEnv [(.unicode "RUSTC".toList, .unicode "a".toList), (.unicode "PATH".toList, .unicode "p".toList)]).get "PATH".toList = none := by
  refine ⟨(C18_lookup _ ((envRelevant_iff _).1 (by decide +kernel))).trans (by decide +kernel), C18_dropped _ fun h => ?_⟩
  exact absurd ((envRelevant_iff _).2 h) (by decide +kernel)

/-- A malformed value makes it fail. -/
example : (sampleConfig.applyEnv [("CARGO_BUILD_JOBS".toList, .unicode "many".toList)]).isErr = true :=
  (C23_fails_iff (by decide)).2 (.inl ⟨.buildJobs, by decide, by decide +kernel⟩)

end CC
