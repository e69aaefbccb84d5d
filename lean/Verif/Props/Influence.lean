import Verif.Lemmas.Influence
/-
C80: which environment variables have an influence, exactly.
-/
namespace CC

variable {p p' : ProcEnv} {fs : Fs} {toml : Str → Res Toml} {cwd : Path} {o : Options}

/-- C80: lists of variables given to `ResolveOptions::env` that agree on the variables listed in `InfluentialVariable` give the same
outcome: configs that cannot be told apart, or an error in both cases. -/
theorem C80_no_other {vars vars' : List (OsStr × OsStr)} (h : ∀ n, InfluentialVariable n → lastValue vars n = lastValue vars' n) :
    LoadsAlike (EConfig.loadWithOptions p fs (fun s => toml s >>= Config.de) cwd (o.withEnv vars))
      (EConfig.loadWithOptions p fs (fun s => toml s >>= Config.de) cwd (o.withEnv vars')) := by
  have hg : ∀ n, InfluentialVariable n → (optEnv vars).get n = (optEnv vars').get n := fun n hn => by
    rw [C18_lookup vars hn.relevant, C18_lookup vars' hn.relevant, h n hn]
  refine load_congr (C18_map vars) (C18_map vars') hg ?_ rfl rfl
  unfold Options.intoContext Options.withEnv
  simp only [Option.isNone_some, Bool.false_eq_true, if_false, Option.getD_some]
  rw [hg "CARGO".toList (.plain (by decide +kernel))]

/-- C80, for the environment of the process: if no variables are given, those of the process that are listed, its `CARGO_HOME` and its
home directory are all that counts. -/
theorem C80_process (ho : o.env = none) (h : ∀ n, InfluentialVariable n → lastValue p.vars n = lastValue p'.vars n)
    (hc : firstValue p.vars "CARGO_HOME".toList = firstValue p'.vars "CARGO_HOME".toList) (hh : p.home = p'.home) :
    LoadsAlike (EConfig.loadWithOptions p fs (fun s => toml s >>= Config.de) cwd o)
      (EConfig.loadWithOptions p' fs (fun s => toml s >>= Config.de) cwd o) := by
  have hg : ∀ n, InfluentialVariable n → (optEnv p.vars).get n = (optEnv p'.vars).get n := fun n hn => by
    rw [C18_lookup _ hn.relevant, C18_lookup _ hn.relevant, h n hn]
  have e : ∀ q : ProcEnv, (o.intoContext q cwd).1.env = optEnv q.vars := fun q => by
    unfold Options.intoContext Options.withEnv
    simp only [ho, Option.isNone_none, if_true, Option.getD_some]
  refine load_congr ?_ ?_ ?_ ?_ ?_ ?_
  · rw [e]; exact C18_map _
  · rw [e]; exact C18_map _
  · rw [e, e]; exact hg
  · unfold Options.intoContext Options.withEnv
    simp only [ho, Option.isNone_none, if_true, Option.getD_some]
    rw [hg "CARGO".toList (.plain (by decide +kernel))]
  · unfold Options.intoContext Options.withEnv
    simp only [ho, Option.isNone_none, if_true]
  · unfold firstValue at hc
    rw [List.head?_filter, List.head?_filter] at hc
    unfold ProcEnv.cargoHomeWithCwd ProcEnv.varOs
    rw [hc, hh]

/-- C80: a variable makes a difference in some situation exactly if it is listed in `InfluentialVariable`. -/
theorem C80_exactly (n : Str) : MakesADifference n ↔ InfluentialVariable n := by
  constructor
  · rintro ⟨p, fs, toml, cwd, o, vars, vars', c, c', s, s', h, h1, h2, h3⟩
    by_cases hn : InfluentialVariable n
    · exact hn
    · have := C80_no_other (p := p) (fs := fs) (toml := toml) (cwd := cwd) (o := o) (vars := vars) (vars' := vars')
        fun m hm => h m fun e => hn (e ▸ hm)
      rw [h1, h2] at this
      exact absurd this.1 h3
  · intro hn
    cases hn with
    | plain h => exact plain_matters h
    | alias k =>
      refine pattern_matters fun hp => MakesADifference.of (single_load (.alias k) hp _ (applyVar_alias k "x".toList)) fun hi => ?_
      have := congrArg (fun c => c.alias.length) hi.fields
      cases this
    | index k =>
      refine pattern_matters fun hp => MakesADifference.of (single_load (.index k) hp _ (applyVar_index k "x".toList)) fun hi => ?_
      have := congrArg (fun c => c.registries.length) hi.fields
      cases this
    | token k =>
      refine pattern_matters fun hp => MakesADifference.of (single_load (.token k) hp _ (applyVar_token k "x".toList)) fun hi => ?_
      have := congrArg (fun c => c.registries.length) hi.fields
      cases this
    | target h hk => exact pattern_matters fun hp => target_matters h hk hp

/-- Names that Cargo does not use, that it uses for another purpose, or that only look like one of those listed have no influence; nor has
`CARGO_CARGO_NEW_VCS`. -/
example : ∀ n ∈ ["PATH", "CARGO_CARGO_NEW_VCS", "CARGO_HOME", "CARGO_FOO", "RUSTUP_TOOLCHAIN", "CARGO_REGISTRIES_X_PROTOCOL",
    "CARGO_REGISTRY_INDEX", "CARGO_TARGET_X_AR", "CARGO_BUILD_JOBS_", "cargo_build_jobs", "RUSTC_LINKER"],
    ¬ MakesADifference n.toList := by
  intro n hn hd
  have h := ((C80_exactly _).1 hd).looks
  clear hd
  revert n
  decide +kernel

/-- The name for a target that is spelled with `-` and `.`; the name of a registry; a lower-case alias. -/
example : InfluentialVariable "CARGO_TARGET_THUMBV8M_BASE_NONE_EABI_RUNNER".toList ∧
    InfluentialVariable "CARGO_REGISTRIES_MY_REG_TOKEN".toList ∧ InfluentialVariable "CARGO_ALIAS_ci".toList :=
  ⟨.target (t := "thumbv8m.base-none-eabi".toList) (u := "THUMBV8M_BASE_NONE_EABI".toList) (key := "RUNNER")
      (C32_env_name _) (by decide), .token "MY_REG".toList, .alias "ci".toList⟩

/-- `CARGO_FOO` does not matter. -/
example (p : ProcEnv) (fs : Fs) (toml : Str → Res Toml) (cwd : Path) (o : Options) (v : OsStr) :
    LoadsAlike (EConfig.loadWithOptions p fs (fun s => toml s >>= Config.de) cwd (o.withEnv [(.unicode "CARGO_FOO".toList, v)]))
      (EConfig.loadWithOptions p fs (fun s => toml s >>= Config.de) cwd (o.withEnv [])) := by
  refine C80_no_other fun n hn => lastValue_cons_ne _ _ _ _ ?_
  intro e
  cases e
  have h := hn.looks
  revert h
  decide +kernel

end CC
