import Verif.Lemmas.EnvLoad
/-
C18 and C19 for loading and the later queries as a whole.
-/
namespace CC

variable {p p' : ProcEnv} {fs : Fs} {toml : Str → Res Toml} {cwd : Path} {o : Options}

/-- C18, end to end: lists of variables given to `ResolveOptions::env` that agree on the variables that may matter give configs that
cannot be told apart, neither by their fields nor by any later query. -/
theorem C18_load {vars vars' : List (OsStr × OsStr)} (h : ∀ n, CargoVariable n → lastValue vars n = lastValue vars' n) :
    LoadsAlike (EConfig.loadWithOptions p fs (fun s => toml s >>= Config.de) cwd (o.withEnv vars))
      (EConfig.loadWithOptions p fs (fun s => toml s >>= Config.de) cwd (o.withEnv vars')) := by
  have hg : ∀ n, CargoVariable n → (optEnv vars).get n = (optEnv vars').get n := fun n hn => by
    rw [C18_lookup vars hn, C18_lookup vars' hn, h n hn]
  refine load_congr (C18_map vars) (C18_map vars') (fun n hn => hg n hn.relevant) ?_ rfl rfl
  unfold Options.intoContext Options.withEnv
  simp only [Option.isNone_some, Bool.false_eq_true, if_false, Option.getD_some]
  rw [hg "CARGO".toList ((envRelevant_iff _).1 (by decide))]

/-- C18, end to end, for the environment of the process: if no variables are given, those of the process that may matter, its
`CARGO_HOME` and its home directory are all that counts. -/
theorem C18_process (ho : o.env = none) (h : ∀ n, CargoVariable n → lastValue p.vars n = lastValue p'.vars n)
    (hc : p.varOs "CARGO_HOME".toList = p'.varOs "CARGO_HOME".toList) (hh : p.home = p'.home) :
    LoadsAlike (EConfig.loadWithOptions p fs (fun s => toml s >>= Config.de) cwd o)
      (EConfig.loadWithOptions p' fs (fun s => toml s >>= Config.de) cwd o) := by
  have hg : ∀ n, CargoVariable n → (optEnv p.vars).get n = (optEnv p'.vars).get n := fun n hn => by
    rw [C18_lookup _ hn, C18_lookup _ hn, h n hn]
  have e : ∀ q : ProcEnv, (o.intoContext q cwd).1.env = optEnv q.vars := fun q => by
    unfold Options.intoContext Options.withEnv
    simp only [ho, Option.isNone_none, if_true, Option.getD_some]
  refine load_congr ?_ ?_ ?_ ?_ ?_ ?_
  · rw [e]; exact C18_map _
  · rw [e]; exact C18_map _
  · rw [e, e]; exact fun n hn => hg n hn.relevant
  · unfold Options.intoContext Options.withEnv
    simp only [ho, Option.isNone_none, if_true, Option.getD_some]
    rw [hg "CARGO".toList ((envRelevant_iff _).1 (by decide))]
  · unfold Options.intoContext Options.withEnv
    simp only [ho, Option.isNone_none, if_true]
  · unfold ProcEnv.cargoHomeWithCwd
    rw [hc, hh]

/-- C18, end to end: with variables given and `CARGO_HOME` set in the options, nothing of the process matters. -/
theorem C18_given {e : Env} {home : Option Path} (he : o.env = some e) (hh : o.cargoHome = some home) :
    EConfig.loadWithOptions p fs (fun s => toml s >>= Config.de) cwd o =
      EConfig.loadWithOptions p' fs (fun s => toml s >>= Config.de) cwd o := by
  unfold EConfig.loadWithOptions Options.intoContext Cells.cargoHomeOf
  simp only [he, hh, Option.isNone_some, Bool.false_eq_true, if_false, Option.getD_some]

/-- C19, end to end: the order in which the variables are visited makes no difference to the config or to any later query. -/
theorem C19_load {env env' : Env} (hd : DistinctKeys env) (h : env.Perm env') :
    LoadsAlike (EConfig.loadWithOptions p fs (fun s => toml s >>= Config.de) cwd { o with env := some env })
      (EConfig.loadWithOptions p fs (fun s => toml s >>= Config.de) cwd { o with env := some env' }) := by
  have hd' : DistinctKeys env' := h.pairwise hd fun h e => h e.symm
  have hg := Env.get_perm hd h
  refine load_congr hd hd' (fun n _ => congrFun hg n) ?_ rfl rfl
  unfold Options.intoContext
  simp only [Option.isNone_some, Bool.false_eq_true, if_false, Option.getD_some]
  rw [hg]

/-- Two lists that agree on the variables that may matter; the load succeeds, and the linker of a target is from its variable. -/
example : ∀ n, CargoVariable n →
    lastValue [(.unicode "PATH".toList, .unicode "a".toList), (.unicode "CARGO_TARGET_T_LINKER".toList, .unicode "ld".toList)] n =
    lastValue [(.unicode "CARGO_TARGET_T_LINKER".toList, .unicode "x".toList), (.unicode "CARGO_TARGET_T_LINKER".toList, .unicode "ld".toList)] n := by
  intro n hn
  rw [← envRelevant_iff] at hn
  by_cases h : n = "CARGO_TARGET_T_LINKER".toList
  · subst h; decide
  · rw [lastValue_cons_ne, lastValue_cons_ne, lastValue_cons_ne, lastValue_cons_ne]
    · intro e; cases e; exact h rfl
    · intro e; cases e; exact h rfl
    · intro e; cases e; exact h rfl
    · intro e; cases e; exact absurd hn (by decide)

def linkerVars : List (OsStr × OsStr) :=
  [(.unicode "PATH".toList, .unicode "a".toList), (.unicode "CARGO_TARGET_T_LINKER".toList, .unicode "ld".toList)]

example :
    ((EConfig.loadWithOptions {} ⟨fun _ => false, fun _ => .err (.io [])⟩ (fun _ => .ok {}) "/".toList (Options.withEnv {} linkerVars)).toOption.map
      fun r => ((r.1.linker ⟨"t".toList, none⟩) ⟨true, fun _ _ => .notStarted [], fun _ _ => false⟩ r.2).1.toOption) =
    some (some (some "ld".toList)) := by decide +kernel

/-- Both variables given, in either way; `PATH` and a value given before do not matter. -/
example (p : ProcEnv) (fs : Fs) (toml : Str → Res Toml) (cwd : Path) (o : Options) :
    LoadsAlike (EConfig.loadWithOptions p fs (fun s => toml s >>= Config.de) cwd (o.withEnv linkerVars))
      (EConfig.loadWithOptions p fs (fun s => toml s >>= Config.de) cwd
        (o.withEnv [(.unicode "CARGO_TARGET_T_LINKER".toList, .unicode "ld".toList)])) := by
  refine C18_load fun n hn => ?_
  rw [linkerVars, lastValue_cons_ne]
  intro e
  cases e
  rw [← envRelevant_iff] at hn
  exact absurd hn (by decide)

example (fs : Fs) (toml : Str → Res Toml) (cwd : Path) :
    LoadsAlike (EConfig.loadWithOptions { vars := linkerVars } fs (fun s => toml s >>= Config.de) cwd {})
      (EConfig.loadWithOptions { vars := [(.unicode "CARGO_TARGET_T_LINKER".toList, .unicode "ld".toList)] } fs
        (fun s => toml s >>= Config.de) cwd {}) := by
  refine C18_process rfl (fun n hn => ?_) (by decide) rfl
  show lastValue linkerVars n = _
  rw [linkerVars, lastValue_cons_ne]
  intro e
  cases e
  rw [← envRelevant_iff] at hn
  exact absurd hn (by decide)

example (fs : Fs) (toml : Str → Res Toml) (cwd : Path) :
    EConfig.loadWithOptions { vars := linkerVars } fs (fun s => toml s >>= Config.de) cwd { env := some [], cargoHome := some none } =
      EConfig.loadWithOptions {} fs (fun s => toml s >>= Config.de) cwd { env := some [], cargoHome := some none } :=
  C18_given rfl rfl

end CC
