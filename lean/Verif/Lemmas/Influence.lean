import Verif.Props.EnvLoad
import Verif.Props.TargetNames
/-
Helper lemmas for C80: every variable listed makes a difference.
-/
namespace CC

/-- A file system without config files. -/
def bareFs : Fs := ⟨fun _ => false, fun _ => .err (.io [])⟩

/-- Loading in `/` without config files, with these variables. -/
def bareLoad (vars : List (OsStr × OsStr)) : Res (EConfig × Cells) :=
  EConfig.loadWithOptions {} bareFs (fun s => (fun _ => Res.err (.toml [])) s >>= Config.de) "/".toList (({} : Options).withEnv vars)

/-- The config loaded in this way without variables. -/
def bareConfig : EConfig := { cx := ⟨[], .unicode "cargo".toList, "/".toList⟩ }

theorem bareLoad_eq (vars : List (OsStr × OsStr)) : bareLoad vars =
    (EConfig.fromUnresolved {} ⟨optEnv vars, ((optEnv vars).get "CARGO".toList).getD (.unicode "cargo".toList), "/".toList⟩ >>= fun c =>
      .ok (c, { cargoHome := some none })) := by
  rfl

theorem bareLoad_none : bareLoad [] = .ok (bareConfig, { cargoHome := some none }) := by
  rfl

theorem optEnv_single {n : Str} (h : CargoVariable n) (v : OsStr) : optEnv [(.unicode n, v)] = [(n, v)] := by
  unfold optEnv optEnvLoop
  simp only [OsStr.toStr?]
  rw [if_pos ((envRelevant_iff n).2 h)]
  rfl

/-- One variable without a fixed name has no effect on the sections. -/
theorem applyEnv_single {n : Str} (hn : ∀ m ∈ plainVariables, m.toList ≠ n) (v : OsStr) {al : BMap StringList} {rg : BMap RegistriesConfigValue}
    (h : Config.applyVar {} n v = .ok { alias := al, registries := rg }) :
    Config.applyEnv [(n, v)] {} = .ok { alias := al, registries := rg } := by
  have hp : SamePlain [(n, v)] [] := fun m hm => by
    show (if n = m.toList then some v else none) = none
    rw [if_neg fun e => hn m hm e.symm]
  unfold Config.applyEnv Config.applyVars
  rw [h]
  simp only [Config.applyVars, Res.ok_bind]
  obtain ⟨e1, e2, e3, e4, e5, e6, e7⟩ := sections_congr hp {}
  dsimp only at e1 e2 e3 e4 e5 e6 e7
  rw [e1, e2, e3, e4, e5, e6, e7]
  rfl

/-- Values for the variables with fixed names. -/
def sampleValues : List (String × String) :=
  plainVariables.map fun n => (n,
    if n ∈ ["CARGO_BUILD_JOBS", "CARGO_HTTP_TIMEOUT", "CARGO_HTTP_LOW_SPEED_LIMIT", "CARGO_NET_RETRY", "CARGO_TERM_PROGRESS_WIDTH"] then "1"
    else if n ∈ ["CARGO_BUILD_INCREMENTAL", "CARGO_HTTP_DEBUG", "CARGO_HTTP_CHECK_REVOKE", "CARGO_HTTP_MULTIPLEXING",
      "CARGO_NET_GIT_FETCH_WITH_CLI", "CARGO_NET_OFFLINE", "CARGO_TERM_QUIET", "CARGO_TERM_VERBOSE"] then "true"
    else if n ∈ ["CARGO_FUTURE_INCOMPAT_REPORT_FREQUENCY", "CARGO_TERM_COLOR", "CARGO_TERM_PROGRESS_WHEN"] then "always"
    else if n = "CARGO_REGISTRIES_CRATES_IO_PROTOCOL" then "sparse" else "x")

/-- The fields, without the environment kept. -/
def EConfig.shown (c : EConfig) : EConfig := { c with cx := { c.cx with env := [] } }

/-- With each of them alone, loading succeeds and differs in a field. -/
theorem plain_differs : ∀ e ∈ sampleValues,
    ((bareLoad [(.unicode e.1.toList, .unicode e.2.toList)]).toOption.map fun r => decide (r.1.shown = bareConfig.shown)) = some false := by
  decide +kernel

/-- A config that differs from the one loaded without variables shows that a variable makes a difference. -/
theorem MakesADifference.of {n : Str} {v : OsStr} {c : EConfig} {s : Cells} (h : bareLoad [(.unicode n, v)] = .ok (c, s))
    (hc : ¬ Indistinguishable c bareConfig) : MakesADifference n := by
  refine ⟨{}, bareFs, fun _ => .err (.toml []), "/".toList, {}, [(.unicode n, v)], [], c, bareConfig, s, _, fun m hm => ?_, h,
    bareLoad_none, hc⟩
  rw [lastValue_cons_ne]
  intro e; cases e; exact hm rfl

theorem plain_matters {n : String} (h : n ∈ plainVariables) : MakesADifference n.toList := by
  obtain ⟨v, hv⟩ : ∃ v, (n, v) ∈ sampleValues := ⟨_, List.mem_map.2 ⟨n, h, rfl⟩⟩
  have := plain_differs _ hv
  cases hl : bareLoad [(.unicode n.toList, .unicode v.toList)] with
  | err _ => rw [hl] at this; cases this
  | panic => rw [hl] at this; cases this
  | ok r =>
    rw [hl] at this
    refine .of hl fun hi => ?_
    have h2 : decide (r.1.shown = bareConfig.shown) = false := Option.some.inj this
    exact of_decide_eq_false h2 hi.fields

theorem single_load {n : Str} (hr : InfluentialVariable n) (hn : ∀ m ∈ plainVariables, m.toList ≠ n) (v : OsStr) {al : BMap StringList}
    {rg : BMap RegistriesConfigValue} (h : Config.applyVar {} n v = .ok { alias := al, registries := rg }) :
    bareLoad [(.unicode n, v)] =
      (EConfig.fromUnresolved { alias := al, registries := rg } ⟨[], .unicode "cargo".toList, "/".toList⟩ >>= fun c =>
        .ok ({ c with cx := ⟨[(n, v)], .unicode "cargo".toList, "/".toList⟩ }, { cargoHome := some none })) := by
  rw [bareLoad_eq, optEnv_single hr.relevant]
  have hg : Env.get [(n, v)] "CARGO".toList = none := by
    show (if n = "CARGO".toList then some v else none) = none
    rw [if_neg fun e => hn "CARGO" (by decide +kernel) e.symm]
  rw [hg]
  unfold EConfig.fromUnresolved
  dsimp only
  rw [applyEnv_single hn v h]
  rfl

theorem applyVar_alias (k : Str) (v : Str) : Config.applyVar {} ("CARGO_ALIAS_".toList ++ k) (.unicode v) =
    .ok { alias := [(k, StringList.fromString v (some (.environment ("CARGO_ALIAS_".toList ++ k))))], registries := [] } := by
  unfold Config.applyVar
  rw [stripPrefix_eq_some.2 rfl]
  rfl

theorem applyVar_registry {n r : Str} (h : n = "CARGO_REGISTRIES_".toList ++ r) :
    stripPrefix "CARGO_ALIAS_".toList n = none ∧ stripPrefix "CARGO_REGISTRIES_".toList n = some r := by
  subst h
  exact ⟨rfl, stripPrefix_eq_some.2 rfl⟩

theorem applyVar_index (k : Str) (v : Str) : Config.applyVar {} ("CARGO_REGISTRIES_".toList ++ k ++ "_INDEX".toList) (.unicode v) =
    .ok { alias := [], registries := [(k, { index := some ⟨v, some (.environment ("CARGO_REGISTRIES_".toList ++ k ++ "_INDEX".toList))⟩ })] } := by
  generalize hn : "CARGO_REGISTRIES_".toList ++ k ++ "_INDEX".toList = n
  rw [List.append_assoc] at hn
  obtain ⟨h1, h2⟩ := applyVar_registry hn.symm
  unfold Config.applyVar
  rw [h1, h2]
  simp only
  rw [stripSuffix_eq_some.2 rfl]
  rfl

theorem applyVar_token (k : Str) (v : Str) : Config.applyVar {} ("CARGO_REGISTRIES_".toList ++ k ++ "_TOKEN".toList) (.unicode v) =
    .ok { alias := [], registries := [(k, { token := some ⟨v, some (.environment ("CARGO_REGISTRIES_".toList ++ k ++ "_TOKEN".toList))⟩ })] } := by
  generalize hn : "CARGO_REGISTRIES_".toList ++ k ++ "_TOKEN".toList = n
  rw [List.append_assoc] at hn
  obtain ⟨h1, h2⟩ := applyVar_registry hn.symm
  have h3 : stripSuffix "_INDEX".toList (k ++ "_TOKEN".toList) = none := by
    unfold stripSuffix
    rw [List.reverse_append]
    rfl
  unfold Config.applyVar
  rw [h1, h2]
  simp only
  rw [h3]
  simp only
  rw [stripSuffix_eq_some.2 rfl]
  rfl

theorem applyVar_target (r : Str) (v : OsStr) : Config.applyVar {} ("CARGO_TARGET_".toList ++ r) v =
    .ok { alias := [], registries := [] } := by
  rfl

theorem pattern_matters {n : Str} (h : (∀ m ∈ plainVariables, m.toList ≠ n) → MakesADifference n) :
    MakesADifference n := by
  by_cases hp : ∀ m ∈ plainVariables, m.toList ≠ n
  · exact h hp
  · obtain ⟨m, hm⟩ := Classical.not_forall.1 hp
    obtain ⟨hm, he⟩ := Classical.not_forall.1 hm
    rw [← Classical.not_not.1 he]
    exact plain_matters hm

theorem envNameOf_self {t u : Str} (h : EnvNameOf t u) : EnvNameOf u u ∧ ∀ c ∈ u, ¬ (97 ≤ c.toNat ∧ c.toNat ≤ 122) := by
  unfold EnvNameOf at h ⊢
  induction h with
  | nil => exact ⟨.nil, by simp⟩
  | @cons a b as bs hc _ ih =>
    have key : b ≠ '-' ∧ b ≠ '.' ∧ ¬ (97 ≤ b.toNat ∧ b.toNat ≤ 122) := by
      rcases hc with ⟨-, rfl⟩ | ⟨h1, h2, h3⟩ | ⟨h1, h2, h3, rfl⟩
      · decide
      · refine ⟨?_, ?_, by omega⟩ <;> rintro rfl <;> revert h1 h2 h3 <;> simp <;> omega
      · exact ⟨h1, h2, h3⟩
    refine ⟨.cons (Or.inr (Or.inr ⟨key.1, key.2.1, key.2.2, rfl⟩)) ih.1, ?_⟩
    intro c hc
    rcases List.mem_cons.1 hc with rfl | hc
    · exact key.2.2
    · exact ih.2 c hc

/-- Without variables and files, nothing is said about any target. -/
theorem bareTarget {u : Str} (hu : startsWith "cfg(".toList u = false) (w : World) :
    (bareConfig.target ⟨u, none⟩ w {}).1 = .ok {} := by
  unfold EConfig.target EConfig.targetEntry EConfig.initTarget resolveTarget
  rw [hu]
  show Res.unwrap (BMap.get [(u, ({} : ETarget))] u) = _
  simp [BMap.get, Res.unwrap]

theorem target_matters {t u : Str} {key : String} (h : EnvNameOf t u) (hk : key ∈ ["LINKER", "RUNNER", "RUSTFLAGS", "RUSTDOCFLAGS"])
    (hp : ∀ m ∈ plainVariables, m.toList ≠ varOf u key) : MakesADifference (varOf u key) := by
  obtain ⟨hu, hl⟩ := envNameOf_self h
  have hcfg : startsWith "cfg(".toList u = false := by
    cases hs : startsWith "cfg(".toList u with
    | false => rfl
    | true =>
      obtain ⟨r, hr⟩ := Option.isSome_iff_exists.1 hs
      rw [stripPrefix_eq_some] at hr
      exact absurd ⟨by decide, by decide⟩ (hl 'c' (by rw [hr]; exact List.mem_cons_self))
  have hr : InfluentialVariable (varOf u key) := .target h hk
  have hv : Config.applyVar {} (varOf u key) (.unicode "x".toList) = .ok { alias := [], registries := [] } := by
    unfold varOf
    rw [List.append_assoc, List.append_assoc]
    exact applyVar_target _ _
  have hload := single_load hr hp _ hv
  refine MakesADifference.of hload fun hi => ?_
  let w : World := ⟨false, fun _ _ => .notStarted [], fun _ _ => false⟩
  have hb := bareTarget hcfg w
  have hq := hi.queries (.target ⟨u, none⟩) w {}
  generalize hc : ({ bareConfig with cx := ⟨[(varOf u key, .unicode "x".toList)], .unicode "cargo".toList, "/".toList⟩ } : EConfig) = c
  have hq : c.ask (.target ⟨u, none⟩) w {} = bareConfig.ask (.target ⟨u, none⟩) w {} := by rw [← hc]; exact hq
  have ht : (c.target ⟨u, none⟩ w {}).1 = .ok {} := by
    have h1 := congrArg Prod.fst hq
    simp only [EConfig.ask, Act.map] at h1
    rcases hcm : c.target ⟨u, none⟩ w {} with ⟨r, s1⟩
    rcases hbm : bareConfig.target ⟨u, none⟩ w {} with ⟨r2, s2⟩
    rw [hcm, hbm] at h1
    rw [hbm] at hb
    cases (show r2 = .ok {} from hb)
    cases r with
    | err _ => cases h1
    | panic => cases h1
    | ok e =>
      have h2 : Answer.target e = Answer.target {} := Res.ok.inj h1
      rw [Answer.target.inj h2]
  have ht : c.target ⟨u, none⟩ w {} = (.ok {}, (c.target ⟨u, none⟩ w {}).2) := Prod.ext ht rfl
  have he : c.cx.env.get (varOf u key) = some (.unicode "x".toList) := by
    rw [← hc]
    show (if varOf u key = varOf u key then _ else _) = _
    rw [if_pos rfl]
  have hu' : EnvNameOf (TargetTriple.mk u none).triple u := hu
  have hnone : ({} : Cells).target.get (TargetTriple.mk u none).cliTarget = none := rfl
  have hfrom : EConfig.fromUnresolved {} ⟨[(varOf u key, .unicode "x".toList)], .unicode "cargo".toList, "/".toList⟩ = .ok c := by
    unfold EConfig.fromUnresolved
    dsimp only
    rw [applyEnv_single hp _ hv, ← hc]
    rfl
  have hd : DistinctKeys [(varOf u key, OsStr.unicode "x".toList)] := by
    simp [DistinctKeys]
  have hget : ∀ m ∈ plainVariables, Env.get [(varOf u key, OsStr.unicode "x".toList)] m.toList = none := fun m hm => by
    show (if varOf u key = m.toList then _ else none) = none
    rw [if_neg fun e => hp m hm e.symm]
  have hkey : Env.get [(varOf u key, OsStr.unicode "x".toList)] (varOf u key) = some (.unicode "x".toList) := by
    show (if varOf u key = varOf u key then _ else _) = _
    rw [if_pos rfl]
  have hflags := C32_flags (cx := ⟨[(varOf u key, .unicode "x".toList)], .unicode "cargo".toList, "/".toList⟩) hd hfrom hu' hnone ht
    "x".toList
  simp only [List.mem_cons, List.not_mem_nil, or_false] at hk
  rcases hk with rfl | rfl | rfl | rfl
  · obtain ⟨x, hx, -⟩ := C32_linker hu' hnone ht _ he
    cases hx
  · obtain ⟨x, args, y, -, hx, -⟩ := C32_runner hu' hnone ht _ he
    cases hx
  · obtain ⟨x, hx, -⟩ := hflags.1 (hget "CARGO_ENCODED_RUSTFLAGS" (by decide +kernel)) (hget "RUSTFLAGS" (by decide +kernel)) hkey
    cases hx
  · obtain ⟨x, hx, -⟩ := hflags.2 (hget "CARGO_ENCODED_RUSTDOCFLAGS" (by decide +kernel)) (hget "RUSTDOCFLAGS" (by decide +kernel)) hkey
    cases hx

/-- A necessary condition that can be computed. -/
def looksInfluential (x : Str) : Bool :=
  (plainVariables.any fun m => m.toList == x) || "CARGO_ALIAS_".toList.isPrefixOf x ||
  ("CARGO_REGISTRIES_".toList.isPrefixOf x && ("_INDEX".toList.isSuffixOf x || "_TOKEN".toList.isSuffixOf x)) ||
  ("CARGO_TARGET_".toList.isPrefixOf x &&
    ["LINKER", "RUNNER", "RUSTFLAGS", "RUSTDOCFLAGS"].any fun key => ('_' :: key.toList).isSuffixOf x)

theorem InfluentialVariable.looks {x : Str} (h : InfluentialVariable x) : looksInfluential x = true := by
  unfold looksInfluential
  simp only [Bool.or_eq_true, Bool.and_eq_true, List.any_eq_true, beq_iff_eq, List.isPrefixOf_iff_prefix, List.isSuffixOf_iff_suffix]
  cases h with
  | plain h => exact Or.inl (Or.inl (Or.inl ⟨_, h, rfl⟩))
  | alias k => exact Or.inl (Or.inl (Or.inr ⟨k, rfl⟩))
  | index k => exact Or.inl (Or.inr ⟨⟨k ++ "_INDEX".toList, (List.append_assoc _ _ _).symm⟩, Or.inl ⟨_, rfl⟩⟩)
  | token k => exact Or.inl (Or.inr ⟨⟨k ++ "_TOKEN".toList, (List.append_assoc _ _ _).symm⟩, Or.inr ⟨_, rfl⟩⟩)
  | @target t u key _ hk =>
    refine Or.inr ⟨⟨u ++ ("_".toList ++ key.toList), ?_⟩, key, hk, ⟨"CARGO_TARGET_".toList ++ u, ?_⟩⟩
    · rw [List.append_assoc, List.append_assoc]
    · rw [List.append_assoc _ "_".toList]; rfl

end CC
