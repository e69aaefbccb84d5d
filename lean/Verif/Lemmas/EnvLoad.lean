import Verif.Spec.EnvLoad
import Verif.Lemmas.EndToEnd
import Verif.Lemmas.Tokens
import Verif.Props.Env
import Verif.Props.Small
/-
Helper lemmas: what loading and the queries depend on, as far as environment variables are concerned.
-/
namespace CC

theorem targetVar_influential (t : Str) {key : String} (h : key ∈ ["LINKER", "RUNNER", "RUSTFLAGS", "RUSTDOCFLAGS"]) :
    InfluentialVariable (targetVar t key.toList) := by
  have e : targetVar t key.toList = "CARGO_TARGET_".toList ++ targetUUpper t ++ "_".toList ++ key.toList := by
    unfold targetVar; rw [List.append_assoc ("CARGO_TARGET_".toList ++ targetUUpper t)]; rfl
  rw [e]
  exact .target (C32_env_name t) h

theorem targetEnv_congr {env env' : Env} (h : ∀ n, InfluentialVariable n → env.get n = env'.get n) (t : Str) (a : TargetAcc) :
    a.applyEnv env t = a.applyEnv env' t := by
  have v : ∀ key : String, key ∈ ["LINKER", "RUNNER", "RUSTFLAGS", "RUSTDOCFLAGS"] →
      env.var (targetVar t key.toList) = env'.var (targetVar t key.toList) := fun key hk => var_congr (h _ (targetVar_influential t hk))
  unfold TargetAcc.applyEnv
  rw [v "LINKER" (by decide), v "RUNNER" (by decide), v "RUSTFLAGS" (by decide), v "RUSTDOCFLAGS" (by decide)]

theorem resolveTarget_env {cx cx' : Ctx} (h : ∀ n, InfluentialVariable n → cx.env.get n = cx'.env.get n)
    (hc : { cx with env := [] } = { cx' with env := [] })
    (ts : BMap TargetConfig) (o1 : Bool) (f1 : Option Flags) (o2 : Bool) (f2 : Option Flags) (t : TargetTriple) (b : EBuild) :
    resolveTarget cx ts o1 f1 o2 f2 t b = resolveTarget cx' ts o1 f1 o2 f2 t b := by
  unfold resolveTarget
  have : ∀ a, cfgTables cx b t ts a = cfgTables cx' b t ts a := by
    intro a
    rw [← cfgTables_env cx [] b, ← cfgTables_env cx' [] b, hc]
  simp only [targetEnv_congr h, this]

theorem ask_congr {c c' : EConfig} (he : ∀ n, InfluentialVariable n → c.cx.env.get n = c'.cx.env.get n)
    (ht : { c with cx := { c.cx with env := [] } } = { c' with cx := { c'.cx with env := [] } }) (q : Query) : c.ask q = c'.ask q := by
  obtain ⟨h1, h2, h3, h4, h5, h6, h7, h8, h9, h10, h11, h12, h13⟩ := EConfig.mk.inj ht
  dsimp only at h2 h11 h13
  have hi : ∀ t, c.initTarget t = c'.initTarget t := by
    intro t
    have hcwd : c.cx.currentDir = c'.cx.currentDir := (Ctx.mk.inj h13).2.2
    unfold EConfig.initTarget
    rw [h2, h11, hcwd]
    simp only [resolveTarget_env he h13]
  have hh : c.hostTriple = c'.hostTriple := by
    show queryHostTriple { c.cx with env := [] } c.build = queryHostTriple { c'.cx with env := [] } c'.build
    rw [h2, h13]
  cases q <;> unfold EConfig.ask
  all_goals simp only [EConfig.target, EConfig.linker, EConfig.runner, EConfig.rustflags, EConfig.rustdocflags,
    EConfig.targetEntry, EConfig.buildTargetForConfig, EConfig.buildTargetForCli, hi, h2, hh]
  · congr 1
    show queryRustc { c.cx with env := [] } c.build = queryRustc { c'.cx with env := [] } c'.build
    rw [h2, h13]
  · congr 1
    show queryRustcVersion { c.cx with env := [] } c.build = queryRustcVersion { c'.cx with env := [] } c'.build
    rw [h2, h13]
  · congr 1
    show queryCargoVersion { c.cx with env := [] } c.build = queryCargoVersion { c'.cx with env := [] } c'.build
    rw [h2, h13]

/-- Outcomes with the same config in equal states, or both errors, or both panics. -/
theorem fromUnresolved_congr {de : Config} {cx cx' : Ctx} (hd : DistinctKeys cx.env) (hd' : DistinctKeys cx'.env) (hw : de.WF)
    (h : ∀ n, InfluentialVariable n → cx.env.get n = cx'.env.get n) (hc : { cx with env := [] } = { cx' with env := [] }) (s : Cells) :
    LoadsAlike (EConfig.fromUnresolved de cx >>= fun c => .ok (c, s)) (EConfig.fromUnresolved de cx' >>= fun c => .ok (c, s)) := by
  have ha := applyEnv_congr hd hd' hw.alias hw.registries h
  obtain ⟨env, cargo, cwd⟩ := cx
  obtain ⟨env', cargo', cwd'⟩ := cx'
  obtain ⟨_, h2, h3⟩ := Ctx.mk.inj hc
  dsimp only at h h2 h3 ha
  subst h2 h3
  unfold EConfig.fromUnresolved
  dsimp only
  cases h1 : de.applyEnv env with
  | panic => exact absurd h1 (applyEnv_ne_panic _ _)
  | err e =>
    cases h2 : de.applyEnv env' with
    | panic => exact absurd h2 (applyEnv_ne_panic _ _)
    | err e' => exact trivial
    | ok b => rw [h1, h2] at ha; exact ha.elim
  | ok a =>
    cases h2 : de.applyEnv env' with
    | panic => exact absurd h2 (applyEnv_ne_panic _ _)
    | err e' => rw [h1, h2] at ha; exact ha.elim
    | ok b =>
      rw [h1, h2] at ha
      cases (show a = b from ha)
      simp only [Res.ok_bind]
      cases hb : EBuild.fromUnresolved cwd a.build with
      | panic => exact trivial
      | err e => exact trivial
      | ok x =>
        cases hdoc : EDoc.fromUnresolved cwd a.doc with
        | panic => exact trivial
        | err e => exact trivial
        | ok y =>
          cases henv : Res.mapVals (EEnvValue.fromUnresolved cwd) a.env with
          | panic => exact trivial
          | err e => exact trivial
          | ok z =>
            refine ⟨⟨rfl, fun q w s => ?_⟩, rfl⟩
            rw [ask_congr _ _ q]
            · exact h
            · rfl

theorem load_congr {p p' : ProcEnv} {fs : Fs} {toml : Str → Res Toml} {cwd : Path} {o o' : Options}
    (hd : DistinctKeys (o.intoContext p cwd).1.env) (hd' : DistinctKeys (o'.intoContext p' cwd).1.env)
    (h : ∀ n, InfluentialVariable n → (o.intoContext p cwd).1.env.get n = (o'.intoContext p' cwd).1.env.get n)
    (hc : { (o.intoContext p cwd).1 with env := [] } = { (o'.intoContext p' cwd).1 with env := [] })
    (hs : (o.intoContext p cwd).2 = (o'.intoContext p' cwd).2)
    (hh : p.cargoHomeWithCwd cwd = p'.cargoHomeWithCwd cwd) :
    LoadsAlike (EConfig.loadWithOptions p fs (fun s => toml s >>= Config.de) cwd o)
      (EConfig.loadWithOptions p' fs (fun s => toml s >>= Config.de) cwd o') := by
  unfold EConfig.loadWithOptions
  have e : (o'.intoContext p' cwd).2.cargoHomeOf p' cwd = (o.intoContext p cwd).2.cargoHomeOf p cwd := by
    rw [← hs]
    unfold Cells.cargoHomeOf
    rw [hh]
  have ecwd : (o'.intoContext p' cwd).1.currentDir = (o.intoContext p cwd).1.currentDir := (Ctx.mk.inj hc).2.2.symm
  dsimp only
  rw [e, ecwd]
  cases hl : loadConfig fs (fun s => toml s >>= Config.de) (o.intoContext p cwd).1.currentDir
      ((o.intoContext p cwd).2.cargoHomeOf p cwd).1 with
  | panic => exact trivial
  | err e => exact trivial
  | ok de =>
    exact fromUnresolved_congr hd hd' (load_wf (fun s c => toml_wf s c) hl) h hc _

end CC
