import Verif.Lemmas.EasyPortable
import Verif.Props.Queries
/-
Writing a resolved config and loading what was written.
-/
namespace CC

variable {p : ProcEnv} {fs : Fs} {toml : Str → Res Toml} {cwd : Path} {o : Options} {c : EConfig} {s : Cells}
  {look : Str → Option OsStr} {home : Option Path} {docs : List (Path × Toml)} {w : World} {t : TargetTriple}

/-! ### The targets resolved so far -/

/-- What is known of the resolved targets. -/
structure TargetsKnown (c : EConfig) (s : Cells) : Prop where
  sorted : s.target.Sorted
  portable : ∀ k e, s.target.get k = some e → e.Portable c.build
  keys : ∀ k e, s.target.get k = some e → isCfgKey k = false

theorem known_after {s0 : Cells} (h : Loads p fs toml cwd o look home docs c s0) (hc : Absolute cwd)
    (hh : ∀ h, home = some h → Absolute h ∧ Path.components h ≠ [.root]) (w : World) (qs : List Query)
    (hq : ∀ q ∈ qs, ∀ t p, q.targetOf = some t → t.specPath = some p → isCfgKey p = false) (s : Cells) (hs : TargetsKnown c s) :
    TargetsKnown c (afterAll c w qs s) := by
  induction qs generalizing s with
  | nil => exact hs
  | cons q qs ih =>
    refine ih (fun x hx => hq x (List.mem_cons_of_mem _ hx)) (c.ask q w s).2 ?_
    have hp := hq q List.mem_cons_self
    cases ht : q.targetOf with
    | none =>
      have := (ask_other_tables (c := c) ht w s).2
      exact ⟨by rw [this]; exact hs.sorted, by rw [this]; exact hs.portable, by rw [this]; exact hs.keys⟩
    | some t =>
      rw [ask_target ht, map_snd]
      obtain ⟨s1, h1, h2⟩ := target_cells c t w s
      have hst : s1.target = s.target := by
        rcases h1 with rfl | ⟨-, -, rfl⟩
        · rfl
        · exact (cfgOf_target w s).1
      rcases h2 with ⟨h2, -⟩ | ⟨e', h3, h4, h2⟩
      · rw [h2]
        exact ⟨by rw [hst]; exact hs.sorted, by rw [hst]; exact hs.portable, by rw [hst]; exact hs.keys⟩
      · have hres : c.target t w s = (.ok e', (c.target t w s).2) := by rw [← h4]
        have hport := loads_target_portable h hc hh h3 hres
        have hkey : isCfgKey t.cliTarget = false := by
          cases hsp : t.specPath with
          | none =>
            unfold TargetTriple.cliTarget
            rw [hsp]
            exact (target_ok h3 hres).1
          | some p =>
            unfold TargetTriple.cliTarget
            rw [hsp]
            exact hp t p ht hsp
        rw [h2]
        refine ⟨?_, ?_, ?_⟩
        · dsimp only
          rw [hst]
          exact hs.sorted.insert _ _
        · intro k e hk
          dsimp only at hk
          rw [BMap.get_insert, hst] at hk
          split at hk
          · cases hk; exact hport
          · exact hs.portable k e hk
        · intro k e hk
          dsimp only at hk
          rw [BMap.get_insert, hst] at hk
          split at hk
          · rename_i hkk
            rw [← hkk]; exact hkey
          · exact hs.keys k e hk

/-! ### No variables -/

theorem applyEnv_nil (c : Config) : c.applyEnv [] =
    .ok { c with build := { c.build with overrideTargetRustflags := false, overrideTargetRustdocflags := false } } := by
  obtain ⟨al, bu, ⟨br⟩, en, fi, cn, ht, ne, rs, re, ta, te⟩ := c
  cases br <;> rfl

/-! ### Resolving what was written -/

theorem prog_again {y f : Path} (h : PortProg y) (cwd : Path) : ((unlocated y).setPath f).resolveAsProgramPath cwd = .ok y := by
  unfold Val.resolveAsProgramPath unlocated Val.setPath
  dsimp only
  rw [if_neg]
  simp only [Bool.and_eq_true, Bool.not_eq_true', Bool.or_eq_true, not_and, List.contains_iff_mem]
  intro h1 h2
  rcases h with h | ⟨h3, h4⟩
  · obtain ⟨r, rfl⟩ := h
    rw [isAbsolute_true.2 ⟨r, rfl⟩] at h1
    cases h1
  · rcases h2 with h2 | h2
    · exact h3 h2
    · exact h4 h2

theorem dir_again {y f : Path} (h : Absolute y) (cwd : Path) : ((unlocated y).setPath f).resolveAsPath cwd = .ok y := by
  unfold Val.resolveAsPath unlocated Val.setPath
  dsimp only
  rw [isAbsolute_true.2 h]
  rfl

theorem command_again {y : EPathAndArgs} {f : Path} (h : PortProg y.path) (cwd : Path) :
    EPathAndArgs.fromUnresolved cwd (y.toDe.setPath f) = .ok y := by
  unfold EPathAndArgs.fromUnresolved EPathAndArgs.toDe PathAndArgs.setPath setPathList
  dsimp only
  rw [prog_again h]
  show Res.ok (EPathAndArgs.mk y.path _) = _
  rw [List.map_map, List.map_map, list_same (g := (Val.val ∘ Val.setPath f) ∘ unlocated) fun _ => rfl]

theorem mapOpt_again {α β γ : Type} {g : α → β} {g' : β → γ} {r : γ → Res α} {o : Option α} (h : ∀ a, o = some a → r (g' (g a)) = .ok a) :
    Res.mapOpt r ((o.map g).map g') = .ok o := by
  cases o with
  | none => rfl
  | some a =>
    show (r (g' (g a)) >>= fun b => Res.ok (some b)) = _
    rw [h a rfl]
    rfl

theorem flags_again (f : Path) (x : EFlags) : EFlags.fromUnresolved (x.toDe.setPath f) = x := by
  unfold EFlags.fromUnresolved EFlags.toDe Flags.setPath setPathList
  dsimp only
  rw [List.map_map, List.map_map, list_same (g := (Val.val ∘ Val.setPath f) ∘ unlocated) fun _ => rfl]

theorem strings_again (f : Path) (x : EStringList) : EStringList.fromUnresolved (x.toDe.setPath f) = x := by
  unfold EStringList.fromUnresolved EStringList.toDe StringList.setPath setPathList
  dsimp only
  rw [List.map_map, List.map_map, list_same (g := (Val.val ∘ Val.setPath f) ∘ unlocated) fun _ => rfl]

theorem target_again {t : TargetTriple} (h : PortTarget t) {f r : Path} (hf : grandparent f = some r) (cwd : Path) :
    TargetTriple.new ((unlocated t.cliTarget).setPath f).val ((unlocated t.cliTarget).setPath f).defn (some cwd) = .ok t := by
  obtain ⟨h1, h2⟩ := h
  have h3 := ofStr_cliTarget h1
  show TargetTriple.new t.cliTarget (some (.path f)) (some cwd) = .ok t
  unfold TargetTriple.ofStr at h3
  unfold TargetTriple.new at h3 ⊢
  split
  · rename_i hs
    rw [if_pos hs] at h3
    rw [Res.bind_eq_ok] at h3
    obtain ⟨stem, h4, h5⟩ := h3
    rw [h4]
    have h5 : TargetTriple.mk stem (some t.cliTarget) = t := Res.ok.inj h5
    have h6 : Absolute t.cliTarget := h2 _ (by rw [← h5]; rfl)
    have h7 : Path.join r t.cliTarget = t.cliTarget := by
      unfold Path.join
      rw [isAbsolute_true.2 h6]
      rfl
    have h8 : resolveSpecPath t.cliTarget (some (.path f)) (some cwd) = some (some t.cliTarget) := by
      unfold resolveSpecPath Definition.rootOpt
      dsimp only
      rw [hf]
      show some (some (Path.join r t.cliTarget)) = _
      rw [h7]
    rw [h8]
    exact congrArg Res.ok h5
  · rename_i hs
    rw [if_neg hs] at h3
    exact h3

theorem envValue_again {e : EEnvValue} (h : e.relative = false) (f cwd : Path) :
    EEnvValue.fromUnresolved cwd (e.toDe.setPath f) = .ok e := by
  obtain ⟨v, fo, r⟩ := e
  cases h
  cases fo <;> rfl

theorem mapList_again {α β : Type} {r : β → Res α} {g : α → β} {l : List α} (h : ∀ a ∈ l, r (g a) = .ok a) :
    Res.mapList r (l.map g) = .ok l := by
  induction l with
  | nil => rfl
  | cons a l ih =>
    simp only [List.map_cons, Res.mapList]
    rw [h a List.mem_cons_self, ih fun x hx => h x (List.mem_cons_of_mem _ hx)]
    rfl

theorem mapVals_again {V W : Type} {r : W → Res V} {g : V → W} {m : BMap V} (h : ∀ k v, (k, v) ∈ m → r (g v) = .ok v) :
    Res.mapVals r (m.mapVals g) = .ok m := by
  induction m with
  | nil => rfl
  | cons e m ih =>
    obtain ⟨k, v⟩ := e
    simp only [BMap.mapVals, List.map_cons, Res.mapVals] at ih ⊢
    rw [h k v List.mem_cons_self, ih fun k v hx => h k v (List.mem_cons_of_mem _ hx)]
    rfl

/-- The config loaded from what the config was written as. -/
def EConfig.reloaded (c : EConfig) (ts : BMap ETarget) (f : Path) (cx : Ctx) : EConfig :=
  { c with
    build := { c.build with
      overrideTargetRustflags := false
      deRustflags := c.build.rustflags.map fun x => x.toDe.setPath f
      overrideTargetRustdocflags := false
      deRustdocflags := c.build.rustdocflags.map fun x => x.toDe.setPath f }
    deTarget := ts.mapVals fun e => e.toDe.setPath f
    cx := cx }

theorem build_again {b : EBuild} {f r cwd : Path} (hf : grandparent f = some r)
    (h1 : ∀ y, b.rustc = some y → PortProg y) (h2 : ∀ y, b.rustcWrapper = some y → PortProg y)
    (h3 : ∀ y, b.rustcWorkspaceWrapper = some y → PortProg y) (h4 : ∀ y, b.rustdoc = some y → PortProg y)
    (h5 : ∀ y, b.targetDir = some y → Absolute y) (h6 : ∀ y, b.depInfoBasedir = some y → Absolute y)
    (h7 : ∀ l, b.target = some l → ∀ t ∈ l, PortTarget t) :
    EBuild.fromUnresolved cwd (b.toDe.setPath f) = .ok { b with
      overrideTargetRustflags := false
      deRustflags := b.rustflags.map fun x => x.toDe.setPath f
      overrideTargetRustdocflags := false
      deRustdocflags := b.rustdocflags.map fun x => x.toDe.setPath f } := by
  unfold EBuild.fromUnresolved EBuild.toDe BuildConfig.setPath
  dsimp only
  rw [mapOpt_again fun y hy => prog_again (h1 y hy) cwd, mapOpt_again fun y hy => prog_again (h2 y hy) cwd,
    mapOpt_again fun y hy => prog_again (h3 y hy) cwd, mapOpt_again fun y hy => prog_again (h4 y hy) cwd,
    mapOpt_again fun y hy => dir_again (h5 y hy) cwd, mapOpt_again fun y hy => dir_again (h6 y hy) cwd,
    mapOpt_again (o := b.target)]
  · show Res.ok _ = Res.ok _
    congr 1
    have e1 : ∀ o : Option EFlags, ((o.map EFlags.toDe).map (Flags.setPath f)).map EFlags.fromUnresolved = o := by
      intro o
      cases o with
      | none => rfl
      | some x => exact congrArg some (flags_again f x)
    have e2 : ∀ o : Option EFlags, (o.map EFlags.toDe).map (Flags.setPath f) = o.map fun x => x.toDe.setPath f :=
      fun o => Option.map_map _ _ _
    have e3 : ∀ {α : Type} (o : Option α), ((o.map unlocated).map (Val.setPath f)).map Val.val = o := by
      intro α o
      cases o <;> rfl
    simp only [e1, e3]
    simp only [e2]
  · intro l hl
    show Res.mapList _ (setPathList f (l.map fun t => unlocated t.cliTarget)) = _
    unfold setPathList
    rw [List.map_map]
    exact mapList_again fun t ht => target_again (h7 l hl t ht) hf cwd

theorem reload_resolved {c : EConfig} (h : c.Portable) {f r : Path} (hf : grandparent f = some r) (ts : BMap ETarget) {cx : Ctx}
    (hx : cx.env = []) : EConfig.fromUnresolved ((c.toDe ts).setPath f) cx = .ok (c.reloaded ts f cx) := by
  have hb : ∀ b : BuildConfig, b.overrideTargetRustflags = false → b.overrideTargetRustdocflags = false →
      { b with overrideTargetRustflags := false, overrideTargetRustdocflags := false } = b := by
    rintro b h1 h2
    cases b
    cases h1
    cases h2
    rfl
  unfold EConfig.fromUnresolved
  rw [hx, applyEnv_nil, hb _ rfl rfl]
  show (EBuild.fromUnresolved cx.currentDir (c.build.toDe.setPath f) >>= _) = _
  rw [build_again hf (fun y hy => h.programs .buildRustc y (congrArg some hy))
    (fun y hy => h.programs .buildRustcWrapper y (congrArg some hy))
    (fun y hy => h.programs .buildRustcWorkspaceWrapper y (congrArg some hy))
    (fun y hy => h.programs .buildRustdoc y (congrArg some hy))
    (fun y hy => h.directories .buildTargetDir y (congrArg some hy))
    (fun y hy => h.directories .buildDepInfoBasedir y (congrArg some hy)) h.targets]
  show (EDoc.fromUnresolved cx.currentDir _ >>= _) = _
  unfold EDoc.fromUnresolved
  have hd : ((c.toDe ts).setPath f).doc.browser = (c.doc.browser.map EPathAndArgs.toDe).map (PathAndArgs.setPath f) := rfl
  rw [hd, mapOpt_again fun y hy => command_again (h.browser y hy) cx.currentDir]
  show (Res.mapVals _ ((c.env.mapVals EEnvValue.toDe).mapVals (EnvConfigValue.setPath f)) >>= _) = _
  rw [mapVals_comp (k := fun e : EEnvValue => e.toDe.setPath f) (fun _ => rfl),
    mapVals_again fun k v hv => envValue_again (h.env k v (BMap.get_of_mem h.ranges.env hv)) f cx.currentDir]
  show Res.ok _ = Res.ok _
  congr 1
  have e3 : ∀ {α : Type} (o : Option α), ((o.map unlocated).map (Val.setPath f)).map Val.val = o := by
    intro α o
    cases o <;> rfl
  unfold EConfig.toDe Config.setPath EConfig.reloaded
  dsimp only
  congr 1
  · rw [mapVals_comp (k := fun e : EStringList => e.toDe.setPath f) (fun _ => rfl),
      mapVals_comp (k := fun e : EStringList => e) (strings_again f), mapVals_same fun _ => rfl]
  · rw [e3]
  · rw [e3]
  · unfold EHttp.fromUnresolved EHttp.toDe HttpConfig.setPath
    simp only [e3]
  · unfold ENet.fromUnresolved ENet.toDe NetConfig.setPath
    simp only [e3]
  · rw [mapVals_comp (k := fun e : ERegistries => e.toDe.setPath f) (fun _ => rfl),
      mapVals_comp (k := fun e : ERegistries => e), mapVals_same fun _ => rfl]
    intro a
    unfold ERegistries.fromUnresolved ERegistries.toDe RegistriesConfigValue.setPath
    simp only [e3]
  · unfold ERegistry.fromUnresolved ERegistry.toDe RegistryConfig.setPath
    simp only [e3]
  · exact mapVals_comp (fun _ => rfl) _
  · unfold ETerm.fromUnresolved ETerm.toDe TermConfig.setPath ETermProgress.toDe
    simp only [e3]

/-! ### Loading what was written -/

/-- The settings of a plain triple in the reloaded config. -/
theorem reload_target {c : EConfig} {ts : BMap ETarget} {f : Path} {cx : Ctx} {e : ETarget} {triple : Str}
    (he : BMap.get ts triple = some e) (hp : e.Portable c.build) (hk : ∀ k e, BMap.get ts k = some e → isCfgKey k = false)
    (hts : ts.Sorted) (hx : cx.env = []) {s : Cells} (hs : s.target.get triple = none) :
    ((c.reloaded ts f cx).target ⟨triple, none⟩ w s).1 = .ok e := by
  rw [target_fresh hs]
  have hget : BMap.get (c.reloaded ts f cx).deTarget triple = some (e.toDe.setPath f) := by
    show BMap.get (ts.mapVals fun e => e.toDe.setPath f) triple = _
    rw [BMap.get_mapVals, he]
    rfl
  have hnone : firstCfgKey (c.reloaded ts f cx).deTarget = none := by
    cases hf : firstCfgKey (c.reloaded ts f cx).deTarget with
    | none => rfl
    | some k =>
      obtain ⟨h1, v, h2⟩ := firstCfgKey_some hf
      obtain ⟨⟨k', e'⟩, h3, h4⟩ := List.mem_map.1 (show (k, v) ∈ ts.map _ from h2)
      cases h4
      rw [hk _ _ (BMap.get_of_mem hts h3)] at h1
      cases h1
  have hflags : ∀ a b : Option EFlags, (a = none → b = none) →
      chooseFlags false ((a.map EFlags.toDe).map (Flags.setPath f)) (b.map fun x => x.toDe.setPath f) =
        (a.map EFlags.toDe).map (Flags.setPath f) := by
    intro a b h
    cases a with
    | none => rw [h rfl]; rfl
    | some a => rfl
  have hres : resolveTarget (c.reloaded ts f cx).cx (c.reloaded ts f cx).deTarget (c.reloaded ts f cx).build.overrideTargetRustflags
      (c.reloaded ts f cx).build.deRustflags (c.reloaded ts f cx).build.overrideTargetRustdocflags
      (c.reloaded ts f cx).build.deRustdocflags ⟨triple, none⟩ (c.reloaded ts f cx).build w s = (.ok (some (e.toDe.setPath f)), s) := by
    unfold resolveTarget
    rw [if_neg (by rw [startsWith_cfg, hk triple e he]; simp)]
    dsimp only
    rw [hget]
    have hcx : (c.reloaded ts f cx).cx.env = [] := hx
    rw [hcx]
    show Act.bind (cfgTables _ _ _ _ _) _ w s = _
    unfold Act.bind
    rw [cfgTables_eq, hnone]
    show (Res.ok _, s) = _
    congr 3
    unfold ETarget.toDe TargetConfig.setPath TargetAcc.start
    dsimp only [Option.bind_some]
    unfold EConfig.reloaded
    dsimp only
    unfold TargetAcc.finish envFlags envLinker
    dsimp only
    rw [hflags _ _ hp.rustflags, hflags _ _ hp.rustdocflags]
  rw [hres]
  have hfrom : ETarget.fromUnresolved (c.reloaded ts f cx).cx.currentDir ((some (e.toDe.setPath f)).getD {}) = .ok e := by
    unfold ETarget.toDe TargetConfig.setPath ETarget.fromUnresolved
    dsimp only [Option.getD_some]
    rw [mapOpt_again fun y hy => prog_again (hp.linker y hy) _, mapOpt_again fun y hy => command_again (hp.runner y hy) _]
    have e1 : ∀ o : Option EFlags, ((o.map EFlags.toDe).map (Flags.setPath f)).map EFlags.fromUnresolved = o := by
      intro o
      cases o with
      | none => rfl
      | some x => exact congrArg some (flags_again f x)
    show Res.ok _ = Res.ok _
    rw [e1, e1]
  dsimp only
  rw [hfrom]

theorem env_nil {env : Env} (h : ∀ n, Env.get env n = none) : env = [] := by
  cases env with
  | nil => rfl
  | cons e env =>
    have := h e.1
    simp [Env.get] at this

variable {p' : ProcEnv} {fs' : Fs} {toml' : Str → Res Toml} {cwd' : Path} {o' : Options} {home' : Option Path}
  {look' : Str → Option OsStr} {f : Path}

/-- Loading the only config file, which is what a config was written as. -/
theorem reload_ok {c : EConfig} (h : c.Portable) (hs : s.target.Sorted) (hd : DocumentsOf fs' toml' cwd' home' [(f, c.ser s)])
    (hh : HomeOf p' o' cwd' home') (hr : ∀ h, home' = some h → Path.components h ≠ [] ∧ Path.components h ≠ [.root])
    (he : EnvOf p' o' look') (hn : ∀ n, look' n = none) :
    ∃ cx s', cx.env = [] ∧ EConfig.loadWithOptions p' fs' (fun s => toml' s >>= Config.de) cwd' o' =
      .ok (c.reloaded s.target f cx, s') := by
  obtain ⟨dirs, hd1, hd2, hd3⟩ := hd
  have hw : walk fs'.ex cwd' home' = [f] := by
    obtain ⟨dirs', h1, h2⟩ := C01_walk fs'.ex cwd' home'
    exact C01_spec_functional _ _ _ _ _ _ _ h1 hd1 h2 hd2
  have hg : ∃ r, grandparent f = some r := walk_grandparent (by rw [hw]; simp) (fun h hm hp => by
    rcases parent_none_iff.1 hp with hp | hp
    · exact (hr h hm).1 hp
    · exact (hr h hm).2 hp)
  obtain ⟨r, hg⟩ := hg
  rw [load_home hh, C04_option]
  have henv : (((o'.withCargoHome home').intoContext p' cwd').1).env = [] := by
    rw [intoContext_home]
    exact env_nil fun n => by rw [env_unique he rfl]; exact hn n
  have hl : loadConfig fs' (fun s => toml' s >>= Config.de) cwd' home' = .ok ((c.toDe s.target).setPath f) := by
    unfold loadConfig
    rw [hw, loadPaths_ok]
    obtain ⟨text, h1, h2⟩ := hd3 f _ List.mem_cons_self
    refine ⟨[(f, c.toDe s.target)], filesRead_cons.2 ⟨c.toDe s.target, [], rfl, ⟨text, h1, ?_⟩, ?_⟩, rfl⟩
    · show (toml' text >>= Config.de) = _
      rw [h2, Res.ok_bind]
      exact EConfig.de_ser h.ranges hs
    · exact ⟨rfl, fun p raw hm => by cases hm⟩
  rw [hl]
  refine ⟨_, ((o'.withCargoHome home').intoContext p' cwd').2, henv, ?_⟩
  show (EConfig.fromUnresolved _ _ >>= _) = _
  rw [reload_resolved h hg _ henv]
  rfl

end CC
