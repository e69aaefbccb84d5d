import Verif.Lemmas.Settings
/-
Settings do not interfere with each other: C82.

Two loads are compared, which may differ in everything but what is said about the setting at hand: other settings of the same files,
further files that do not mention it, other variables, other options.
-/
namespace CC

variable {p p' : ProcEnv} {fs fs' : Fs} {toml toml' : Str → Res Toml} {cwd cwd' : Path} {o o' : Options} {c c' : EConfig} {s s' : Cells}
  {look look' : Str → Option OsStr} {home home' : Option Path} {docs docs' : List (Path × Toml)}

theorem Behind.plain {de : Config} (h : Behind cwd look docs c de) (k : ScalarKey) {x : Option Atom} (hx : k.plain c = some x) :
    x = (k.get de).map Val.val := by
  have hb := h.build
  simp only [EBuild.fromUnresolved, Res.bind_eq_ok, Res.pure_eq] at hb
  obtain ⟨x1, _, x2, _, x3, _, x4, _, x5, _, x6, _, x7, _, e1⟩ := hb
  have e1 := Res.ok.inj e1
  rw [h.rest, ← e1] at hx
  cases k <;> cases hx <;>
    simp only [ScalarKey.get, EHttp.fromUnresolved, ENet.fromUnresolved, ERegistry.fromUnresolved, ETerm.fromUnresolved,
      BMap.get_mapVals, Option.map_map, Function.comp_def, Val.map]
  all_goals (cases BMap.get de.registries _ <;> simp [ERegistries.fromUnresolved, Function.comp_def])

/-- C82, settings taken over as they are: the same whenever the variables of the setting have the same values and the same files say
the same about it. -/
theorem C82_plain (h : Loads p fs toml cwd o look home docs c s) (h' : Loads p' fs' toml' cwd' o' look' home' docs' c' s')
    (k : ScalarKey) (hv : ∀ n ∈ k.sources.map Prod.fst, look n = look' n) (hd : saidAt k.place docs = saidAt k.place docs') :
    k.plain c = k.plain c' := by
  obtain ⟨de, hb⟩ := h.behind
  obtain ⟨de', hb'⟩ := h'.behind
  have hs := hb.scalar_same hb' k hv hd
  have e1 := fun x => hb.plain k (x := x)
  have e2 := fun x => hb'.plain k (x := x)
  have e3 : (k.plain c).isSome = (k.plain c').isSome := by cases k <;> rfl
  generalize k.plain c = a at *
  generalize k.plain c' = b at *
  cases a with
  | none => cases b with
    | none => rfl
    | some b => cases e3
  | some a => cases b with
    | none => cases e3
    | some b => rw [e1 a rfl, e2 b rfl, hs]

/-- C82, programs: likewise, for loads in the same directory. -/
theorem C82_programs (h : Loads p fs toml cwd o look home docs c s) (h' : Loads p' fs' toml' cwd o' look' home' docs' c' s')
    (k : ScalarKey) (hv : ∀ n ∈ k.sources.map Prod.fst, look n = look' n) (hd : saidAt k.place docs = saidAt k.place docs') :
    k.program c = k.program c' := by
  obtain ⟨de, hb⟩ := h.behind
  obtain ⟨de', hb'⟩ := h'.behind
  have hs := hb.scalar_same hb' k hv hd
  have b1 := hb.build
  have b2 := hb'.build
  simp only [EBuild.fromUnresolved, Res.bind_eq_ok, Res.pure_eq] at b1 b2
  obtain ⟨x1, p1, x2, p2, x3, p3, x4, p4, x5, _, x6, _, x7, _, e1⟩ := b1
  obtain ⟨y1, q1, y2, q2, y3, q3, y4, q4, y5, _, y6, _, y7, _, e2⟩ := b2
  have e1 := Res.ok.inj e1
  have e2 := Res.ok.inj e2
  cases k <;> try rfl
  all_goals
    have hs := optStr_inj hs
    simp only [ScalarKey.program, ← e1, ← e2]
  · rw [hs, q1] at p1; exact congrArg some (Res.ok.inj p1).symm
  · rw [hs, q2] at p2; exact congrArg some (Res.ok.inj p2).symm
  · rw [hs, q3] at p3; exact congrArg some (Res.ok.inj p3).symm
  · rw [hs, q4] at p4; exact congrArg some (Res.ok.inj p4).symm

/-- C82, directories: likewise. -/
theorem C82_directories (h : Loads p fs toml cwd o look home docs c s) (h' : Loads p' fs' toml' cwd o' look' home' docs' c' s')
    (k : ScalarKey) (hv : ∀ n ∈ k.sources.map Prod.fst, look n = look' n) (hd : saidAt k.place docs = saidAt k.place docs') :
    k.directory c = k.directory c' := by
  obtain ⟨de, hb⟩ := h.behind
  obtain ⟨de', hb'⟩ := h'.behind
  have hs := hb.scalar_same hb' k hv hd
  have b1 := hb.build
  have b2 := hb'.build
  simp only [EBuild.fromUnresolved, Res.bind_eq_ok, Res.pure_eq] at b1 b2
  obtain ⟨x1, _, x2, _, x3, _, x4, _, x5, _, x6, p6, x7, p7, e1⟩ := b1
  obtain ⟨y1, _, y2, _, y3, _, y4, _, y5, _, y6, q6, y7, q7, e2⟩ := b2
  have e1 := Res.ok.inj e1
  have e2 := Res.ok.inj e2
  cases k <;> try rfl
  all_goals
    have hs := optStr_inj hs
    simp only [ScalarKey.directory, ← e1, ← e2]
  · rw [hs, q6] at p6; exact congrArg some (Res.ok.inj p6).symm
  · rw [hs, q7] at p7; exact congrArg some (Res.ok.inj p7).symm

/-- C82, lists of strings: likewise, in any directories. -/
theorem C82_lists (h : Loads p fs toml cwd o look home docs c s) (h' : Loads p' fs' toml' cwd' o' look' home' docs' c' s')
    (k : ListKey) (hv : ∀ n ∈ k.sources.map Prod.fst, look n = look' n) (hd : saidAt k.path docs = saidAt k.path docs') :
    k.plain c = k.plain c' := by
  have e3 : (k.plain c).isSome = (k.plain c').isSome := by cases k <;> rfl
  have e1 := fun x => C57_lists h k x
  have e2 := fun x => C57_lists h' k x
  generalize k.plain c = a at *
  generalize k.plain c' = b at *
  cases a with
  | none => cases b with
    | none => rfl
    | some b => cases e3
  | some a => cases b with
    | none => cases e3
    | some b =>
      obtain ⟨x, hx, rfl⟩ := e1 a rfl
      obtain ⟨y, hy, rfl⟩ := e2 b rfl
      rw [listSource_unique (listSource_agree k hv hd hx) hy]

theorem Behind.target_same {de de' : Config} (h : Behind cwd look docs c de) (h' : Behind cwd look' docs' c' de')
    (hs : ListKey.buildTarget.get de = ListKey.buildTarget.get de') : c.build.target = c'.build.target := by
  have b1 := h.build
  have b2 := h'.build
  simp only [EBuild.fromUnresolved, Res.bind_eq_ok, Res.pure_eq] at b1 b2
  obtain ⟨x1, _, x2, _, x3, _, x4, _, x5, p5, x6, _, x7, _, e1⟩ := b1
  obtain ⟨y1, _, y2, _, y3, _, y4, _, y5, q5, y6, _, y7, _, e2⟩ := b2
  have e1 := Res.ok.inj e1
  have e2 := Res.ok.inj e2
  have hs : de.build.target = de'.build.target := by
    refine optMap_inj (fun x y h => ?_) hs
    cases x <;> cases y <;> simp_all
  rw [hs, q5] at p5
  rw [← e1, ← e2]
  exact (Res.ok.inj p5).symm

/-- C82, `build.target`: likewise, for loads in the same directory. -/
theorem C82_build_target (h : Loads p fs toml cwd o look home docs c s) (h' : Loads p' fs' toml' cwd o' look' home' docs' c' s')
    (hv : look "CARGO_BUILD_TARGET".toList = look' "CARGO_BUILD_TARGET".toList)
    (hd : saidAt ["build".toList, "target".toList] docs = saidAt ["build".toList, "target".toList] docs') :
    c.build.target = c'.build.target := by
  obtain ⟨de, hb⟩ := h.behind
  obtain ⟨de', hb'⟩ := h'.behind
  refine hb.target_same hb' (hb.list_same hb' .buildTarget (fun n hn => ?_) hd)
  simp only [ListKey.sources, List.map_cons, List.map_nil, List.mem_singleton] at hn
  rw [hn]
  exact hv

theorem prog_inj {u v : Option PathAndArgs} (h : (u.map fun x => (x.repr, x.path :: x.args)) = v.map fun x => (x.repr, x.path :: x.args)) :
    u = v := by
  refine optMap_inj (fun x y h => ?_) h
  cases x
  cases y
  simp_all

/-- C82, `doc.browser`: likewise. -/
theorem C82_browser (h : Loads p fs toml cwd o look home docs c s) (h' : Loads p' fs' toml' cwd o' look' home' docs' c' s')
    (hv : look "BROWSER".toList = look' "BROWSER".toList)
    (hd : saidAt ["doc".toList, "browser".toList] docs = saidAt ["doc".toList, "browser".toList] docs') :
    c.doc.browser = c'.doc.browser := by
  obtain ⟨de, hb⟩ := h.behind
  obtain ⟨de', hb'⟩ := h'.behind
  have hs := hb.prog_same hb' .docBrowser (fun n hn => by
    simp only [ProgKey.sources, List.map_cons, List.map_nil, List.mem_singleton] at hn
    rw [hn]
    exact hv) hd
  have d1 := hb.doc
  have d2 := hb'.doc
  unfold EDoc.fromUnresolved at d1 d2
  rw [prog_inj hs, d2] at d1
  rw [Res.ok.inj d1]

theorem env_shape (cwd : Path) (e : EnvConfigValue) :
    EEnvValue.fromUnresolved cwd e = EEnvValue.fromUnresolved cwd (.table e.theValue e.theForce e.theRelative) := by
  cases e <;> rfl

/-- C82, `[env]`: an entry is the same whenever the same files say the same about it. -/
theorem C82_env (h : Loads p fs toml cwd o look home docs c s) (h' : Loads p' fs' toml' cwd o' look' home' docs' c' s')
    (k : Str) (hd : saidAt ["env".toList, k] docs = saidAt ["env".toList, k] docs') : BMap.get c.env k = BMap.get c'.env k := by
  obtain ⟨de, hb⟩ := h.behind
  obtain ⟨de', hb'⟩ := h'.behind
  have s1 := hb.scalar_same hb' (.envValue k) (fun n hn => by cases hn) hd
  have s2 := hb.scalar_same hb' (.envForce k) (fun n hn => by cases hn) hd
  have s3 := hb.scalar_same hb' (.envRelative k) (fun n hn => by cases hn) hd
  have r1 := mapVals_get (R := fun a b => EEnvValue.fromUnresolved cwd a = .ok b) (fun _ _ h => h) hb.env k
  have r2 := mapVals_get (R := fun a b => EEnvValue.fromUnresolved cwd a = .ok b) (fun _ _ h => h) hb'.env k
  simp only [ScalarKey.get] at s1 s2 s3
  generalize BMap.get de.env k = a at *
  generalize BMap.get de'.env k = b at *
  generalize BMap.get c.env k = u at *
  generalize BMap.get c'.env k = v at *
  cases r1 with
  | none => cases r2 with
    | none => rfl
    | some _ => cases s1
  | @some a u r1 => cases r2 with
    | none => cases s1
    | @some b v r2 =>
      have hbool : ∀ x y : Option (Val Bool), x.map (Val.map Atom.bool) = y.map (Val.map Atom.bool) → x = y := fun x y h =>
        optMap_inj (valMap_inj fun _ _ h => Atom.bool.inj h) h
      have t1 := valMap_inj (fun _ _ h => Atom.str.inj h) _ _ (Option.some.inj s1)
      have t2 := hbool _ _ s2
      have t3 := hbool _ _ s3
      simp only [Option.bind_some] at t2 t3
      rw [env_shape, t1, t2, t3, ← env_shape, r2] at r1
      rw [Res.ok.inj r1]

/-! ### queries -/

theorem load_context (h : EConfig.loadWithOptions p fs parse cwd o = .ok (c, s)) :
    c.cx = (o.intoContext p cwd).1 ∧ s = ((o.intoContext p cwd).2.cargoHomeOf p cwd).2 := by
  unfold EConfig.loadWithOptions at h
  simp only [Res.bind_eq_ok] at h
  obtain ⟨de, _, c', h2, h3⟩ := h
  simp only [EConfig.fromUnresolved, Res.bind_eq_ok, Res.pure_eq] at h2
  obtain ⟨de', h0, b, hb, d, hd, en, he, e⟩ := h2
  cases Res.ok.inj h3
  cases Res.ok.inj e
  exact ⟨rfl, rfl⟩

theorem flags_inj {u v : Option Flags} (h : (u.map fun l => (l.repr, l.flags)) = v.map fun l => (l.repr, l.flags)) : u = v := by
  refine optMap_inj (fun x y h => ?_) h
  cases x
  cases y
  simp_all

theorem Behind.build_same {de de' : Config} (h : Behind cwd look docs c de) (h' : Behind cwd look docs' c' de')
    (hd : saidAt ["build".toList] docs = saidAt ["build".toList] docs') : c.build = c'.build := by
  have e : de.build = de'.build := by
    have sc := fun k hk => h.scalar_same h' k (fun _ _ => rfl) hk
    have ls := fun k hk => h.list_same h' k (fun _ _ => rfl) hk
    have k1 := sc .buildJobs (saidAt_deeper hd ["jobs".toList])
    have k2 := sc .buildRustc (saidAt_deeper hd ["rustc".toList])
    have k3 := sc .buildRustcWrapper (saidAt_deeper hd ["rustc-wrapper".toList])
    have k4 := sc .buildRustcWorkspaceWrapper (saidAt_deeper hd ["rustc-workspace-wrapper".toList])
    have k5 := sc .buildRustdoc (saidAt_deeper hd ["rustdoc".toList])
    have k6 := sc .buildTargetDir (saidAt_deeper hd ["target-dir".toList])
    have k7 := sc .buildIncremental (saidAt_deeper hd ["incremental".toList])
    have k8 := sc .buildDepInfoBasedir (saidAt_deeper hd ["dep-info-basedir".toList])
    have k9 := ls .buildTarget (saidAt_deeper hd ["target".toList])
    have k10 := ls .buildRustflags (saidAt_deeper hd ["rustflags".toList])
    have k11 := ls .buildRustdocflags (saidAt_deeper hd ["rustdocflags".toList])
    have k12 : de.build.overrideTargetRustflags = de'.build.overrideTargetRustflags := by
      rw [Bool.eq_iff_iff, h.flags1, h'.flags1]
    have k13 : de.build.overrideTargetRustdocflags = de'.build.overrideTargetRustdocflags := by
      rw [Bool.eq_iff_iff, h.flags2, h'.flags2]
    have k1 := optMap_inj (valMap_inj fun _ _ h => Atom.int.inj h) k1
    have k2 := optStr_inj k2
    have k3 := optStr_inj k3
    have k4 := optStr_inj k4
    have k5 := optStr_inj k5
    have k6 := optStr_inj k6
    have k7 := optMap_inj (valMap_inj fun _ _ h => Atom.bool.inj h) k7
    have k8 := optStr_inj k8
    have k9 : de.build.target = de'.build.target := by
      refine optMap_inj (fun x y h => ?_) k9
      cases x <;> cases y <;> simp_all
    have k10 := flags_inj k10
    have k11 := flags_inj k11
    generalize de.build = b at *
    generalize de'.build = b' at *
    cases b
    cases b'
    simp_all
  have b1 := h.build
  rw [e, h'.build] at b1
  exact (Res.ok.inj b1).symm

/-- The `[target]` tables of the config. -/
theorem Loads.target_entry (h : Loads p fs toml cwd o look home docs c s) (k : Str) :
    (BMap.get c.deTarget k).isSome = true ↔ ∃ f x, (f, x) ∈ saidAt ["target".toList, k] docs := by
  rw [(C57_entries h k).2.2.2]
  constructor
  · rintro ⟨f, t, h1, h2⟩
    cases hx : t.at ["target".toList, k] with
    | none => exact absurd hx h2
    | some x => exact ⟨f, x, List.mem_filterMap.2 ⟨(f, t), h1, by simp only [hx, Option.map_some]⟩⟩
  · rintro ⟨f, x, hx⟩
    obtain ⟨⟨g, t⟩, h1, h2⟩ := List.mem_filterMap.1 hx
    refine ⟨g, t, h1, fun hn => ?_⟩
    simp only [hn, Option.map_none] at h2
    cases h2

theorem Behind.entry_same {de de' : Config} (h : Behind cwd look docs c de) (h' : Behind cwd' look' docs' c' de') (k : Str)
    (hp : (BMap.get de.target k).isSome = (BMap.get de'.target k).isSome)
    (hd : saidAt ["target".toList, k] docs = saidAt ["target".toList, k] docs') : BMap.get de.target k = BMap.get de'.target k := by
  have k1 := h.scalar_same h' (.targetLinker k) (fun n hn => by cases hn) (saidAt_deeper hd ["linker".toList])
  have k2 := h.list_same h' (.targetRustflags k) (fun n hn => by cases hn) (saidAt_deeper hd ["rustflags".toList])
  have k3 := h.list_same h' (.targetRustdocflags k) (fun n hn => by cases hn) (saidAt_deeper hd ["rustdocflags".toList])
  have k4 := h.prog_same h' (.targetRunner k) (fun n hn => by cases hn) (saidAt_deeper hd ["runner".toList])
  have k1 := optStr_inj k1
  have k2 := flags_inj k2
  have k3 := flags_inj k3
  have k4 := prog_inj k4
  generalize BMap.get de.target k = x at *
  generalize BMap.get de'.target k = y at *
  cases x with
  | none => cases y with
    | none => rfl
    | some y => cases hp
  | some x => cases y with
    | none => cases hp
    | some y =>
      cases x
      cases y
      simp only [Option.bind_some] at k1 k2 k3 k4
      simp [k1, k2, k3, k4]

theorem Loads.entry_same (h : Loads p fs toml cwd o look home docs c s) (h' : Loads p' fs' toml' cwd' o' look' home' docs' c' s')
    {k : Str} (hd : saidAt ["target".toList, k] docs = saidAt ["target".toList, k] docs') :
    BMap.get c.deTarget k = BMap.get c'.deTarget k := by
  obtain ⟨de, d⟩ := h.behind
  obtain ⟨de', d'⟩ := h'.behind
  have r1 : c.deTarget = de.target := by rw [d.rest]
  have r2 : c'.deTarget = de'.target := by rw [d'.rest]
  have e : (BMap.get c.deTarget k).isSome = (BMap.get c'.deTarget k).isSome := by
    rw [Bool.eq_iff_iff, h.target_entry, h'.target_entry, hd]
  rw [r1, r2] at e ⊢
  exact d.entry_same d' k e hd

theorem Loads.sorted (h : Loads p fs toml cwd o look home docs c s) : c.deTarget.Sorted := by
  obtain ⟨de, d⟩ := h.behind
  rw [d.rest]
  exact d.sorted

/-- C82, queries: what the config files say outside of `[build]` and `[target]` has no influence on any query, neither on the answer nor on
the processes started. -/
theorem C82_queries (h : Loads p fs toml cwd o look home docs c s) (h' : Loads p fs' toml' cwd o look' home' docs' c' s')
    (hb : saidAt ["build".toList] docs = saidAt ["build".toList] docs')
    (ht : saidAt ["target".toList] docs = saidAt ["target".toList] docs') :
    s = s' ∧ ∀ q, c.ask q = c'.ask q := by
  have e1 := load_context h.loaded
  have e2 := load_context h'.loaded
  refine ⟨e1.2.trans e2.2.symm, fun q => ?_⟩
  have hl : look = look' := (env_unique h.env (cwd := cwd) rfl).symm.trans (env_unique h'.env (cwd := cwd) rfl)
  subst hl
  obtain ⟨de, d⟩ := h.behind
  obtain ⟨de', d'⟩ := h'.behind
  have hc : c.cx = c'.cx := e1.1.trans e2.1.symm
  have hbuild := d.build_same d' hb
  have hdt : c.deTarget = c'.deTarget :=
    BMap.ext h.sorted h'.sorted fun k => h.entry_same h' (saidAt_deeper ht [k])
  cases c
  cases c'
  dsimp only at hc hbuild hdt
  subst hc hbuild hdt
  cases q <;> rfl

theorem cfgTables_filter (cx : Ctx) (b : EBuild) (t : TargetTriple) (m : BMap TargetConfig) (a : TargetAcc) :
    cfgTables cx b t m a = cfgTables cx b t (m.filter fun e => isCfgKey e.1) a := by
  induction m generalizing a with
  | nil => rfl
  | cons e m ih =>
    obtain ⟨k, v⟩ := e
    rw [List.filter_cons]
    by_cases hk : isCfgKey k = true
    · simp only [hk, if_true, cfgTables, startsWith_cfg, Bool.not_true, Bool.false_eq_true, if_false]
      congr 1
      funext holds
      exact ih _
    · simp only [hk, cfgTables, startsWith_cfg, Bool.not_eq_true] at hk ⊢
      simp only [hk, Bool.not_false, if_true, Bool.false_eq_true, if_false]
      exact ih a

theorem get_filter {V : Type} (m : BMap V) (g : Str → Bool) (k : Str) :
    BMap.get (m.filter fun e => g e.1) k = if g k then BMap.get m k else none := by
  induction m with
  | nil => simp [BMap.get]
  | cons e m ih =>
    obtain ⟨k', v⟩ := e
    rw [List.filter_cons]
    by_cases hg : g k' = true
    · rw [if_pos hg]
      simp only [BMap.get]
      by_cases hk : k' = k
      · subst hk; simp [hg]
      · simp only [if_neg hk]; exact ih
    · rw [if_neg hg, ih]
      simp only [BMap.get]
      by_cases hk : k' = k
      · subst hk; simp [hg]
      · simp only [if_neg hk]

/-- C82, targets: a query for a target depends on `[build]`, on the tables `cfg(..)` and on its own table only; the tables of other targets have
no influence. -/
theorem C82_other_targets (h : Loads p fs toml cwd o look home docs c s) (h' : Loads p fs' toml' cwd o look' home' docs' c' s')
    (t : TargetTriple) (hb : saidAt ["build".toList] docs = saidAt ["build".toList] docs')
    (ht : ∀ k, k = t.triple ∨ isCfgKey k = true → saidAt ["target".toList, k] docs = saidAt ["target".toList, k] docs') :
    ∀ q ∈ [Query.target t, .linker t, .runner t, .rustflags t, .rustdocflags t], c.ask q = c'.ask q := by
  have hl : look = look' := (env_unique h.env (cwd := cwd) rfl).symm.trans (env_unique h'.env (cwd := cwd) rfl)
  subst hl
  obtain ⟨de, d⟩ := h.behind
  obtain ⟨de', d'⟩ := h'.behind
  have hc : c.cx = c'.cx := (load_context h.loaded).1.trans (load_context h'.loaded).1.symm
  have hbuild := d.build_same d' hb
  have hown := h.entry_same h' (ht _ (.inl rfl))
  have hcfg : (c.deTarget.filter fun e => isCfgKey e.1) = c'.deTarget.filter fun e => isCfgKey e.1 := by
    refine BMap.ext (List.Pairwise.filter _ h.sorted) (List.Pairwise.filter _ h'.sorted) fun k => ?_
    rw [get_filter, get_filter]
    by_cases hk : isCfgKey k = true
    · rw [if_pos hk, if_pos hk, h.entry_same h' (ht k (.inr hk))]
    · rw [if_neg hk, if_neg hk]
  have key : c.targetEntry t = c'.targetEntry t := by
    unfold EConfig.targetEntry EConfig.initTarget resolveTarget
    simp only [cfgTables_filter _ _ _ c.deTarget, cfgTables_filter _ _ _ c'.deTarget, hcfg, hown, hc, hbuild]
  intro q hq
  simp only [List.mem_cons, List.not_mem_nil, or_false] at hq
  rcases hq with rfl | rfl | rfl | rfl | rfl <;>
    simp only [EConfig.ask, EConfig.target, EConfig.linker, EConfig.runner, EConfig.rustflags, EConfig.rustdocflags, key]

/-! ### a sample -/

/-- The farther document of the sample of Props/EndToEnd.lean with the same `[build]` but otherwise changed. -/
def sampleOtherDoc : Toml := .tbl [("build".toList, .tbl [("rustc".toList, .str "bin/rustc".toList), ("jobs".toList, .int 8),
    ("rustflags".toList, .arr [.str "-O".toList]), ("target".toList, .str "spec/a.json".toList)]),
  ("alias".toList, .tbl [("x".toList, .str "y".toList)])]

def sampleOtherToml (s : Str) : Res Toml :=
  if s = "near".toList then .ok sampleNearDoc else if s = "far".toList then .ok sampleOtherDoc else .err (.toml [])

theorem sampleOther_distinct (s : Str) (t : Toml) (h : sampleOtherToml s = .ok t) : t.DistinctKeys := by
  unfold sampleOtherToml at h
  split at h
  · rename_i hs
    exact sampleToml_distinct s t (by rw [sampleToml, if_pos hs]; exact h)
  · split at h
    · cases h
      refine distinct_tbl (by decide) fun x hx => ?_
      simp only [List.mem_cons, List.not_mem_nil, or_false] at hx
      rcases hx with rfl | rfl
      · refine distinct_tbl (by decide) fun x hx => distinct_leaf ?_
        simp only [List.mem_cons, List.not_mem_nil, or_false] at hx
        rcases hx with rfl | rfl | rfl | rfl <;> rfl
      · refine distinct_tbl (by decide) fun x hx => distinct_leaf ?_
        simp only [List.mem_cons, List.not_mem_nil, or_false] at hx
        subst hx
        rfl
    · cases h

theorem sample_documents {toml : Str → Res Toml} {near far : Toml} (h1 : toml "near".toList = .ok near) (h2 : toml "far".toList = .ok far) :
    DocumentsOf sampleFs toml "/w/p".toList none [("/w/p/.cargo/config".toList, near), ("/w/.cargo/config.toml".toList, far)] := by
  obtain ⟨dirs, d1, d2⟩ := C01_walk sampleFs.ex "/w/p".toList none
  refine ⟨dirs, d1, ?_, fun f t h => ?_⟩
  · have : walk sampleFs.ex "/w/p".toList none = ["/w/p/.cargo/config".toList, "/w/.cargo/config.toml".toList] := by decide +kernel
    rw [this] at d2
    exact d2
  · simp only [List.mem_cons, List.not_mem_nil, or_false, Prod.mk.injEq] at h
    rcases h with ⟨rfl, rfl⟩ | ⟨rfl, rfl⟩
    · exact ⟨"near".toList, by simp only [sampleFs, if_pos], h1⟩
    · exact ⟨"far".toList, by
        simp only [sampleFs]
        exact (if_neg (show ¬ "/w/.cargo/config.toml".toList = "/w/p/.cargo/config".toList by decide)).trans (if_pos trivial), h2⟩

theorem sample_load {toml : Str → Res Toml} {near far : Toml} (hd : ∀ s t, toml s = .ok t → t.DistinctKeys)
    (h1 : toml "near".toList = .ok near) (h2 : toml "far".toList = .ok far)
    (h : (EConfig.loadWithOptions sampleProc sampleFs (fun s => toml s >>= Config.de) "/w/p".toList
      { cargoHome := some none }).isOk = true) :
    ∃ look c s, Loads sampleProc sampleFs toml "/w/p".toList { cargoHome := some none } look none
      [("/w/p/.cargo/config".toList, near), ("/w/.cargo/config.toml".toList, far)] c s := by
  cases hr : EConfig.loadWithOptions sampleProc sampleFs (fun s => toml s >>= Config.de) "/w/p".toList { cargoHome := some none } with
  | ok r =>
    obtain ⟨c, s⟩ := r
    obtain ⟨look, home, docs, hl, hu⟩ := C57_determined hd (fun e he => by cases he) hr
    exact ⟨look, c, s, ⟨hd, fun e he => (by cases he), hr, sample_documents h1 h2, rfl, hl.env⟩⟩
  | err e => rw [hr] at h; cases h
  | panic => rw [hr] at h; cases h

/-- Two loads as in the theorems: the same `[build]`, other settings elsewhere. -/
example : ∃ look look' docs docs' c c' s s',
    Loads sampleProc sampleFs sampleToml "/w/p".toList { cargoHome := some none } look none docs c s ∧
    Loads sampleProc sampleFs sampleOtherToml "/w/p".toList { cargoHome := some none } look' none docs' c' s' ∧
    docs ≠ docs' ∧ c.build.target = c'.build.target ∧ s = s' ∧ ∀ q, c.ask q = c'.ask q := by
  obtain ⟨look, c, s, h⟩ := sample_load sampleToml_distinct (if_pos rfl) ((if_neg (by decide)).trans (if_pos rfl)) (by decide +kernel)
  obtain ⟨look', c', s', h'⟩ := sample_load sampleOther_distinct (if_pos rfl) ((if_neg (by decide)).trans (if_pos rfl)) (by decide +kernel)
  have hb : saidAt ["build".toList] [("/w/p/.cargo/config".toList, sampleNearDoc), ("/w/.cargo/config.toml".toList, sampleFarDoc)] =
      saidAt ["build".toList] [("/w/p/.cargo/config".toList, sampleNearDoc), ("/w/.cargo/config.toml".toList, sampleOtherDoc)] := rfl
  have hl : look = look' := (env_unique h.env (cwd := []) rfl).symm.trans (env_unique h'.env (cwd := []) rfl)
  have hq := C82_queries h h' hb rfl
  refine ⟨look, look', _, _, c, c', s, s', h, h', ?_, C82_build_target h h' (by rw [hl]) (saidAt_deeper hb ["target".toList]), hq.1, hq.2⟩
  intro e
  have e := congrArg (fun l => l.map fun x : Path × Toml => (x.2.at ["alias".toList]).isSome) e
  revert e
  decide +kernel

end CC
