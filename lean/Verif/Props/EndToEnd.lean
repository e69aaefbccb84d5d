import Verif.Lemmas.EndToEnd
/-
From the file system and the environment to the resolved config: C57.

`toml` stands for the TOML parser; all that is assumed of it is that the tables of the documents it returns have distinct keys.
-/
namespace CC

/-- `Config::load_with_options` was called by the process `p` in the current directory `cwd` with the options `o` and returned `c`,
where `look` are the environment variables consulted, `home` is the directory used as `CARGO_HOME` and `docs` are the config files that
apply, with their contents. -/
structure Loads (p : ProcEnv) (fs : Fs) (toml : Str → Res Toml) (cwd : Path) (o : Options) (look : Str → Option OsStr)
    (home : Option Path) (docs : List (Path × Toml)) (c : EConfig) (s : Cells) : Prop where
  tables : ∀ s t, toml s = .ok t → t.DistinctKeys
  map : ∀ e, o.env = some e → DistinctKeys e
  loaded : EConfig.loadWithOptions p fs (fun s => toml s >>= Config.de) cwd o = .ok (c, s)
  docs : DocumentsOf fs toml cwd home docs
  home : HomeOf p o cwd home
  env : EnvOf p o look

variable {p : ProcEnv} {fs : Fs} {toml : Str → Res Toml} {cwd : Path} {o : Options} {c : EConfig} {s : Cells}
  {look : Str → Option OsStr} {home : Option Path} {docs : List (Path × Toml)}

/-- The variables, `CARGO_HOME` and the documents exist for every successful load, and there is only one choice. -/
theorem C57_determined (ht : ∀ s t, toml s = .ok t → t.DistinctKeys) (hm : ∀ e, o.env = some e → DistinctKeys e)
    (h : EConfig.loadWithOptions p fs (fun s => toml s >>= Config.de) cwd o = .ok (c, s)) :
    ∃ look home docs, Loads p fs toml cwd o look home docs c s ∧
      ∀ look' home' docs', Loads p fs toml cwd o look' home' docs' c s → look' = look ∧ home' = home ∧ docs' = docs := by
  have hhome : ∃ home, HomeOf p o cwd home ∧ ∀ home', HomeOf p o cwd home' → home' = home := by
    unfold HomeOf
    cases o.cargoHome with
    | some h => exact ⟨h, rfl, fun _ h => h⟩
    | none => exact C04_rule_total _ _ _
  obtain ⟨home, hh, hu⟩ := hhome
  have henv : EnvOf p o (Env.get (o.intoContext p cwd).1.env) := by
    unfold EnvOf Options.intoContext
    cases ho : o.env with
    | some e =>
      simp only [ho, Option.isNone_some, Bool.false_eq_true, if_false, Option.getD_some]
    | none =>
      simp only [ho, Option.isNone_none, if_true, Options.withEnv, Option.getD_some]
      exact fun n => ⟨fun hn => C18_lookup _ hn, fun hn => C18_dropped _ hn⟩
  have hdocs : ∃ docs, DocumentsOf fs toml cwd home docs := by
    have h' := h
    rw [load_home hh, C04_option, Res.bind_eq_ok] at h'
    obtain ⟨de, h1, _⟩ := h'
    obtain ⟨raws, h3, _⟩ := loadPaths_ok.1 h1
    obtain ⟨dirs, d1, d2⟩ := C01_walk fs.ex cwd home
    have key : ∀ raws : List (Path × Config),
        (∀ f raw, (f, raw) ∈ raws → ∃ text, fs.read f = .ok text ∧ (toml text >>= Config.de) = .ok raw) →
        ∃ docs : List (Path × Toml), docs.map Prod.fst = raws.map Prod.fst ∧
          ∀ f t, (f, t) ∈ docs → ∃ text, fs.read f = .ok text ∧ toml text = .ok t := by
      intro raws
      induction raws with
      | nil => exact fun _ => ⟨[], rfl, fun _ _ h => by cases h⟩
      | cons x raws ih =>
        intro hr
        obtain ⟨docs, e, hd⟩ := ih fun f raw hm => hr f raw (by simp [hm])
        obtain ⟨f, raw⟩ := x
        obtain ⟨text, r1, r2⟩ := hr f raw (by simp)
        rw [Res.bind_eq_ok] at r2
        obtain ⟨t, r2, _⟩ := r2
        refine ⟨(f, t) :: docs, by simp [e], fun g u hg => ?_⟩
        simp only [List.mem_cons, Prod.mk.injEq] at hg
        rcases hg with ⟨rfl, rfl⟩ | hg
        · exact ⟨text, r1, r2⟩
        · exact hd g u hg
    obtain ⟨docs, e, hd⟩ := key raws h3.2
    exact ⟨docs, dirs, d1, by rw [e, h3.1]; exact d2, hd⟩
  obtain ⟨docs, hdocs⟩ := hdocs
  refine ⟨_, home, docs, ⟨ht, hm, h, hdocs, hh, henv⟩, fun look' home' docs' h' => ⟨?_, hu _ h'.home, ?_⟩⟩
  · exact (env_unique h'.env rfl).symm
  · obtain ⟨dirs, d1, d2, d3⟩ := hdocs
    have h2 := h'.docs
    rw [hu _ h'.home] at h2
    obtain ⟨dirs', d1', d2', d3'⟩ := h2
    have e := C01_spec_functional _ _ _ _ _ _ _ d1' d1 d2' d2
    have key : ∀ a b : List (Path × Toml), a.map Prod.fst = b.map Prod.fst →
        (∀ f t, (f, t) ∈ a → ∃ text, fs.read f = .ok text ∧ toml text = .ok t) →
        (∀ f t, (f, t) ∈ b → ∃ text, fs.read f = .ok text ∧ toml text = .ok t) → a = b := by
      intro a
      induction a with
      | nil => intro b hb _ _; cases b with
        | nil => rfl
        | cons _ _ => cases hb
      | cons x a ih =>
        intro b hb ha hb'
        cases b with
        | nil => cases hb
        | cons y b =>
          simp only [List.map_cons, List.cons.injEq] at hb
          rw [ih b hb.2 (fun f t h => ha f t (by simp [h])) (fun f t h => hb' f t (by simp [h]))]
          obtain ⟨f, t⟩ := x
          obtain ⟨g, u⟩ := y
          obtain ⟨e1, _⟩ := hb
          dsimp only at e1
          subst e1
          obtain ⟨t1, r1, p1⟩ := ha f t (by simp)
          obtain ⟨t2, r2, p2⟩ := hb' f u (by simp)
          rw [r1] at r2
          cases Res.ok.inj r2
          rw [p1] at p2
          cases Res.ok.inj p2
          rfl
    exact key _ _ e d3' d3

/-- C57, settings taken over as they are: each has the value of the variable consulted, else that of the nearest document that has
it, else it is unset. -/
theorem C57_plain (h : Loads p fs toml cwd o look home docs c s) (k : ScalarKey) (x : Option Atom) (hx : k.plain c = some x) :
    x.map Atom.toml = (k.source look docs).map Prod.fst := by
  obtain ⟨de, cx, raws, h1, h2, h3, h4, h5, h6, h7⟩ := loaded_unpack h.tables h.map h.loaded h.env h.home h.docs
  simp only [EConfig.fromUnresolved, Res.bind_eq_ok, Res.pure_eq] at h4
  obtain ⟨de', h0, b, hb, d, hd, en, he, e⟩ := h4
  have hs := source_scalar h5 h6 h7 h2 h0 k
  rw [h3] at hs
  have hs' := congrArg (Option.map Prod.fst) hs
  simp only [Option.map_map, Function.comp_def] at hs'
  have key : x = (k.get de').map Val.val := by
    simp only [EBuild.fromUnresolved, Res.bind_eq_ok, Res.pure_eq] at hb
    obtain ⟨x1, _, x2, _, x3, _, x4, _, x5, _, x6, _, x7, _, e1⟩ := hb
    have e1 := Res.ok.inj e1
    subst e1
    have e := Res.ok.inj e
    rw [← e] at hx
    cases k <;> cases hx <;>
      simp only [ScalarKey.get, EHttp.fromUnresolved, ENet.fromUnresolved, ERegistry.fromUnresolved, ETerm.fromUnresolved,
        BMap.get_mapVals, Option.map_map, Function.comp_def, Val.map]
    all_goals (cases BMap.get de'.registries _ <;> simp [ERegistries.fromUnresolved, Function.comp_def])
  rw [key, Option.map_map]
  exact hs'

theorem located_rel {k : ScalarKey} {de' : Config} {v : Option (Val Str)} {R : Val Str → Path → Prop} {y : Option Path}
    (hs : (k.get de').map (fun v => (v.val.toml, v.defn)) = (k.source look docs).map fun x => (x.1, some x.2))
    (hk : k.get de' = v.map (Val.map .str)) (hr : OptionRel R v y) :
    OptionRel (fun x y => ∃ t, x.1 = .str t ∧ R ⟨t, some x.2⟩ y) (k.source look docs) y := by
  rw [hk] at hs
  generalize k.source look docs = z at hs
  cases hr with
  | none =>
    cases z with
    | none => exact .none
    | some z => cases hs
  | @some a b hr =>
    cases z with
    | none => cases hs
    | some z =>
      obtain ⟨t, d⟩ := z
      obtain ⟨w, e⟩ := a
      simp only [Option.map_some, Val.map, Option.some.injEq, Prod.mk.injEq, Atom.toml] at hs
      obtain ⟨rfl, rfl⟩ := hs
      exact .some ⟨w, rfl, hr⟩

/-- C57, programs: taken from the variable consulted, else from the nearest document, else unset; as a path, relative to the current
directory if it comes from a variable, and to the directory of the document otherwise. -/
theorem C57_programs (h : Loads p fs toml cwd o look home docs c s) (k : ScalarKey) (y : Option Path) (hy : k.program c = some y) :
    OptionRel (fun x y => ∃ t, x.1 = .str t ∧ ProgramPath cwd ⟨t, some x.2⟩ y) (k.source look docs) y := by
  obtain ⟨de, cx, raws, h1, h2, h3, h4, h5, h6, h7⟩ := loaded_unpack h.tables h.map h.loaded h.env h.home h.docs
  obtain ⟨de', h0, r1, r2, r3, r4, _, _, _⟩ := C13_config h4
  have hs := source_scalar h5 h6 h7 h2 h0 k
  rw [h3] at hs
  rw [h1] at r1 r2 r3 r4
  cases k <;> cases hy
  · exact located_rel hs rfl r1
  · exact located_rel hs rfl r2
  · exact located_rel hs rfl r3
  · exact located_rel hs rfl r4

/-- C57, directories: likewise. -/
theorem C57_directories (h : Loads p fs toml cwd o look home docs c s) (k : ScalarKey) (y : Option Path) (hy : k.directory c = some y) :
    OptionRel (fun x y => ∃ t, x.1 = .str t ∧ DirPath cwd ⟨t, some x.2⟩ y) (k.source look docs) y := by
  obtain ⟨de, cx, raws, h1, h2, h3, h4, h5, h6, h7⟩ := loaded_unpack h.tables h.map h.loaded h.env h.home h.docs
  obtain ⟨de', h0, _, _, _, _, _, r6, r7⟩ := C13_config h4
  have hs := source_scalar h5 h6 h7 h2 h0 k
  rw [h3] at hs
  rw [h1] at r6 r7
  cases k <;> cases hy
  · exact located_rel hs rfl r6
  · exact located_rel hs rfl r7

/-- C57, lists of strings: taken from the variable consulted, else from all documents, joined. -/
theorem C57_lists (h : Loads p fs toml cwd o look home docs c s) (k : ListKey) (x : Option (List Str)) (hx : k.plain c = some x) :
    ∃ y, k.Source look docs y ∧ x = y.map fun y => y.2.map Val.val := by
  obtain ⟨de, cx, raws, h1, h2, h3, h4, h5, h6, h7⟩ := loaded_unpack h.tables h.map h.loaded h.env h.home h.docs
  simp only [EConfig.fromUnresolved, Res.bind_eq_ok, Res.pure_eq] at h4
  obtain ⟨de', h0, b, hb, d, hd, en, he, e⟩ := h4
  have hs := source_list h5 h6 h7 h2 h0 k
  rw [h3] at hs
  refine ⟨_, hs, ?_⟩
  simp only [EBuild.fromUnresolved, Res.bind_eq_ok, Res.pure_eq] at hb
  obtain ⟨x1, _, x2, _, x3, _, x4, _, x5, _, x6, _, x7, _, e1⟩ := hb
  have e1 := Res.ok.inj e1
  subst e1
  have e := Res.ok.inj e
  rw [← e] at hx
  cases k <;> cases hx <;>
    simp [ListKey.get, BMap.get_mapVals, Function.comp_def, EStringList.fromUnresolved, EFlags.fromUnresolved]

/-- C57, `build.target`: likewise, each target being a triple or a spec file relative to where it was written. -/
theorem C57_build_target (h : Loads p fs toml cwd o look home docs c s) :
    ∃ y, ListKey.Source look docs .buildTarget y ∧ OptionRel (fun y ts => ListRel (TargetNamed cwd) y.2 ts) y c.build.target := by
  obtain ⟨de, cx, raws, h1, h2, h3, h4, h5, h6, h7⟩ := loaded_unpack h.tables h.map h.loaded h.env h.home h.docs
  have h4' := h4
  simp only [EConfig.fromUnresolved, Res.bind_eq_ok, Res.pure_eq] at h4
  obtain ⟨de', h0, b, hb, d, hd, en, he, e⟩ := h4
  have hs := source_list h5 h6 h7 h2 h0 .buildTarget
  rw [h3] at hs
  refine ⟨_, hs, ?_⟩
  simp only [EBuild.fromUnresolved, Res.bind_eq_ok, Res.pure_eq] at hb
  obtain ⟨x1, _, x2, _, x3, _, x4, _, x5, hx, x6, _, x7, _, e1⟩ := hb
  have e1 := Res.ok.inj e1
  subst e1
  have e := Res.ok.inj e
  subst e
  show OptionRel _ _ x5
  have hloc := listSource_located hs
  simp only [ListKey.get] at hloc ⊢
  generalize de'.build.target = tt at hx hloc
  rw [h1] at hx
  cases tt with
  | none => cases hx; exact .none
  | some tt =>
    simp only [Res.mapOpt, Res.bind_eq_ok] at hx
    obtain ⟨ts, hts, hx⟩ := hx
    cases Res.ok.inj hx
    cases tt with
    | string v => exact .some (targetsNamed_ok (hloc _ _ rfl) hts)
    | array l => exact .some (targetsNamed_ok (hloc _ _ rfl) hts)

/-- C57, `doc.browser`: taken from all documents, joined, else from the variable `BROWSER`. -/
theorem C57_browser (h : Loads p fs toml cwd o look home docs c s) :
    ∃ y, ProgKey.Source look docs .docBrowser y ∧
      OptionRel (fun y b => ∃ v args, y.2 = v :: args ∧ ProgramPath cwd v b.path ∧ b.args = args.map Val.val) y c.doc.browser := by
  obtain ⟨de, cx, raws, h1, h2, h3, h4, h5, h6, h7⟩ := loaded_unpack h.tables h.map h.loaded h.env h.home h.docs
  obtain ⟨de', h0, _, _, _, _, r5, _, _⟩ := C13_config h4
  have hs := source_prog h5 h6 h7 h0 .docBrowser
  rw [h3] at hs
  refine ⟨_, hs, ?_⟩
  rw [h1] at r5
  simp only [ProgKey.get]
  generalize de'.doc.browser = x at r5
  generalize c.doc.browser = y at r5
  cases r5 with
  | none => exact .none
  | some r => exact .some ⟨_, _, rfl, r.1, r.2⟩

/-- C57, `[env]`: the entries are those of all documents; the value, `force` and `relative` are each taken from the nearest document
that has them; a relative value is taken relative to the directory of the document that the value is from. -/
theorem C57_env (h : Loads p fs toml cwd o look home docs c s) (k : Str) :
    OptionRel (fun (x : Toml × Definition) (y : EEnvValue) => ∃ t, x.1 = .str t ∧ y.relative = false ∧
        (y.force = true ↔ ∃ d, (ScalarKey.envForce k).source look docs = some (.bool true, d)) ∧
        ((¬ ∃ d, (ScalarKey.envRelative k).source look docs = some (.bool true, d)) → y.value = t) ∧
        ((∃ d, (ScalarKey.envRelative k).source look docs = some (.bool true, d)) →
          ∃ base, BaseDir cwd x.2 base ∧ y.value = Path.join base t))
      ((ScalarKey.envValue k).source look docs) (BMap.get c.env k) := by
  obtain ⟨de, cx, raws, h1, h2, h3, h4, h5, h6, h7⟩ := loaded_unpack h.tables h.map h.loaded h.env h.home h.docs
  have hr := C15_env h4 k
  obtain ⟨de', h0, _⟩ := C13_config h4
  have s1 := source_scalar h5 h6 h7 h2 h0 (.envValue k)
  have s2 := source_scalar h5 h6 h7 h2 h0 (.envForce k)
  have s3 := source_scalar h5 h6 h7 h2 h0 (.envRelative k)
  rw [h3] at s1 s2 s3
  simp only [ScalarKey.get, (C25_local h0).1] at s1 s2 s3
  rw [h1] at hr
  generalize (ScalarKey.envValue k).source look docs = x1 at s1 ⊢
  generalize (ScalarKey.envForce k).source look docs = x2 at s2 ⊢
  generalize (ScalarKey.envRelative k).source look docs = x3 at s3 ⊢
  generalize BMap.get de.env k = a at *
  generalize BMap.get c.env k = b at *
  have flag : ∀ (v : Option (Val Bool)) (x : Option (Toml × Definition)),
      (v.map (Val.map Atom.bool)).map (fun v => (v.val.toml, v.defn)) = x.map (fun x => (x.1, some x.2)) →
      ((∃ w, v = some w ∧ w.val = true) ↔ ∃ d, x = some (.bool true, d)) := by
    intro v x hx
    cases v with
    | none => cases x with
      | none => simp
      | some x => cases hx
    | some v => cases x with
      | none => cases hx
      | some x =>
        obtain ⟨t, d⟩ := x
        obtain ⟨w, e⟩ := v
        simp only [Option.map_some, Val.map, Option.some.injEq, Prod.mk.injEq, Atom.toml] at hx
        obtain ⟨rfl, rfl⟩ := hx
        simp
  cases hr with
  | none =>
    cases x1 with
    | none => exact .none
    | some x => cases s1
  | @some a b hr =>
    have f2 := flag _ _ s2
    have f3 := flag _ _ s3
    dsimp only [Option.bind_some] at f2 f3
    cases x1 with
    | none => cases s1
    | some x =>
      obtain ⟨t, d⟩ := x
      simp only [Option.map_some, Val.map, Option.some.injEq, Prod.mk.injEq, Atom.toml] at s1
      obtain ⟨e1, e2⟩ := s1
      refine .some ⟨_, e1.symm, hr.relative, ?_, ?_, ?_⟩
      · rw [← f2]; exact hr.force
      · rw [← f3]; exact hr.plain
      · rw [← f3]; exact fun hh => hr.joined hh d e2

/-- C57, `[target]`: the tables that target queries start from (see C27–C31, C63) hold the settings of all documents, nearest first;
lists and runners are joined. -/
theorem C57_target_tables (h : Loads p fs toml cwd o look home docs c s) (k : Str) :
    (((BMap.get c.deTarget k).bind (·.linker)).map fun v => (Toml.str v.val, v.defn)) =
      ((ScalarKey.targetLinker k).source look docs).map (fun x => (x.1, some x.2)) ∧
    ListKey.Source look docs (.targetRustflags k) (((BMap.get c.deTarget k).bind (·.rustflags)).map fun l => (l.repr, l.flags)) ∧
    ListKey.Source look docs (.targetRustdocflags k) (((BMap.get c.deTarget k).bind (·.rustdocflags)).map fun l => (l.repr, l.flags)) ∧
    ProgKey.Source look docs (.targetRunner k) (((BMap.get c.deTarget k).bind (·.runner)).map fun x => (x.repr, x.path :: x.args)) := by
  obtain ⟨de, cx, raws, h1, h2, h3, h4, h5, h6, h7⟩ := loaded_unpack h.tables h.map h.loaded h.env h.home h.docs
  simp only [EConfig.fromUnresolved, Res.bind_eq_ok, Res.pure_eq] at h4
  obtain ⟨de', h0, b, hb, d, hd, en, he, e⟩ := h4
  have e := Res.ok.inj e
  subst e
  have s1 := source_scalar h5 h6 h7 h2 h0 (.targetLinker k)
  have s2 := source_list h5 h6 h7 h2 h0 (.targetRustflags k)
  have s3 := source_list h5 h6 h7 h2 h0 (.targetRustdocflags k)
  have s4 := source_prog h5 h6 h7 h0 (.targetRunner k)
  rw [h3] at s1 s2 s3 s4
  refine ⟨?_, s2, s3, s4⟩
  rw [← s1]
  simp [ScalarKey.get, Option.map_map, Function.comp_def, Val.map, Atom.toml]

/-- C57, entries: a table with arbitrary keys has exactly the entries of the documents and those made by variables. -/
theorem C57_entries (h : Loads p fs toml cwd o look home docs c s) (k : Str) :
    ((BMap.get c.alias k).isSome = true ↔
      (∃ f t, (f, t) ∈ docs ∧ t.at ["alias".toList, k] ≠ none) ∨ ∃ n ∈ (TableKey.alias k).vars, look n ≠ none) ∧
    ((BMap.get c.env k).isSome = true ↔ ∃ f t, (f, t) ∈ docs ∧ t.at ["env".toList, k] ≠ none) ∧
    ((BMap.get c.registries k).isSome = true ↔
      (∃ f t, (f, t) ∈ docs ∧ t.at ["registries".toList, k] ≠ none) ∨ ∃ n ∈ (TableKey.registries k).vars, look n ≠ none) ∧
    ((BMap.get c.deTarget k).isSome = true ↔ ∃ f t, (f, t) ∈ docs ∧ t.at ["target".toList, k] ≠ none) := by
  obtain ⟨de, cx, raws, h1, h2, h3, h4, h5, h6, h7⟩ := loaded_unpack h.tables h.map h.loaded h.env h.home h.docs
  have henv := C15_env h4 k
  simp only [EConfig.fromUnresolved, Res.bind_eq_ok, Res.pure_eq] at h4
  obtain ⟨de', h0, b, hb, d, hd, en, he, e⟩ := h4
  have e := Res.ok.inj e
  have main : ∀ k : TableKey, k.present de' = true ↔ (∃ f t, (f, t) ∈ docs ∧ t.at k.path ≠ none) ∨ ∃ n ∈ k.vars, look n ≠ none := by
    intro k
    rw [C26_present h2 h0 k, h3]
    refine or_congr ?_ Iff.rfl
    obtain ⟨raws', g1, g2⟩ := C09_union (fun s c => toml_wf s c) h5
    rw [filesRead_unique g1 h6] at g2
    rw [g2 k]
    clear g1 g2 h6 h
    induction h7 with
    | nil => simp
    | @cons x y xs ys hr _ ih =>
      obtain ⟨f, raw⟩ := x
      obtain ⟨g, t⟩ := y
      have hp := entry_read hr.2.1 hr.2.2 k
      dsimp only at hp
      constructor
      · rintro ⟨q, r, hm, hq⟩
        simp only [List.mem_cons, Prod.mk.injEq] at hm
        rcases hm with ⟨rfl, rfl⟩ | hm
        · refine ⟨g, t, by simp, ?_⟩
          rw [hp] at hq
          exact Option.isSome_iff_ne_none.1 hq
        · obtain ⟨f', t', h1, h2⟩ := ih.1 ⟨q, r, hm, hq⟩
          exact ⟨f', t', by simp [h1], h2⟩
      · rintro ⟨q, r, hm, hq⟩
        simp only [List.mem_cons, Prod.mk.injEq] at hm
        rcases hm with ⟨rfl, rfl⟩ | hm
        · refine ⟨f, raw, by simp, ?_⟩
          rw [hp]
          exact Option.isSome_iff_ne_none.2 hq
        · obtain ⟨f', t', h1, h2⟩ := ih.2 ⟨q, r, hm, hq⟩
          exact ⟨f', t', by simp [h1], h2⟩
  have m1 := main (.alias k)
  have m2 := main (.env k)
  have m3 := main (.registries k)
  have m4 := main (.target k)
  simp only [TableKey.present, TableKey.path] at m1 m2 m3 m4
  refine ⟨?_, ?_, ?_, ?_⟩
  · rw [← m1, ← e]; simp [BMap.get_mapVals]
  · have : (BMap.get c.env k).isSome = (BMap.get de'.env k).isSome := by
      rw [(C25_local h0).1]
      generalize BMap.get de.env k = a at henv
      generalize BMap.get c.env k = b at henv
      cases henv <;> rfl
    rw [this, m2]
    simp [TableKey.vars]
  · rw [← m3, ← e]; simp [BMap.get_mapVals]
  · rw [← e]; simpa [TableKey.vars] using m4

/-! ### a sample -/

section sample

/-- The contents of `/w/p/.cargo/config` and `/w/.cargo/config.toml`. -/
def sampleNearDoc : Toml := .tbl [("build".toList, .tbl [("rustflags".toList, .arr [.str "-g".toList]), ("jobs".toList, .int 4)]),
  ("env".toList, .tbl [("E".toList, .tbl [("value".toList, .str "x".toList)])])]

def sampleFarDoc : Toml := .tbl [("build".toList, .tbl [("rustc".toList, .str "bin/rustc".toList), ("jobs".toList, .int 8),
    ("rustflags".toList, .arr [.str "-O".toList]), ("target".toList, .str "spec/a.json".toList)]),
  ("env".toList, .tbl [("E".toList, .tbl [("value".toList, .str "y".toList), ("relative".toList, .bool true)])]),
  ("http".toList, .tbl [("timeout".toList, .int 30)])]

def sampleToml (s : Str) : Res Toml :=
  if s = "near".toList then .ok sampleNearDoc else if s = "far".toList then .ok sampleFarDoc else .err (.toml [])

def sampleProc : ProcEnv := { vars := [(.unicode "CARGO_HTTP_TIMEOUT".toList, .unicode "5".toList)], home := none }

/-- The call succeeds; `jobs` is from the nearer file, `timeout` from the environment, `rustc` is relative to `/w`, and the entry of
`[env]` combines the value of the nearer file with `relative` of the other. -/
example : (EConfig.loadWithOptions sampleProc sampleFs (fun s => sampleToml s >>= Config.de) "/w/p".toList {}).toOption.map
      (fun r => (r.1.build.jobs, r.1.http.timeout)) = some (some (4 : Int), some (5 : Nat)) := by decide +kernel
example : (EConfig.loadWithOptions sampleProc sampleFs (fun s => sampleToml s >>= Config.de) "/w/p".toList {}).toOption.map
      (fun r => (r.1.build.rustc, r.1.build.rustflags)) =
    some (some "/w/bin/rustc".toList, some ⟨["-O".toList, "-g".toList]⟩) := by decide +kernel
example : (EConfig.loadWithOptions sampleProc sampleFs (fun s => sampleToml s >>= Config.de) "/w/p".toList {}).toOption.map
      (fun r => (BMap.get r.1.env "E".toList, r.1.build.target)) =
    some (some ⟨"/w/p/x".toList, false, false⟩, some [⟨"a".toList, some "/w/spec/a.json".toList⟩]) := by decide +kernel

/-- Its documents have distinct keys. -/
theorem sampleToml_distinct (s : Str) (t : Toml) (h : sampleToml s = .ok t) : t.DistinctKeys := by
  unfold sampleToml at h
  split at h
  · cases h
    refine distinct_tbl (by decide) fun x hx => ?_
    simp only [List.mem_cons, List.not_mem_nil, or_false] at hx
    rcases hx with rfl | rfl
    · refine distinct_tbl (by decide) fun x hx => distinct_leaf ?_
      simp only [List.mem_cons, List.not_mem_nil, or_false] at hx
      rcases hx with rfl | rfl <;> rfl
    · refine distinct_tbl (by decide) fun x hx => ?_
      simp only [List.mem_cons, List.not_mem_nil, or_false] at hx
      subst hx
      refine distinct_tbl (by decide) fun x hx => distinct_leaf ?_
      simp only [List.mem_cons, List.not_mem_nil, or_false] at hx
      subst hx
      rfl
  · split at h
    · cases h
      refine distinct_tbl (by decide) fun x hx => ?_
      simp only [List.mem_cons, List.not_mem_nil, or_false] at hx
      rcases hx with rfl | rfl | rfl
      · refine distinct_tbl (by decide) fun x hx => distinct_leaf ?_
        simp only [List.mem_cons, List.not_mem_nil, or_false] at hx
        rcases hx with rfl | rfl | rfl | rfl <;> rfl
      · refine distinct_tbl (by decide) fun x hx => ?_
        simp only [List.mem_cons, List.not_mem_nil, or_false] at hx
        subst hx
        refine distinct_tbl (by decide) fun x hx => distinct_leaf ?_
        simp only [List.mem_cons, List.not_mem_nil, or_false] at hx
        rcases hx with rfl | rfl <;> rfl
      · refine distinct_tbl (by decide) fun x hx => distinct_leaf ?_
        simp only [List.mem_cons, List.not_mem_nil, or_false] at hx
        subst hx
        rfl
    · cases h

/-- So the sample call meets the hypotheses of the theorems above. -/
theorem sample_call : ∃ look home docs c s, Loads sampleProc sampleFs sampleToml "/w/p".toList {} look home docs c s ∧
    c.build.jobs = some 4 ∧ c.build.rustc = some "/w/bin/rustc".toList := by
  have h1 : (EConfig.loadWithOptions sampleProc sampleFs (fun s => sampleToml s >>= Config.de) "/w/p".toList {}).toOption.map
      (fun r => (r.1.build.jobs, r.1.build.rustc)) = some (some 4, some "/w/bin/rustc".toList) := by decide +kernel
  cases h : EConfig.loadWithOptions sampleProc sampleFs (fun s => sampleToml s >>= Config.de) "/w/p".toList {} with
  | ok r =>
    rw [h] at h1
    obtain ⟨c, s⟩ := r
    obtain ⟨look, home, docs, hl, _⟩ := C57_determined sampleToml_distinct (fun e he => by cases he) h
    simp only [Res.toOption, Option.map_some, Option.some.injEq, Prod.mk.injEq] at h1
    exact ⟨look, home, docs, c, s, hl, h1.1, h1.2⟩
  | err e => rw [h] at h1; simp [Res.toOption] at h1
  | panic => rw [h] at h1; simp [Res.toOption] at h1

/-- What is known from `C57_plain` and `C57_programs` about the sample call. -/
example : ∃ look home docs c s, Loads sampleProc sampleFs sampleToml "/w/p".toList {} look home docs c s ∧
    (ScalarKey.buildJobs.source look docs).map Prod.fst = some (.int 4) ∧
    ∃ x t, ScalarKey.buildRustc.source look docs = some x ∧ x.1 = .str t ∧
      ProgramPath "/w/p".toList ⟨t, some x.2⟩ "/w/bin/rustc".toList := by
  obtain ⟨look, home, docs, c, s, h, hj, hr⟩ := sample_call
  refine ⟨look, home, docs, c, s, h, ?_, ?_⟩
  · have := C57_plain h .buildJobs _ rfl
    rw [hj] at this
    exact this.symm
  · have := C57_programs h .buildRustc _ rfl
    rw [hr] at this
    generalize ScalarKey.buildRustc.source look docs = src at this ⊢
    cases this with
    | some hx => obtain ⟨t, ht, hp⟩ := hx; exact ⟨_, t, rfl, ht, hp⟩

end sample

/-- The other statements about the sample call. -/
example : ∃ look home docs c s, Loads sampleProc sampleFs sampleToml "/w/p".toList {} look home docs c s ∧
    OptionRel (fun x y => ∃ t, x.1 = .str t ∧ DirPath "/w/p".toList ⟨t, some x.2⟩ y) (ScalarKey.buildTargetDir.source look docs)
      c.build.targetDir ∧
    (∃ y, ListKey.Source look docs .buildRustflags y ∧
      c.build.rustflags.map EFlags.flags = y.map fun y => y.2.map Val.val) ∧
    (∃ y, ListKey.Source look docs .buildTarget y ∧
      OptionRel (fun y ts => ListRel (TargetNamed "/w/p".toList) y.2 ts) y c.build.target) ∧
    (∃ y, ProgKey.Source look docs .docBrowser y ∧ OptionRel (fun y b => ∃ v args, y.2 = v :: args ∧
      ProgramPath "/w/p".toList v b.path ∧ b.args = args.map Val.val) y c.doc.browser) ∧
    ListKey.Source look docs (.targetRustflags "x".toList)
      (((BMap.get c.deTarget "x".toList).bind (·.rustflags)).map fun l => (l.repr, l.flags)) := by
  obtain ⟨look, home, docs, c, s, h, -, -⟩ := sample_call
  exact ⟨look, home, docs, c, s, h, C57_directories h .buildTargetDir _ rfl, C57_lists h .buildRustflags _ rfl, C57_build_target h,
    C57_browser h, (C57_target_tables h "x".toList).2.1⟩

end CC
