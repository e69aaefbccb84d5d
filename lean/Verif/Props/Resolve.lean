import Verif.Lemmas.Resolve
import Verif.Props.Load
import Verif.Props.Env
import Verif.Props.Home
/-
From the loaded to the resolved config: C13, C14, C15.
-/
namespace CC

variable {fs : Fs} {parse : Str → Res Config} {cwd : Path} {home : Option Path} {de : Config} {cx : Ctx} {c : EConfig}

/-! ### C13 -/

/-- C13: the programs and directories of a resolved config, in terms of the config `de'` made of the files and the environment. -/
theorem C13_config (h : EConfig.fromUnresolved de cx = .ok c) : ∃ de', de.applyEnv cx.env = .ok de' ∧
    OptionRel (ProgramPath cx.currentDir) de'.build.rustc c.build.rustc ∧
    OptionRel (ProgramPath cx.currentDir) de'.build.rustcWrapper c.build.rustcWrapper ∧
    OptionRel (ProgramPath cx.currentDir) de'.build.rustcWorkspaceWrapper c.build.rustcWorkspaceWrapper ∧
    OptionRel (ProgramPath cx.currentDir) de'.build.rustdoc c.build.rustdoc ∧
    OptionRel (fun x y => ProgramPath cx.currentDir x.path y.path ∧ y.args = x.args.map Val.val) de'.doc.browser c.doc.browser ∧
    OptionRel (DirPath cx.currentDir) de'.build.targetDir c.build.targetDir ∧
    OptionRel (DirPath cx.currentDir) de'.build.depInfoBasedir c.build.depInfoBasedir := by
  simp only [EConfig.fromUnresolved, EBuild.fromUnresolved, EDoc.fromUnresolved, Res.bind_eq_ok, Res.pure_eq] at h
  obtain ⟨de', h0, b, ⟨x1, h1, x2, h2, x3, h3, x4, h4, x5, h5, x6, h6, x7, h7, e1⟩, d, ⟨x8, h8, e2⟩, en, h9, e3⟩ := h
  cases e1
  cases e2
  cases e3
  have hp : ∀ (v : Val Str) (p : Path), v.resolveAsProgramPath cx.currentDir = .ok p → ProgramPath cx.currentDir v p :=
    fun _ _ => resolveAsProgramPath_ok
  have hd : ∀ (v : Val Str) (p : Path), v.resolveAsPath cx.currentDir = .ok p → DirPath cx.currentDir v p :=
    fun _ _ => resolveAsPath_ok
  exact ⟨de', h0, mapOpt_ok hp h1, mapOpt_ok hp h2, mapOpt_ok hp h3, mapOpt_ok hp h4, mapOpt_ok (fun _ _ => prog_ok) h8,
    mapOpt_ok hd h6, mapOpt_ok hd h7⟩

/-- C13: the linker and the runner of a target. -/
theorem C13_target {t : TargetConfig} {e : ETarget} (h : ETarget.fromUnresolved cwd t = .ok e) :
    OptionRel (ProgramPath cwd) t.linker e.linker ∧
    OptionRel (fun x y => ProgramPath cwd x.path y.path ∧ y.args = x.args.map Val.val) t.runner e.runner := by
  simp only [ETarget.fromUnresolved, Res.bind_eq_ok, Res.pure_eq] at h
  obtain ⟨x1, h1, x2, h2, e1⟩ := h
  cases e1
  exact ⟨mapOpt_ok (fun _ _ => resolveAsProgramPath_ok) h1, mapOpt_ok (fun _ _ => prog_ok) h2⟩

/-- C13: what joining means.  An absolute path replaces the base; any other path is appended to it component by component (a leading
`.` is dropped). -/
theorem C13_join (d x : Path) :
    (∀ r, Path.join d ('/' :: r) = '/' :: r) ∧
    ((∀ r, x ≠ '/' :: r) → d ≠ [] →
      Path.components (Path.join d x) = Path.components d ++ (Path.components x).filter (fun c => c ≠ .cur)) ∧
    ((∀ r, x ≠ '/' :: r) → Path.join [] x = x) := by
  have key : (∀ r, x ≠ '/' :: r) → Path.isAbsolute x = false := by
    intro h
    unfold Path.isAbsolute
    split
    · rename_i r; exact absurd rfl (h r)
    · rfl
  refine ⟨fun r => rfl, fun h hd => Path.components_join_relative d x (key h) hd, fun h => ?_⟩
  unfold Path.join
  rw [key h]
  rfl

example : Path.components (Path.join "/w/x/".toList "./../bin//rustc".toList) =
    [.root, .normal "w".toList, .normal "x".toList, .parent, .normal "bin".toList, .normal "rustc".toList] := by decide +kernel

/-- C13: the base directory of a config file found in the `.cargo` directory of `dir` is `dir`, and that of one in `CARGO_HOME` is the
parent of `CARGO_HOME` (as paths, i.e. component-wise). -/
theorem C13_base_dir {ex : Path → Bool} {dir f base : Path} (hb : BaseDir cwd (.path f) base) :
    (IsConfigOf ex (Path.join dir ".cargo".toList) f → Path.components base = Path.components dir) ∧
    (∀ h, IsConfigOf ex h f → ∃ c, Path.components h = Path.components base ++ [c]) := by
  obtain ⟨a, b, hab⟩ := hb
  have key : ∀ h, IsConfigOf ex h f → Path.components h = Path.components base ++ [a] := by
    intro h hc
    obtain ⟨x, hx⟩ := isConfigOf_components hc
    rw [hx] at hab
    have : Path.components h ++ [x] = (Path.components base ++ [a]) ++ [b] := by rw [hab]; simp
    exact (List.append_inj' this rfl).1
  refine ⟨fun hc => ?_, fun h hc => ⟨a, key h hc⟩⟩
  have := key _ hc
  rw [Path.components_join _ _ simple_dotcargo] at this
  exact (List.append_inj' this rfl).1.symm

/-- A program in a file of the walk, one from the environment, and a bare name. -/
example : ProgramPath "/w/x".toList ⟨"bin/rustc".toList, some (.path "/w/.cargo/config.toml".toList)⟩ "/w/bin/rustc".toList ∧
    ProgramPath "/w/x".toList ⟨"bin/rustc".toList, some (.environment "RUSTC".toList)⟩ "/w/x/bin/rustc".toList ∧
    ProgramPath "/w/x".toList ⟨"rustc".toList, some (.path "/w/.cargo/config.toml".toList)⟩ "rustc".toList :=
  ⟨resolveAsProgramPath_ok (by rfl), resolveAsProgramPath_ok (by rfl), resolveAsProgramPath_ok (by rfl)⟩
/-- A bare name that is not the name of a program is joined. -/
example : DirPath "/w/x".toList ⟨"target".toList, some (.path "/w/.cargo/config.toml".toList)⟩ "/w/target".toList :=
  resolveAsPath_ok (by rfl)

/-! ### C15 -/

/-- The resolved `[env]` entry `y` of the entry `x`. -/
structure EnvResolved (cwd : Path) (x : EnvConfigValue) (y : EEnvValue) : Prop where
  relative : y.relative = false
  force : y.force = true ↔ ∃ v, x.theForce = some v ∧ v.val = true
  plain : (¬ ∃ v, x.theRelative = some v ∧ v.val = true) → y.value = x.theValue.val
  joined : (∃ v, x.theRelative = some v ∧ v.val = true) → ∀ d, x.theValue.defn = some d →
    ∃ base, BaseDir cwd d base ∧ y.value = Path.join base x.theValue.val
  /-- a value that was not loaded from anywhere stays as it is -/
  unlocated : x.theValue.defn = none → y.value = x.theValue.val

/-- C15: every `[env]` entry of a loaded config is resolved to an entry of the resolved config, and there are no others. -/
theorem C15_env (h : EConfig.fromUnresolved de cx = .ok c) (k : Str) :
    OptionRel (EnvResolved cx.currentDir) (de.env.get k) (c.env.get k) := by
  simp only [EConfig.fromUnresolved, EDoc.fromUnresolved, Res.bind_eq_ok, Res.pure_eq] at h
  obtain ⟨de', h0, b, h1, d, h2, en, h9, e3⟩ := h
  cases e3
  rw [← (C25_local h0).1]
  refine mapVals_get ?_ h9 k
  intro x y hxy
  unfold EEnvValue.fromUnresolved at hxy
  cases x with
  | value v =>
    cases hxy
    exact ⟨rfl, by simp [EnvConfigValue.theForce], fun _ => rfl, (by rintro ⟨v, hv, _⟩; cases hv), fun _ => rfl⟩
  | table v f r =>
    have hforce : ((f.map Val.val).getD false = true ↔ ∃ w, f = some w ∧ w.val = true) := by
      cases f with
      | none => simp
      | some w => simp
    dsimp only at hxy
    split at hxy
    · rename_i hr
      have hr' : ∃ w, r = some w ∧ w.val = true := by
        cases r with
        | none => cases hr
        | some w => exact ⟨w, rfl, Option.some.inj hr⟩
      rw [Res.bind_eq_ok] at hxy
      obtain ⟨s, hs, e⟩ := hxy
      cases e
      refine ⟨rfl, hforce, fun hn => absurd hr' hn, fun _ d hd => ?_, fun hd => ?_⟩
      rotate_left
      · simp only [EnvConfigValue.theValue] at hd ⊢
        simp only [EnvConfigValue.resolve, hr, hd] at hs
        exact (Res.ok.inj hs).symm
      simp only [EnvConfigValue.theValue] at hd ⊢
      simp only [EnvConfigValue.resolve, hr, hd, Res.bind_eq_ok] at hs
      obtain ⟨base, hb, e⟩ := hs
      cases e
      cases hroot : d.root cx.currentDir with
      | none => rw [hroot] at hb; cases hb
      | some x => rw [hroot] at hb; cases hb; exact ⟨_, root_baseDir hroot, rfl⟩
    · rename_i hr
      cases hxy
      refine ⟨rfl, hforce, fun _ => rfl, ?_, fun _ => rfl⟩
      rintro ⟨w, hw, hw'⟩
      simp only [EnvConfigValue.theRelative] at hw
      subst hw
      exact absurd (by simp [hw']) hr

/-- A relative, forced value in a file. -/
example : EEnvValue.fromUnresolved "/w/x".toList
    (.table ⟨"data".toList, some (.path "/w/.cargo/config.toml".toList)⟩ (some ⟨true, none⟩) (some ⟨true, none⟩)) =
    .ok { value := "/w/data".toList, force := true, relative := false } := by rfl

/-! ### C14 -/

theorem load_wf (hparse : ∀ s c, parse s = .ok c → c.WF) (hl : loadConfig fs parse cwd home = .ok de) : de.WF := by
  obtain ⟨raws, h1, h2⟩ := loadPaths_ok.1 hl
  exact mergeList_wf h2 (located_wf hparse h1)

/-- Every value comes from a file of the walk or from the environment. -/
theorem scalar_hasRoot {de' : Config} (hparse : ∀ s c, parse s = .ok c → c.WF) (hl : loadConfig fs parse cwd home = .ok de)
    (hh : ∀ h, home = some h → Path.parent h ≠ none) {env : Env} (hd : DistinctKeys env) (ha : de.applyEnv env = .ok de')
    (k : ScalarKey) (hk : k ≠ .cargoNewVcs) (v : Val Atom) (hv : k.get de' = some v) : Definition.HasRoot v.defn := by
  rw [C20_scalar hd ha k hk] at hv
  unfold ScalarKey.withEnv at hv
  have old : k.get de = some v → Definition.HasRoot v.defn := by
    intro hv
    obtain ⟨p, hp, hdef, _⟩ := C11_scalar hparse hl k v hv
    intro f hf
    rw [hdef] at hf
    rcases hf with hf | hf
    · cases hf; exact walk_grandparent hp hh
    · cases hf
  split at hv
  · rename_i n a _
    cases a with
    | none => cases hv
    | some a =>
      cases hv
      intro f hf
      rcases hf with hf | hf <;> cases hf
  · exact old hv

/-- The same for the elements of lists and commands. -/
theorem list_hasRoot {de' : Config} (hparse : ∀ s c, parse s = .ok c → c.WF) (hl : loadConfig fs parse cwd home = .ok de)
    (hh : ∀ h, home = some h → Path.parent h ≠ none) {env : Env} (hd : DistinctKeys env) (ha : de.applyEnv env = .ok de')
    (k : ListKey ⊕ ProgKey) (r : Repr') (l : List (Val Str))
    (hv : k.elim (fun k => k.get de') (fun k => k.get de') = some (r, l)) (v : Val Str) (hm : v ∈ l) :
    Definition.HasRoot v.defn := by
  have old : k.elim (fun k => k.get de) (fun k => k.get de) = some (r, l) → Definition.HasRoot v.defn := by
    intro hv
    obtain ⟨p, hp, hdef, _⟩ := C11_elements hparse hl k r l hv v hm
    intro f hf
    rw [hdef] at hf
    rcases hf with hf | hf
    · cases hf; exact walk_grandparent hp hh
    · cases hf
  have new : ∀ n (x : Repr' × List Str), some (listFromVar n x) = some (r, l) → Definition.HasRoot v.defn := by
    intro n x hx
    simp only [listFromVar, Option.some.injEq, Prod.mk.injEq] at hx
    obtain ⟨_, rfl⟩ := hx
    obtain ⟨w, _, rfl⟩ := List.mem_map.1 hm
    intro f hf
    rcases hf with hf | hf <;> cases hf
  cases k with
  | inl k =>
    simp only [Sum.elim_inl] at hv old
    rw [C20_list hd ha k] at hv
    unfold ListKey.withEnv at hv
    split at hv
    · exact new _ _ hv
    · exact old hv
  | inr k =>
    simp only [Sum.elim_inr] at hv old
    rw [C20_prog ha k] at hv
    unfold ProgKey.withEnv at hv
    cases ho : k.get de with
    | some x => rw [ho] at hv old; exact old hv
    | none =>
      rw [ho] at hv
      dsimp only at hv
      split at hv
      · exact new _ _ hv
      · cases hv

/-- C14 for a loaded config. -/
theorem C14_from_unresolved_partial (hparse : ∀ s c, parse s = .ok c → c.WF) (hl : loadConfig fs parse cwd home = .ok de)
    (hd : DistinctKeys cx.env) (hh : ∀ h, home = some h → Path.parent h ≠ none)
    (ht : ∀ de' r l, de.applyEnv cx.env = .ok de' → ListKey.buildTarget.get de' = some (r, l) →
      ∀ v ∈ l, '/' ∈ v.val → ∃ f, EndsInFile v.val f) :
    EConfig.fromUnresolved de cx ≠ .panic := by
  unfold EConfig.fromUnresolved
  refine Res.bind_ne_panic C23_no_panic fun de' ha => ?_
  have hs : ∀ (k : ScalarKey), k ≠ .cargoNewVcs → ∀ {o : Option (Val Str)}, k.get de' = o.map (Val.map .str) → ∀ v, o = some v →
      Definition.HasRoot v.defn := by
    intro k hk o hko v hv
    rw [hv] at hko
    exact scalar_hasRoot hparse hl hh hd ha k hk _ hko
  have hp : ∀ (k : ScalarKey), k ≠ .cargoNewVcs → ∀ {o : Option (Val Str)}, k.get de' = o.map (Val.map .str) →
      ∃ y, Res.mapOpt (fun v : Val Str => v.resolveAsProgramPath cx.currentDir) o = .ok y := fun k hk o hko =>
    mapOpt_noPanic fun v hv => resolveAsProgramPath_noPanic (hs k hk hko v hv) _
  have hq : ∀ (k : ScalarKey), k ≠ .cargoNewVcs → ∀ {o : Option (Val Str)}, k.get de' = o.map (Val.map .str) →
      ∃ y, Res.mapOpt (fun v : Val Str => v.resolveAsPath cx.currentDir) o = .ok y := fun k hk o hko =>
    mapOpt_noPanic fun v hv => resolveAsPath_noPanic (hs k hk hko v hv) _
  have hb : ∃ b, EBuild.fromUnresolved cx.currentDir de'.build = .ok b := by
    obtain ⟨x1, h1⟩ := hp .buildRustc (by decide) (o := de'.build.rustc) rfl
    obtain ⟨x2, h2⟩ := hp .buildRustcWrapper (by decide) (o := de'.build.rustcWrapper) rfl
    obtain ⟨x3, h3⟩ := hp .buildRustcWorkspaceWrapper (by decide) (o := de'.build.rustcWorkspaceWrapper) rfl
    obtain ⟨x4, h4⟩ := hp .buildRustdoc (by decide) (o := de'.build.rustdoc) rfl
    obtain ⟨x6, h6⟩ := hq .buildTargetDir (by decide) (o := de'.build.targetDir) rfl
    obtain ⟨x7, h7⟩ := hq .buildDepInfoBasedir (by decide) (o := de'.build.depInfoBasedir) rfl
    have h5 : ∃ x5, Res.mapOpt (fun t : StringOrArray =>
        Res.mapList (fun v : Val Str => TargetTriple.new v.val v.defn (some cx.currentDir)) t.asArrayNoSplit) de'.build.target
          = .ok x5 := by
      refine mapOpt_noPanic fun t htt => mapList_noPanic fun v hv => ?_
      have hg : ∃ r, ListKey.buildTarget.get de' = some (r, t.asArrayNoSplit) := by
        unfold ListKey.get
        rw [htt]
        cases t with
        | string s => exact ⟨_, rfl⟩
        | array l => exact ⟨_, rfl⟩
      obtain ⟨r, hg⟩ := hg
      exact target_noPanic (list_hasRoot hparse hl hh hd ha (.inl .buildTarget) r _ hg v hv) (ht de' r _ ha hg v hv) _
    obtain ⟨x5, h5⟩ := h5
    unfold EBuild.fromUnresolved
    rw [h1, h2, h3, h4, h5, h6, h7]
    exact ⟨_, rfl⟩
  have hdoc : ∃ d, EDoc.fromUnresolved cx.currentDir de'.doc = .ok d := by
    have : ∃ x, Res.mapOpt (EPathAndArgs.fromUnresolved cx.currentDir) de'.doc.browser = .ok x := by
      refine mapOpt_noPanic fun x hx => prog_noPanic ?_ _
      exact list_hasRoot hparse hl hh hd ha (.inr .docBrowser) x.repr (x.path :: x.args)
        (by simp only [Sum.elim_inr, ProgKey.get, hx, Option.map_some]) x.path (by simp)
    obtain ⟨x, hx⟩ := this
    unfold EDoc.fromUnresolved
    rw [hx]
    exact ⟨_, rfl⟩
  have henv : ∃ e, Res.mapVals (EEnvValue.fromUnresolved cx.currentDir) de'.env = .ok e := by
    refine mapVals_noPanic fun e he => ?_
    obtain ⟨k, x⟩ := e
    cases x with
    | value v => exact ⟨_, rfl⟩
    | table v f r =>
      unfold EEnvValue.fromUnresolved
      dsimp only
      split
      · have hget : de'.env.get k = some (.table v f r) := by
          rw [(C25_local ha).1] at he ⊢
          exact BMap.get_of_mem (load_wf hparse hl).env he
        have hroot := hs (.envValue k) (by simp) (o := some v) (by simp [ScalarKey.get, hget, EnvConfigValue.theValue]) v rfl
        cases hdf : v.defn with
        | none => simp only [EnvConfigValue.resolve, hdf]; rename_i h; rw [h]; exact ⟨_, rfl⟩
        | some d =>
          rw [hdf] at hroot
          obtain ⟨b, hb⟩ := HasRoot.root hroot cx.currentDir
          rename_i h
          simp only [EnvConfigValue.resolve, hdf, h, hb, Res.unwrap, Res.ok_bind]
          exact ⟨_, rfl⟩
      · exact ⟨_, rfl⟩
  obtain ⟨b, hb⟩ := hb
  obtain ⟨d, hd'⟩ := hdoc
  obtain ⟨e, he⟩ := henv
  rw [hb, hd', he]
  intro hx
  cases hx

theorem parent_none_iff {h : Path} : Path.parent h = none ↔ Path.components h = [] ∨ Path.components h = [.root] := by
  rcases List.eq_nil_or_concat (Path.kept h) with hk | ⟨ks, k, hk⟩
  · rw [Path.parent_of_kept_nil h hk]
    unfold Path.components
    rw [hk]
    unfold Path.lead
    split
    · simp
    · split <;> simp
  · rw [List.concat_eq_append] at hk
    obtain ⟨x, hx, _⟩ := Path.parent_of_kept h ks k hk
    rw [hx]
    unfold Path.components
    rw [hk]
    simp only [reduceCtorEq, false_iff, List.map_append, List.map_cons, List.map_nil]
    rintro (h | h)
    · simp at h
    · have h1 := congrArg List.getLast? h
      simp only [List.getLast?_append, List.getLast?_singleton, Option.some_or] at h1
      unfold Path.toComp at h1
      split at h1 <;> simp at h1

/-- C14: loading never panics.  Missing: the case that `CARGO_HOME` is the root directory or the empty path, and that a target in
`build.target` contains a slash but does not end in a file name (both panic: `C14_home_fails`, `C14_target_fails`).  `home` is the
directory used as `CARGO_HOME` (see C04). -/
theorem C14_no_panic_partial (p : ProcEnv) (o : Options) (hparse : ∀ s c, parse s = .ok c → c.WF)
    (hr : ∀ f, fs.read f ≠ .panic) (hpp : ∀ s, parse s ≠ .panic) (hd : ∀ e, o.env = some e → DistinctKeys e)
    (hh : ∀ h, home = some h → Path.components h ≠ [] ∧ Path.components h ≠ [.root])
    (ht : ∀ de de' r l, loadConfig fs parse cwd home = .ok de →
      de.applyEnv ((o.withCargoHome home).intoContext p cwd).1.env = .ok de' → ListKey.buildTarget.get de' = some (r, l) →
      ∀ v ∈ l, '/' ∈ v.val → ∃ f, EndsInFile v.val f) :
    EConfig.loadWithOptions p fs parse cwd (o.withCargoHome home) ≠ .panic := by
  rw [C04_option]
  refine Res.bind_ne_panic (C12_no_panic hr hpp) fun de hl => ?_
  refine Res.bind_ne_panic ?_ fun c _ h => by cases h
  refine C14_from_unresolved_partial hparse hl ?_ ?_ (fun de' r l => ht de de' r l hl)
  · unfold Options.intoContext
    cases he : o.env with
    | none =>
      simp only [Options.withCargoHome, he, Option.isNone_none, if_true, Options.withEnv, Option.getD_some]
      exact C18_map _
    | some e =>
      simp only [Options.withCargoHome, he, Option.isNone_some, Bool.false_eq_true, if_false, Option.getD_some]
      exact hd e he
  · intro h hm hp
    rw [parent_none_iff] at hp
    rcases hp with hp | hp
    · exact (hh h hm).1 hp
    · exact (hh h hm).2 hp

/-- A file system with one config file, `f`, and a parser that gives `c` for every text. -/
def oneFile (f : Path) : Fs := { ex := fun p => p = f, read := fun p => if p = f then .ok [] else .err (.io []) }

/-- C14 is false as stated: with `CARGO_HOME=/` and `build.rustc = "bin/rustc"` in `/config`, loading panics. -/
theorem C14_home_fails : EConfig.loadWithOptions { vars := [(.unicode "CARGO_HOME".toList, .unicode "/".toList)] }
    (oneFile "/config".toList) (fun _ => .ok { build := { rustc := some ⟨"bin/rustc".toList, none⟩ } }) "/w".toList {} = .panic := by
  rfl

/-- C14 is false as stated: with `build.target = "targets/.."` loading panics. -/
theorem C14_target_fails : EConfig.loadWithOptions {}
    (oneFile "/w/.cargo/config".toList) (fun _ => .ok { build := { target := some (.string ⟨"targets/..".toList, none⟩) } })
      "/w".toList {} = .panic := by
  rfl

/-- The sample files meet the hypotheses of `C14_no_panic_partial`. -/
example : (∀ f, sampleFs.read f ≠ .panic) ∧ (∀ s, sampleParse s ≠ .panic) ∧
    (Path.components "/root/.cargo".toList ≠ [] ∧ Path.components "/root/.cargo".toList ≠ [.root]) := by
  refine ⟨?_, ?_, by decide⟩
  · intro p; simp only [sampleFs]; split
    · simp
    · split <;> simp
  · intro s; unfold sampleParse; split
    · simp
    · split <;> simp

/-- The statements about a config with a program, a directory and a linker in files. -/
example : ∃ c, EConfig.fromUnresolved
      { build := { rustc := some ⟨"bin/rustc".toList, some (.path "/w/.cargo/config.toml".toList)⟩
                   targetDir := some ⟨"t".toList, some (.environment "CARGO_TARGET_DIR".toList)⟩ } }
      { env := [], cargo := .unicode "cargo".toList, currentDir := "/w/x".toList } = .ok c ∧
    c.build.rustc = some "/w/bin/rustc".toList ∧ c.build.targetDir = some "/w/x/t".toList := ⟨_, rfl, by decide +kernel, by decide +kernel⟩

example : ∃ e, ETarget.fromUnresolved "/w/x".toList { linker := some ⟨"bin/ld".toList, some (.path "/w/.cargo/config.toml".toList)⟩ } = .ok e ∧
    OptionRel (ProgramPath "/w/x".toList) (some ⟨"bin/ld".toList, some (.path "/w/.cargo/config.toml".toList)⟩) e.linker :=
  ⟨_, rfl, (C13_target (cwd := "/w/x".toList)
    (t := { linker := some ⟨"bin/ld".toList, some (.path "/w/.cargo/config.toml".toList)⟩ }) rfl).1⟩

/-- Loading the sample files with `CARGO_HOME=/root/.cargo`. -/
example : EConfig.loadWithOptions {} sampleFs sampleParse "/w/p".toList (({} : Options).withCargoHome (some "/root/.cargo".toList)) ≠ .panic := by
  refine C14_no_panic_partial {} {} sample_wf ?_ ?_ (fun e he => by cases he) (fun h hh => by cases hh; decide) ?_
  · intro p; simp only [sampleFs]; split
    · simp
    · split <;> simp
  · intro s; unfold sampleParse; split
    · simp
    · split <;> simp
  · intro de de' r l h1 h2 h3
    have h4 : ((loadConfig sampleFs sampleParse "/w/p".toList (some "/root/.cargo".toList)).toOption.bind fun de =>
        (de.applyEnv ((({} : Options).withCargoHome (some "/root/.cargo".toList)).intoContext {} "/w/p".toList).1.env).toOption.bind fun de' =>
          ListKey.buildTarget.get de') = none := by decide +kernel
    rw [h1] at h4
    simp only [Res.toOption, Option.bind_some] at h4
    rw [h2] at h4
    simp only [Option.bind_some] at h4
    rw [h3] at h4
    cases h4

end CC
