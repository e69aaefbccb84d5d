import Verif.Props.HandedOn
import Verif.Props.Rustc
import Verif.Lemmas.EasyPortable
/-
C102: the targets printed for the command line are read back as the configured targets.
-/
namespace CC

variable {p p' : ProcEnv} {fs fs' : Fs} {toml toml' : Str → Res Toml} {cwd cwd' : Path} {o o' : Options} {look look' : Str → Option OsStr}
  {home home' : Option Path} {docs docs' : List (Path × Toml)} {c c' : EConfig} {s s' : Cells}

theorem targetNamed_constructed {v : Val Str} {t : TargetTriple} (h : TargetNamed cwd v t) : Constructed t := by
  cases h with
  | triple s d h =>
    refine ⟨s, none, none, ?_⟩
    have : isSpecPath s = false := by
      cases hs : isSpecPath s with
      | false => rfl
      | true => exact absurd (isSpecPath_iff.1 hs) h
    unfold TargetTriple.new
    rw [this]
    rfl
  | spec s d' f stem base h1 h2 h3 h4 =>
    refine ⟨Path.join base s, none, none, ?_⟩
    have hn : (Path.fileName s).isSome = true := by rw [fileName_iff.2 h2]; rfl
    unfold TargetTriple.new
    rw [isSpecPath_join (isSpecPath_iff.2 h1) hn, fileStem_join hn, fileStem_iff.2 ⟨f, h2, h3⟩]
    rfl

/-- The configured targets of a loaded config are constructed. -/
theorem loads_constructed (h : Loads p fs toml cwd o look home docs c s) {l : List TargetTriple} (hl : c.build.target = some l) :
    ∀ t ∈ l, Constructed t := by
  intro t ht
  obtain ⟨y, -, h2⟩ := C57_build_target h
  rw [hl] at h2
  cases h2 with
  | @some a _ h3 =>
    obtain ⟨v, -, h5⟩ := listRel_right h3 ht
    exact targetNamed_constructed h5

theorem forCli_eq (t : TargetTriple) : forCli t = t.cliTarget := by
  obtain ⟨t, p⟩ := t
  cases p <;> rfl

theorem readBack_list {l : List TargetTriple} (h : ∀ t ∈ l, Constructed t) :
    ListRel (fun x t => TargetTriple.ofStr x = .ok t) (l.map forCli) l := by
  induction l with
  | nil => exact .nil
  | cons t l ih =>
    refine .cons ?_ (ih fun t ht => h t (List.mem_cons_of_mem _ ht))
    rw [forCli_eq]
    exact ofStr_cliTarget (h t List.mem_cons_self)

/-- A string that is read as a target with an absolute path, or none, names the same target wherever it is written. -/
theorem named_again {x : Str} {t t' : TargetTriple} {d : Option Definition} (h : TargetTriple.ofStr x = .ok t)
    (ha : ∀ q, t.specPath = some q → Absolute q) (g : TargetNamed cwd ⟨x, d⟩ t') : t' = t := by
  unfold TargetTriple.ofStr TargetTriple.new at h
  cases g with
  | triple _ _ h1 =>
    rw [if_neg fun hs => h1 (isSpecPath_iff.1 hs)] at h
    exact Res.ok.inj h
  | spec _ d f stem base h1 h2 h3 h4 =>
    rw [if_pos (isSpecPath_iff.2 h1), fileStem_iff.2 ⟨f, h2, h3⟩] at h
    have e : t = ⟨stem, some x⟩ := (Res.ok.inj h).symm
    subst e
    obtain ⟨r, rfl⟩ := ha x rfl
    rfl

/-- C102: if targets are configured, the strings for the command line are, one for one and in the same order, read as the targets that are
used for queries; neither runs or stores anything. -/
theorem C102_read_back (h : Loads p fs toml cwd o look home docs c s) {l : List TargetTriple} (hl : c.build.target = some l)
    (hn : l ≠ []) (w : World) (z : Cells) :
    ∃ strs, c.buildTargetForCli [] w z = (.ok strs, z) ∧ c.buildTargetForConfig [] w z = (.ok l, z) ∧
      ListRel (fun x t => TargetTriple.ofStr x = .ok t) strs l := by
  refine ⟨l.map forCli, (C49_cli c w z []).2.1 rfl l hl, ?_, readBack_list (loads_constructed h hl)⟩
  cases l with
  | nil => exact absurd rfl hn
  | cons t l => exact C49_configured hl w z

/-- C102, given back: the strings are accepted unchanged as given targets by every config, and so are the targets they are read as, so a
program that passes them on with `--target` leads to queries for the same targets there. -/
theorem C102_given_back (h : Loads p fs toml cwd o look home docs c s) {strs : List Str} (hn : strs ≠ []) {w : World} {z : Cells}
    (hs : c.buildTargetForCli [] w z = (.ok strs, z)) (d : EConfig) (w' : World) (z' : Cells) :
    d.buildTargetForCli strs w' z' = (.ok strs, z') ∧
    ∃ l, ListRel (fun x t => TargetTriple.ofStr x = .ok t) strs l ∧
      d.buildTargetForConfig l w' z' = (.ok l, z') ∧ c.buildTargetForConfig [] w z = (.ok l, z) := by
  refine ⟨(C49_cli d w' z' strs).1 hn, ?_⟩
  cases hl : c.build.target with
  | none =>
    rw [(C49_cli c w z []).2.2 rfl hl] at hs
    cases hs
    exact absurd rfl hn
  | some l =>
    have hl' : l ≠ [] := by
      rintro rfl
      rw [(C49_cli c w z []).2.1 rfl _ hl] at hs
      cases hs
      exact hn rfl
    obtain ⟨strs', h1, h2, h3⟩ := C102_read_back h hl hl' w z
    rw [hs] at h1
    cases h1
    exact ⟨l, h3, C49_given d w' z' hl', h2⟩

/-- C102, through the environment: if the only string for the command line is put into `CARGO_BUILD_TARGET`, a config loaded with that
environment in whatever directory has the same configured target, also if it is a spec file. -/
theorem C102_environment (h : Loads p fs toml cwd o look home docs c s) (hc : Absolute cwd)
    (hh : ∀ h, home = some h → Absolute h ∧ Path.components h ≠ [.root]) {x : Str} {w : World} {z : Cells}
    (hx : c.buildTargetForCli [] w z = (.ok [x], z)) (h' : Loads p' fs' toml' cwd' o' look' home' docs' c' s')
    (he : look' "CARGO_BUILD_TARGET".toList = some (.unicode x)) :
    c'.build.target = c.build.target := by
  cases hl : c.build.target with
  | none => rw [(C49_cli c w z []).2.2 rfl hl] at hx; cases hx
  | some l =>
    rw [(C49_cli c w z []).2.1 rfl _ hl] at hx
    have hp := (loads_portable h hc hh).targets l hl
    match l, hx, hp with
    | [t], hx, hp =>
      have e : forCli t = x := by cases hx; rfl
      obtain ⟨h1, h2⟩ := hp t List.mem_cons_self
      have h3 := ofStr_cliTarget h1
      rw [← forCli_eq, e] at h3
      obtain ⟨y, hy, g⟩ := C57_build_target h'
      obtain ⟨n, r, rfl⟩ := list_inEnv (k := .buildTarget) (ws := [x])
        ⟨"CARGO_BUILD_TARGET".toList, .string, by simp only [ListKey.sources, readEnv, he]; rfl⟩ hy
      generalize c'.build.target = v at *
      cases g with
      | some g => cases g with
        | cons g gs =>
          cases gs
          rw [named_again h3 (fun q hq => h2 q hq) g]

/-! ### Samples -/

/-- A process with `CARGO_BUILD_TARGET` set. -/
def cliTargetProc (x : String) : ProcEnv := ⟨[(.unicode "CARGO_BUILD_TARGET".toList, .unicode x.toList)], none⟩

/-- In `/w/p` a relative path to a spec file is configured. -/
theorem sampleCli_first : ∃ look docs c s,
    Loads (cliTargetProc "t/a.json") statingFs (fun _ => .ok statingDoc) "/w/p".toList { cargoHome := some none } look none docs c s ∧
    c.build.target = some [⟨"a".toList, some "/w/p/t/a.json".toList⟩] := by
  obtain ⟨look, home, docs, c, s, h⟩ := sample_stating_load (p := cliTargetProc "t/a.json")
    (fs := statingFs) (cwd := "/w/p".toList) (o := { cargoHome := some none }) sample_stating_distinct rfl (by decide +kernel)
  have e1 : home = none := h.home
  subst e1
  refine ⟨look, docs, c, s, h, ?_⟩
  have e : (EConfig.loadWithOptions (cliTargetProc "t/a.json") statingFs (fun s => (fun _ => Res.ok statingDoc : Str → Res Toml) s >>= Config.de) "/w/p".toList
      { cargoHome := some none }).toOption.map (fun x => x.1.build.target) =
        some (some [⟨"a".toList, some "/w/p/t/a.json".toList⟩]) := by decide +kernel
  rw [h.loaded] at e
  exact Option.some.inj e

/-- It is printed as an absolute path, which is read as the same target. -/
example (w : World) (z : Cells) : ∃ look docs c s,
    Loads (cliTargetProc "t/a.json") statingFs (fun _ => .ok statingDoc) "/w/p".toList { cargoHome := some none } look none docs c s ∧
    ∃ strs, c.buildTargetForCli [] w z = (.ok strs, z) ∧
      c.buildTargetForConfig [] w z = (.ok [⟨"a".toList, some "/w/p/t/a.json".toList⟩], z) ∧
      ListRel (fun x t => TargetTriple.ofStr x = .ok t) strs [⟨"a".toList, some "/w/p/t/a.json".toList⟩] := by
  obtain ⟨look, docs, c, s, h, hl⟩ := sampleCli_first
  exact ⟨look, docs, c, s, h, C102_read_back h hl (by simp) w z⟩

/-- Given to another config. -/
example (d : EConfig) (w w' : World) (z z' : Cells) : ∃ c : EConfig,
    c.buildTargetForCli [] w z = (.ok ["/w/p/t/a.json".toList], z) ∧
    ∃ l, ListRel (fun x t => TargetTriple.ofStr x = .ok t) ["/w/p/t/a.json".toList] l ∧
      d.buildTargetForConfig l w' z' = (.ok l, z') ∧ c.buildTargetForConfig [] w z = (.ok l, z) := by
  obtain ⟨look, docs, c, s, h, hl⟩ := sampleCli_first
  have hs : c.buildTargetForCli [] w z = (.ok ["/w/p/t/a.json".toList], z) := (C49_cli c w z []).2.1 rfl _ hl
  exact ⟨c, hs, (C102_given_back h (by simp) hs d w' z').2⟩

/-- Handed on to a process in another directory. -/
example : ∃ look docs c s,
    Loads (cliTargetProc "/w/p/t/a.json") statingFs (fun _ => .ok statingDoc) "/x".toList { cargoHome := some none } look none docs c s ∧
    c.build.target = some [⟨"a".toList, some "/w/p/t/a.json".toList⟩] := by
  obtain ⟨look, home, docs, c, s, h⟩ := sample_stating_load (p := cliTargetProc "/w/p/t/a.json")
    (fs := statingFs) (cwd := "/x".toList) (o := { cargoHome := some none }) sample_stating_distinct rfl (by decide +kernel)
  have e1 : home = none := h.home
  subst e1
  have e4 := env_unique h.env (cwd := []) rfl
  subst e4
  obtain ⟨_, _, c1, s1, h1, hl⟩ := sampleCli_first
  exact ⟨_, docs, c, s, h, (C102_environment h1 ⟨_, rfl⟩ (fun _ hh => by cases hh) (w := usualWorld) (z := {}) (x := "/w/p/t/a.json".toList)
    ((C49_cli c1 _ _ []).2.1 rfl _ hl) h rfl).trans hl⟩

end CC
