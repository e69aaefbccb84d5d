import Verif.Lemmas.OneFile
import Verif.Lemmas.EnvOrFile
import Verif.Props.EnvOrFile
/-
A hierarchy of config files can be replaced by one file: C94.
-/
namespace CC

variable {fs fs' : Fs} {toml toml' : Str → Res Toml} {cwd cwd' : Path} {home home' : Option Path} {f : Path} {de : Config}

/-- C94, the raw config: whatever the config files are, if the merged config is written to a file and that is the only config file
of another place, loading succeeds there, with the same values of all settings, which are said to be in this file.  Only the spelling of
flags can differ.  Written again the document is the same. -/
theorem C94_raw (h : loadConfig fs (fun s => toml s >>= Config.de) cwd home = .ok de)
    (hd : DocumentsOf fs' toml' cwd' home' [(f, de.ser)]) :
    ∃ de', loadConfig fs' (fun s => toml' s >>= Config.de) cwd' home' = .ok de' ∧
      (∀ k : ScalarKey, k.get de' = (k.get de).map fun v => ⟨v.val, some (.path f)⟩) ∧
      (∀ k : ListKey, k.get de' = (k.get de).map fun x =>
        (if k.isFlags then .array else x.1, x.2.map fun v => ⟨v.val, some (.path f)⟩)) ∧
      (∀ k : ProgKey, k.get de' = (k.get de).map fun x => (x.1, x.2.map fun v => ⟨v.val, some (.path f)⟩)) ∧
      (∀ k : TableKey, k.present de' = k.present de) ∧ (∀ k, envShape de' k = envShape de k) ∧ de'.ser = de.ser := by
  refine ⟨_, load_written (loaded_readable h) hd, fun k => ?_, fun k => ?_, fun k => ?_, fun k => ?_, fun k => ?_, ?_⟩
  · rw [scalar_setPath, foundIn_congr (scalar_bare de k)]
    rfl
  · rw [list_setPath, allFoundIn_texts, list_bare, Option.map_map]
    simp [Function.comp_def]
  · rw [prog_setPath, allFoundIn_texts, prog_bare, Option.map_map]
    simp [Function.comp_def, listTexts]
  · rw [present_setPath, entry_bare]
  · rw [envShape_setPath, envShape_bare]
  · rw [Config.ser_setPath, Config.ser_bare]

/-- C94, the resolved config: loaded with the same variables, all settings that are no paths are the same as before. -/
theorem C94_resolved {p p' : ProcEnv} {o o' : Options} {c c' : EConfig} {s s' : Cells} {look : Str → Option OsStr}
    {docs : List (Path × Toml)} (h : Loads p fs toml cwd o look home docs c s)
    (hr : loadConfig fs (fun s => toml s >>= Config.de) cwd home = .ok de)
    (hd : DocumentsOf fs' toml' cwd' home' [(f, de.ser)]) (hh : HomeOf p' o' cwd' home') (he : EnvOf p' o' look)
    (hm : ∀ e, o'.env = some e → DistinctKeys e)
    (h' : EConfig.loadWithOptions p' fs' (fun s => toml' s >>= Config.de) cwd' o' = .ok (c', s')) :
    (∀ (k : ScalarKey) x, k.plain c = some x → k.plain c' = some x) ∧
    (∀ (k : ListKey) x, k.plain c = some x → k.plain c' = some x) := by
  obtain ⟨d1, cx, g2, g3, g4, g5⟩ := loaded_raw h.map h.loaded h.env h.home
  obtain ⟨d2, cx', k2, k3, k4, k5⟩ := loaded_raw hm h' he hh
  cases Res.ok.inj (hr.symm.trans g5)
  obtain ⟨d3, e1, e2, e3, -⟩ := C94_raw hr hd
  cases Res.ok.inj (k5.symm.trans e1)
  obtain ⟨a1, b1, b2, b3⟩ := plain_scalar g4
  obtain ⟨a2, b4, b5, b6⟩ := plain_scalar k4
  constructor
  · intro k x hx
    have hy : ∃ y, k.plain c' = some y := by cases k <;> first | exact ⟨_, rfl⟩ | cases hx
    obtain ⟨y, hy⟩ := hy
    rw [hy, b2 k x hx, b5 k y hy]
    congr 1
    by_cases hk : k = .cargoNewVcs
    · have e := congrArg (Option.map Val.val) (e2 k)
      rw [Option.map_map] at e
      subst hk
      simp only [ScalarKey.get] at e ⊢
      rw [C24_cargo_new_vcs_ignored b1, C24_cargo_new_vcs_ignored b4, e]
      rfl
    · rw [C20_scalar g2 b1 k hk, C20_scalar k2 b4 k hk, g3, k3, e2 k]
      unfold ScalarKey.withEnv
      split
      · rfl
      · rw [Option.map_map]; rfl
  · intro k x hx
    have hy : ∃ y, k.plain c' = some y := by cases k <;> first | exact ⟨_, rfl⟩ | cases hx
    obtain ⟨y, hy⟩ := hy
    rw [hy, b3 k x hx, b6 k y hy]
    congr 1
    rw [C20_list g2 b1 k, C20_list k2 b4 k, g3, k3, e3 k]
    unfold ListKey.withEnv
    split
    · rfl
    · rw [Option.map_map]; simp [Function.comp_def]

/-! ### a sample -/

theorem sample_one_documents (t : Toml) :
    DocumentsOf statingFs (fun _ => .ok t) "/w/p".toList none [("/w/p/.cargo/config".toList, t)] := by
  obtain ⟨dirs, d1, d2⟩ := C01_walk statingFs.ex "/w/p".toList none
  refine ⟨dirs, d1, ?_, fun f t h => ?_⟩
  · have : walk statingFs.ex "/w/p".toList none = ["/w/p/.cargo/config".toList] := by decide +kernel
    rw [this] at d2
    exact d2
  · simp only [List.mem_cons, List.not_mem_nil, or_false, Prod.mk.injEq] at h
    obtain ⟨rfl, rfl⟩ := h
    exact ⟨[], by simp only [statingFs, if_pos], rfl⟩

/-- The two files of the sample of C57 written to one: the flags of both, the jobs of the nearer one, and the timeout of the variable. -/
example : ∃ look docs c s de c' s',
    Loads sampleProc sampleFs sampleToml "/w/p".toList { cargoHome := some none } look none docs c s ∧
    loadConfig sampleFs (fun s => sampleToml s >>= Config.de) "/w/p".toList none = .ok de ∧
    EConfig.loadWithOptions sampleProc statingFs (fun _ => .ok de.ser >>= Config.de) "/w/p".toList { cargoHome := some none } = .ok (c', s') ∧
    c'.build.jobs = c.build.jobs ∧ c.build.jobs = some 4 ∧ c'.http.timeout = c.http.timeout ∧
    c'.build.rustflags.map (·.flags) = c.build.rustflags.map (·.flags) := by
  have hk : (match EConfig.loadWithOptions sampleProc sampleFs (fun s => sampleToml s >>= Config.de) "/w/p".toList { cargoHome := some none },
        loadConfig sampleFs (fun s => sampleToml s >>= Config.de) "/w/p".toList none with
      | .ok (c, _), .ok de => decide (c.build.jobs = some 4) &&
        (EConfig.loadWithOptions sampleProc statingFs (fun _ => .ok de.ser >>= Config.de) "/w/p".toList { cargoHome := some none }).isOk
      | _, _ => false) = true := by decide +kernel
  cases h1 : EConfig.loadWithOptions sampleProc sampleFs (fun s => sampleToml s >>= Config.de) "/w/p".toList { cargoHome := some none } with
  | ok r =>
    obtain ⟨c, s⟩ := r
    cases h2 : loadConfig sampleFs (fun s => sampleToml s >>= Config.de) "/w/p".toList none with
    | ok de =>
      rw [h1, h2] at hk
      simp only [Bool.and_eq_true, decide_eq_true_eq] at hk
      cases h3 : EConfig.loadWithOptions sampleProc statingFs (fun _ => .ok de.ser >>= Config.de) "/w/p".toList
          { cargoHome := some none } with
      | ok r' =>
        obtain ⟨c', s'⟩ := r'
        obtain ⟨look, home, docs, hl, _⟩ := C57_determined sampleToml_distinct (fun e he => by cases he) h1
        have e1 : home = none := hl.home
        subst e1
        obtain ⟨k1, k2⟩ := C94_resolved hl h2 (toml' := fun _ => .ok de.ser) (sample_one_documents _) (o' := { cargoHome := some none }) rfl
          (p' := sampleProc) hl.env (fun e he => by cases he) h3
        refine ⟨look, docs, c, s, de, c', s', hl, rfl, h3, ?_, hk.1, ?_, ?_⟩
        · exact optMap_inj (fun _ _ e => Atom.int.inj e) (Option.some.inj (k1 .buildJobs _ rfl))
        · exact optMap_inj (fun _ _ e => Atom.nat.inj e) (Option.some.inj (k1 .httpTimeout _ rfl))
        · exact Option.some.inj (k2 .buildRustflags _ rfl)
      | err e => rw [h3] at hk; exact absurd hk.2 (by simp [Res.isOk])
      | panic => rw [h3] at hk; exact absurd hk.2 (by simp [Res.isOk])
    | err e => rw [h1, h2] at hk; cases hk
    | panic => rw [h1, h2] at hk; cases hk
  | err e => rw [h1] at hk; cases hk
  | panic => rw [h1] at hk; cases hk

end CC
