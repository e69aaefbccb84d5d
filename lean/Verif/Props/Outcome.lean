import Verif.Lemmas.Outcome
import Verif.Props.EndToEnd
/-
When loading succeeds, fails and panics: C66.

`toml` stands for the TOML parser; it is assumed that the tables of the documents it returns have distinct keys and, for the theorems
about errors and panics, that neither it nor reading a file panics.
-/
namespace CC

variable {p : ProcEnv} {fs : Fs} {toml : Str → Res Toml} {cwd : Path} {o : Options} {look : Str → Option OsStr} {home : Option Path}

/-- Loading in terms of the context. -/
theorem load_steps (hh : HomeOf p o cwd home) (parse : Str → Res Config) : EConfig.loadWithOptions p fs parse cwd o =
    (loadConfig fs parse cwd home >>= fun de => EConfig.fromUnresolved de (o.intoContext p cwd).1 >>= fun c =>
      .ok (c, ((o.withCargoHome home).intoContext p cwd).2)) := by
  rw [load_home hh, C04_option, intoContext_home]

/-- With good documents and variables, the outcome is decided by whether all paths can be located. -/
theorem load_decides (ht : ∀ s t, toml s = .ok t → t.DistinctKeys) (hm : ∀ e, o.env = some e → DistinctKeys e)
    (hh : HomeOf p o cwd home) (he : EnvOf p o look) {docs : List (Path × Toml)} (hdocs : DocumentsOf fs toml cwd home docs)
    (hg : DocsGood docs) (hv : VarsGood look docs) :
    Decides (Resolvable look docs) (EConfig.loadWithOptions p fs (fun s => toml s >>= Config.de) cwd o) := by
  rw [load_steps hh]
  obtain ⟨de, hl⟩ := load_of_docs ht hdocs hg
  obtain ⟨docs', raws, h1, _, hf, hr⟩ := load_unpack ht hl
  cases documents_unique h1 hdocs
  have hd := env_distinct (p := p) (cwd := cwd) hm
  have hlook : Env.get (o.intoContext p cwd).1.env = look := env_unique he rfl
  rw [← hlook] at hv ⊢
  obtain ⟨de', ha⟩ := (applyEnv_iff hl hf hr hd).2 hv
  rw [hl, Res.ok_bind]
  have hs : de'.env.Sorted := by
    rw [(C25_local ha).1]
    exact (load_wf (fun s c => toml_wf s c) hl).env
  have hloc : ∀ r l, ListKey.buildTarget.get de' = some (r, l) → ∀ v ∈ l, v.defn ≠ none :=
    listSource_located (source_list hl hf hr hd ha .buildTarget)
  refine ((decides_resolved ha hs hloc).bind fun _ _ => decides_ok _).congr ?_
  rw [placed_iff hl hf hr hd ha, and_true]

/-- Otherwise loading does not get that far. -/
theorem load_early (ht : ∀ s t, toml s = .ok t → t.DistinctKeys) (hm : ∀ e, o.env = some e → DistinctKeys e)
    (hh : HomeOf p o cwd home) (he : EnvOf p o look)
    (h : ¬ ∃ docs, DocumentsOf fs toml cwd home docs ∧ DocsGood docs ∧ VarsGood look docs) :
    (∀ x, EConfig.loadWithOptions p fs (fun s => toml s >>= Config.de) cwd o ≠ .ok x) ∧
    ((∀ f, fs.read f ≠ .panic) → (∀ s, toml s ≠ .panic) →
      EConfig.loadWithOptions p fs (fun s => toml s >>= Config.de) cwd o ≠ .panic) := by
  rw [load_steps hh]
  cases hl : loadConfig fs (fun s => toml s >>= Config.de) cwd home with
  | err e => exact ⟨fun x hx => (by cases hx), fun _ _ hx => (by cases hx)⟩
  | panic =>
    refine ⟨fun x hx => (by cases hx), fun h1 h2 => ?_⟩
    exact absurd hl (C12_no_panic h1 fun s => Res.bind_ne_panic (h2 s) fun t _ => Config.de_ne_panic t)
  | ok de =>
    rw [Res.ok_bind]
    obtain ⟨docs, raws, h1, hg, hf, hr⟩ := load_unpack ht hl
    have hd := env_distinct (p := p) (cwd := cwd) hm
    have hlook : Env.get (o.intoContext p cwd).1.env = look := env_unique he rfl
    have hv : ¬ ∃ de', de.applyEnv (o.intoContext p cwd).1.env = .ok de' := by
      rw [applyEnv_iff hl hf hr hd, hlook]
      exact fun hv => h ⟨docs, h1, hg, hv⟩
    have hnp := C23_no_panic (c := de) (env := (o.intoContext p cwd).1.env)
    unfold EConfig.fromUnresolved
    generalize de.applyEnv (o.intoContext p cwd).1.env = r at hv hnp
    cases r with
    | ok a => exact absurd ⟨a, rfl⟩ hv
    | err e => exact ⟨fun x hx => (by cases hx), fun _ _ hx => (by cases hx)⟩
    | panic => exact absurd rfl hnp

/-- C66: loading succeeds exactly if all config files that apply can be read as TOML documents, the documents are configs and agree in
how they write what can be written in two ways, no variable that counts is malformed, and all paths can be located. -/
theorem C66_succeeds_iff (ht : ∀ s t, toml s = .ok t → t.DistinctKeys) (hm : ∀ e, o.env = some e → DistinctKeys e)
    (hh : HomeOf p o cwd home) (he : EnvOf p o look) :
    (∃ c s, EConfig.loadWithOptions p fs (fun s => toml s >>= Config.de) cwd o = .ok (c, s)) ↔
      ∃ docs, DocumentsOf fs toml cwd home docs ∧ DocsGood docs ∧ VarsGood look docs ∧ Resolvable look docs := by
  constructor
  · rintro ⟨c, s, h⟩
    by_cases hx : ∃ docs, DocumentsOf fs toml cwd home docs ∧ DocsGood docs ∧ VarsGood look docs
    · obtain ⟨docs, h1, h2, h3⟩ := hx
      exact ⟨docs, h1, h2, h3, (load_decides ht hm hh he h1 h2 h3).ok_iff.1 ⟨_, h⟩⟩
    · exact absurd h ((load_early ht hm hh he hx).1 _)
  · rintro ⟨docs, h1, h2, h3, h4⟩
    obtain ⟨⟨c, s⟩, h⟩ := (load_decides ht hm hh he h1 h2 h3).ok_iff.2 h4
    exact ⟨c, s, h⟩

/-- C66: loading panics exactly if everything else is in order and some path cannot be located. -/
theorem C66_panics_iff (ht : ∀ s t, toml s = .ok t → t.DistinctKeys) (hm : ∀ e, o.env = some e → DistinctKeys e)
    (hh : HomeOf p o cwd home) (he : EnvOf p o look) (hr : ∀ f, fs.read f ≠ .panic) (hp : ∀ s, toml s ≠ .panic) :
    EConfig.loadWithOptions p fs (fun s => toml s >>= Config.de) cwd o = .panic ↔
      ∃ docs, DocumentsOf fs toml cwd home docs ∧ DocsGood docs ∧ VarsGood look docs ∧ ¬ Resolvable look docs := by
  constructor
  · intro h
    by_cases hx : ∃ docs, DocumentsOf fs toml cwd home docs ∧ DocsGood docs ∧ VarsGood look docs
    · obtain ⟨docs, h1, h2, h3⟩ := hx
      exact ⟨docs, h1, h2, h3, (load_decides ht hm hh he h1 h2 h3).panic_iff.1 h⟩
    · exact absurd h ((load_early ht hm hh he hx).2 hr hp)
  · rintro ⟨docs, h1, h2, h3, h4⟩
    exact (load_decides ht hm hh he h1 h2 h3).panic_iff.2 h4

/-- C66: loading is an error exactly if some config file cannot be read as a TOML document, or the documents or the variables are
not in order. -/
theorem C66_fails_iff (ht : ∀ s t, toml s = .ok t → t.DistinctKeys) (hm : ∀ e, o.env = some e → DistinctKeys e)
    (hh : HomeOf p o cwd home) (he : EnvOf p o look) (hr : ∀ f, fs.read f ≠ .panic) (hp : ∀ s, toml s ≠ .panic) :
    (∃ e, EConfig.loadWithOptions p fs (fun s => toml s >>= Config.de) cwd o = .err e) ↔
      ¬ ∃ docs, DocumentsOf fs toml cwd home docs ∧ DocsGood docs ∧ VarsGood look docs := by
  constructor
  · rintro ⟨e, h⟩ ⟨docs, h1, h2, h3⟩
    rcases load_decides ht hm hh he h1 h2 h3 with ⟨_, a, h4⟩ | ⟨_, h4⟩ <;> rw [h4] at h <;> cases h
  · intro hx
    obtain ⟨h1, h2⟩ := load_early ht hm hh he hx
    have h2 := h2 hr hp
    generalize EConfig.loadWithOptions p fs (fun s => toml s >>= Config.de) cwd o = r at h1 h2
    cases r with
    | ok a => exact absurd rfl (h1 a)
    | err e => exact ⟨e, rfl⟩
    | panic => exact absurd rfl h2

/-- Every config file has a base directory if `CARGO_HOME` is neither empty nor the root directory. -/
theorem docs_hasBase {docs : List (Path × Toml)} (hdocs : DocumentsOf fs toml cwd home docs)
    (hh : ∀ h, home = some h → Path.components h ≠ [] ∧ Path.components h ≠ [.root]) :
    ∀ x ∈ docs, HasBase (.path x.1) := by
  obtain ⟨dirs, d1, d2, _⟩ := hdocs
  obtain ⟨dirs', d1', d2'⟩ := C01_walk fs.ex cwd home
  have hw := C01_spec_functional _ _ _ _ _ _ _ d1' d1 d2' d2
  intro x hx
  have hm : x.1 ∈ walk fs.ex cwd home := by rw [hw]; exact List.mem_map_of_mem hx
  refine (grandparent_isSome_iff x.1).1 (walk_grandparent hm fun h e => ?_)
  rw [Ne, parent_none_iff]
  have := hh h e
  rintro (h1 | h1)
  · exact this.1 h1
  · exact this.2 h1

theorem scalar_hasBase {docs : List (Path × Toml)} (hb : ∀ x ∈ docs, HasBase (.path x.1)) {k : ScalarKey} {x : Toml} {d : Definition}
    (h : k.source look docs = some (x, d)) : HasBase d := by
  unfold ScalarKey.source at h
  split at h
  · rename_i n a _
    cases a with
    | none => cases h
    | some a => cases h; trivial
  · induction docs with
    | nil => cases h
    | cons y docs ih =>
      obtain ⟨f, t⟩ := y
      rw [List.map_cons] at h
      dsimp only at h
      cases hy : t.at (k.path t.envIsTable) with
      | none =>
        rw [hy] at h
        exact ih (fun x hx => hb x (List.mem_cons_of_mem _ hx)) h
      | some z =>
        rw [hy] at h
        cases h
        exact hb (f, t) List.mem_cons_self

theorem listsIn_hasBase {docs : List (Path × Toml)} (hb : ∀ x ∈ docs, HasBase (.path x.1)) {split : Bool} {path : List Str}
    {xs : List (Repr' × List (Val Str))} (h : ListsIn split path docs xs) : ∀ x ∈ xs, ∀ v ∈ x.2, ∀ d, v.defn = some d → HasBase d := by
  induction h with
  | nil => intro x hx; cases hx
  | unset _ _ ih => exact ih fun x hx => hb x (List.mem_cons_of_mem _ hx)
  | set _ _ _ ih =>
    intro x hx v hv d hd
    rcases List.mem_cons.1 hx with rfl | hx
    · obtain ⟨w, _, rfl⟩ := List.mem_map.1 hv
      cases hd
      exact hb _ List.mem_cons_self
    · exact ih (fun x hx => hb x (List.mem_cons_of_mem _ hx)) x hx v hv d hd

/-- C66: if `CARGO_HOME` is neither empty nor the root directory, all paths can be located unless `build.target` has a string that
names a target-spec file but does not end in a file name (like `a/..`). -/
theorem C66_resolvable_iff {docs : List (Path × Toml)} (hdocs : DocumentsOf fs toml cwd home docs)
    (hh : ∀ h, home = some h → Path.components h ≠ [] ∧ Path.components h ≠ [.root]) :
    Resolvable look docs ↔ ∀ r l, ListKey.buildTarget.Source look docs (some (r, l)) → ∀ v ∈ l, NamesSpecFile v.val →
      ∃ f, EndsInFile v.val f := by
  have hb := docs_hasBase hdocs hh
  have hlist : ∀ {k : ListKey} {r l}, k.Source look docs (some (r, l)) → ∀ v ∈ l, ∃ d, v.defn = some d ∧ HasBase d := by
    intro k r l h v hv
    have hne := listSource_located h r l rfl v hv
    obtain ⟨d, hd⟩ := Option.ne_none_iff_exists'.1 hne
    refine ⟨d, hd, ?_⟩
    unfold ListKey.Source at h
    split at h
    · cases h
      obtain ⟨w, _, rfl⟩ := List.mem_map.1 hv
      cases hd
      trivial
    · obtain ⟨xs, h1, h2⟩ := h
      have h3 := listsIn_hasBase hb h1
      cases h2 with
      | array _ _ =>
        obtain ⟨l, hl, hv⟩ := List.mem_flatten.1 hv
        obtain ⟨x, hx, rfl⟩ := List.mem_map.1 hl
        exact h3 x (List.mem_reverse.1 hx) v hv d hd
      | string _ => exact h3 (r, l) (by simp) v hv d hd
  have hprog : ∀ {k : ProgKey} {r l}, k.Source look docs (some (r, l)) → ∀ v ∈ l, ∀ d, v.defn = some d → HasBase d := by
    intro k r l h v hv d hd
    obtain ⟨xs, h1, h2, h3⟩ := h
    have h4 := listsIn_hasBase hb h1
    by_cases hx : xs = []
    · have h3 := h3 hx
      split at h3
      · cases h3
        obtain ⟨w, _, rfl⟩ := List.mem_map.1 hv
        cases hd
        trivial
      · cases h3
    · have h2 := h2 hx
      cases h2 with
      | array _ _ =>
        obtain ⟨l, hl, hv⟩ := List.mem_flatten.1 hv
        obtain ⟨x, hx, rfl⟩ := List.mem_map.1 hl
        exact h4 x hx v hv d hd
      | string _ => exact h4 (r, l) (by simp) v hv d hd
  constructor
  · intro h r l hs v hv hn
    obtain ⟨d, hd, _⟩ := hlist hs v hv
    obtain ⟨s, dv⟩ := v
    cases hd
    exact (h.targets r l hs s d hv hn).1
  · intro h
    refine ⟨fun k _ s d hs _ _ => scalar_hasBase hb hs, fun k _ s d hs _ => scalar_hasBase hb hs,
      fun r s d ws hs _ _ => hprog hs _ List.mem_cons_self d rfl, fun r l hs s d hv hn => ?_, fun k x d d' hs _ => scalar_hasBase hb hs⟩
    refine ⟨h r l hs _ hv hn, ?_⟩
    obtain ⟨d', e, hd⟩ := hlist hs _ hv
    cases e
    exact hd

/-! ### samples -/

/-- The sample of C57 is loaded, so that its documents meet the conditions of `C66_succeeds_iff`. -/
example : ∃ look docs, DocumentsOf sampleFs sampleToml "/w/p".toList none docs ∧ DocsGood docs ∧ VarsGood look docs ∧
    Resolvable look docs := by
  have hok : (EConfig.loadWithOptions sampleProc sampleFs (fun s => sampleToml s >>= Config.de) "/w/p".toList {}).isOk = true := by
    decide +kernel
  generalize hr : EConfig.loadWithOptions sampleProc sampleFs (fun s => sampleToml s >>= Config.de) "/w/p".toList {} = r at hok
  cases r with
  | ok x =>
    obtain ⟨c, s⟩ := x
    obtain ⟨look, home, docs, h, _⟩ := C57_determined sampleToml_distinct (fun e he => by cases he) hr
    have hh : home = none := by
      have := h.home
      cases this with
      | nothing _ _ => rfl
    subst hh
    exact ⟨look, (C66_succeeds_iff sampleToml_distinct (fun e he => by cases he) h.home h.env).1 ⟨c, s, hr⟩⟩
  | err e => cases hok
  | panic => cases hok

/-- With `CARGO_HOME=/` and `build.rustc = "bin/rustc"` in `/config`, everything is in order but the program cannot be located. -/
example : EConfig.loadWithOptions { vars := [(.unicode "CARGO_HOME".toList, .unicode "/".toList)] } (oneFile "/config".toList)
    (fun _ => Config.de (.tbl [("build".toList, .tbl [("rustc".toList, .str "bin/rustc".toList)])])) "/w".toList {} = .panic := rfl

example : ¬ HasBase (.path "/config".toList) ∧ HasBase (.path "/w/.cargo/config".toList) ∧ HasBase (.path ".cargo/config".toList) := by
  refine ⟨?_, ?_, ?_⟩
  · rw [← hasBase_iff _ []]; rintro ⟨b, h⟩; cases h
  · rw [← hasBase_iff _ []]; exact ⟨_, rfl⟩
  · rw [← hasBase_iff _ []]; exact ⟨_, rfl⟩

/-- `build.rustflags` as a string and as an array. -/
example : SpelledApart (.tbl [("build".toList, .tbl [("rustflags".toList, .str "-g".toList)])]) sampleFarDoc :=
  ⟨_, _, _, .inl ⟨.buildRustflags, rfl⟩, rfl, rfl, by decide⟩

/-- C16 in `build.target`: a spec file is taken relative to the base directory of where it was written; without one there is a
panic. -/
theorem C16_config (s f stem cwd : Str) (d : Definition) (h : NamesSpecFile s) (hf : EndsInFile s f) (hs : IsStem f stem) :
    (HasBase d → ∃ base, BaseDir cwd d base ∧ TargetTriple.new s (some d) (some cwd) = .ok ⟨stem, some (Path.join base s)⟩) ∧
    (¬ HasBase d → TargetTriple.new s (some d) (some cwd) = .panic) := by
  unfold TargetTriple.new
  rw [isSpecPath_iff.2 h, if_pos rfl, fileStem_iff.2 ⟨f, hf, hs⟩, ← hasBase_iff d cwd]
  have e : d.rootOpt (some cwd) = (d.root cwd).map some := by
    cases d with
    | path p => rfl
    | environment k => rfl
    | cli p => cases p <;> rfl
  constructor
  · rintro ⟨root, hd⟩
    refine ⟨root, root_baseDir hd, ?_⟩
    simp only [Res.unwrap, Res.ok_bind, resolveSpecPath, e, hd, Option.map_some]
  · intro hn
    cases hd : d.root cwd with
    | some b => exact absurd ⟨b, hd⟩ hn
    | none =>
      simp only [Res.unwrap, Res.ok_bind, resolveSpecPath, e, hd, Option.map_none]
      rfl

example : HasBase (.path "/w/.cargo/config.toml".toList) ∧ ¬ HasBase (.path "/config".toList) := by
  constructor
  · exact ⟨[.root, .normal "w".toList], .normal ".cargo".toList, .normal "config.toml".toList, by decide, by decide +kernel⟩
  · rintro ⟨l, a, b, ha, e⟩
    have e' : Path.components "/config".toList = [] ++ [.root, .normal "config".toList] := by decide +kernel
    rw [e'] at e
    have := List.append_inj_right' e rfl
    cases this
    exact ha rfl

/-- The statements for no files and one variable. -/
example : (∃ e, EConfig.loadWithOptions { vars := [(.unicode "CARGO_BUILD_JOBS".toList, .unicode "many".toList)] }
      { ex := fun _ => false, read := fun _ => .err (.io []) } (fun _ => .err (.toml []) >>= Config.de) "/w".toList {} = .err e) := by
  have h : (EConfig.loadWithOptions { vars := [(.unicode "CARGO_BUILD_JOBS".toList, .unicode "many".toList)] }
      { ex := fun _ => false, read := fun _ => .err (.io []) } (fun _ => .err (.toml []) >>= Config.de) "/w".toList {}).isErr = true := by
    decide +kernel
  revert h
  generalize EConfig.loadWithOptions _ _ _ _ _ = r
  cases r <;> simp [Res.isErr]

end CC
