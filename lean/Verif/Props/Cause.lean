import Verif.Lemmas.LoadCause
import Verif.Props.Outcome
/-
What the error of a failed load says (C67), and as what `io::Error` (C68).

As in C66, `toml` stands for the TOML parser.
-/
namespace CC

variable {p : ProcEnv} {fs : Fs} {toml : Str → Res Toml} {cwd : Path} {o : Options} {look : Str → Option OsStr} {home : Option Path}

/-! ### C67 -/

theorem walk_files (fs : Fs) (cwd : Path) (home : Option Path) : FilesOf fs cwd home (walk fs.ex cwd home) := C01_walk fs.ex cwd home

theorem files_unique {a b : List Path} (ha : FilesOf fs cwd home a) (hb : FilesOf fs cwd home b) : a = b := by
  obtain ⟨d, h1, h2⟩ := ha
  obtain ⟨d', h1', h2'⟩ := hb
  exact C01_spec_functional _ _ _ _ _ _ _ h1 h1' h2 h2'

/-- C67: if loading is an error, the message names the first config file that is not in order; or all files are in order and it is
about a variable.  Not all of these messages name what is to be corrected, see the `_fails` theorems below. -/
theorem C67_cause_partial (ht : ∀ s t, toml s = .ok t → t.DistinctKeys) (hm : ∀ e, o.env = some e → DistinctKeys e)
    (hh : HomeOf p o cwd home) (he : EnvOf p o look) {e : Err}
    (h : EConfig.loadWithOptions p fs (fun s => toml s >>= Config.de) cwd o = .err e) (sh : Shown) :
    (∃ files, FilesOf fs cwd home files ∧ FileBlamed fs toml files (e.display sh) e.source) ∨
      ∃ docs, DocumentsOf fs toml cwd home docs ∧ DocsGood docs ∧ VarBlamed look docs (e.display sh) e.source := by
  rw [load_steps hh] at h
  rcases Res.bind_eq_err.1 h with h | ⟨de, hl, h⟩
  · exact .inl ⟨_, walk_files fs cwd home, loadPaths_blame ht h sh⟩
  · right
    obtain ⟨docs, raws, h1, hg, hf, hr⟩ := load_unpack ht hl
    have hd := env_distinct (p := p) (cwd := cwd) hm
    have hlook : Env.get (o.intoContext p cwd).1.env = look := env_unique he rfl
    refine ⟨docs, h1, hg, ?_⟩
    rcases Res.bind_eq_err.1 h with h | ⟨c, _, h⟩
    · unfold EConfig.fromUnresolved at h
      rcases Res.bind_eq_err.1 h with h | ⟨de', h2, h⟩
      · have hb := applyEnv_blame hd h
        have hu := progUnset_iff hl hf hr
        rw [← hlook]
        cases hb with
        | scalar k n h1 h2 =>
          obtain ⟨src, h3, h4, h5⟩ := h2
          rw [h3, h5 sh]
          exact .named n src (.scalar k h1) h4
        | list k n h1 h2 =>
          obtain ⟨src, h3, h4, h5⟩ := h2
          rw [h3, h5 sh]
          exact .named n src (.list k h1) h4
        | command k n hk h1 h2 =>
          obtain ⟨src, h3, h4, h5⟩ := h2
          rw [h3, h5 sh]
          exact .named n src (.command k ((hu k).1 hk) h1) h4
        | protocol s h1 h2 h3 h4 =>
          subst h4
          rw [display_other, fill_protocol]
          exact .protocol s h1 h2 h3
        | browser s h1 h2 hk h4 =>
          subst h4
          rw [display_context, fill_plain _ (by decide +kernel)]
          exact .browser s h1 (wordsIn_nil h2) ((hu .docBrowser).1 hk)
      · exfalso
        have hs : de'.env.Sorted := by
          rw [(C25_local h2).1]
          exact (load_wf (fun s c => toml_wf s c) hl).env
        have hloc : ∀ r l, ListKey.buildTarget.get de' = some (r, l) → ∀ v ∈ l, v.defn ≠ none :=
          listSource_located (source_list hl hf hr hd h2 .buildTarget)
        have hx : EConfig.fromUnresolved de (o.intoContext p cwd).1 = .err e := by
          unfold EConfig.fromUnresolved
          rw [h2, Res.ok_bind]
          exact h
        rcases decides_resolved h2 hs hloc with ⟨_, a, h4⟩ | ⟨_, h4⟩ <;> rw [h4] at hx <;> cases hx
    · cases h

theorem FileBlamed.bad {files : List Path} {m : Str} {s : Option Err} (h : FileBlamed fs toml files m s) :
    ∃ docs f, InOrderUpTo fs toml files docs f ∧ BadAfter fs toml docs f := by
  cases h with
  | read docs f src hi hr => exact ⟨docs, f, hi, fun text t h => by rw [hr] at h; cases h⟩
  | syntactic docs f text src hi hr hp =>
    refine ⟨docs, f, hi, fun text t h1 h2 => ?_⟩
    rw [hr] at h1
    cases Res.ok.inj h1
    rw [hp] at h2
    cases h2
  | config docs f text t what hi hr hp hc =>
    refine ⟨docs, f, hi, fun text t h1 h2 h3 => ?_⟩
    rw [hr] at h1
    cases Res.ok.inj h1
    rw [hp] at h2
    cases Res.ok.inj h2
    exact absurd h3 hc
  | merge nearest u docs f text t src hi hr hp hc hx _ _ =>
    refine ⟨_, f, hi, fun text t h1 h2 h3 => ?_⟩
    rw [hr] at h1
    cases Res.ok.inj h1
    rw [hp] at h2
    cases Res.ok.inj h2
    exact hx

/-- The outcome if a file is not in order. -/
theorem load_bad (ht : ∀ s t, toml s = .ok t → t.DistinctKeys) (hm : ∀ e, o.env = some e → DistinctKeys e)
    (hh : HomeOf p o cwd home) (he : EnvOf p o look) (hr : ∀ f, fs.read f ≠ .panic) (hp : ∀ s, toml s ≠ .panic)
    {files : List Path} (hf : FilesOf fs cwd home files) {docs : List (Path × Toml)} {f : Path} (hi : InOrderUpTo fs toml files docs f)
    (hb : BadAfter fs toml docs f) :
    ∃ e, EConfig.loadWithOptions p fs (fun s => toml s >>= Config.de) cwd o = .err e ∧ ∀ sh, FileBlamed fs toml files (e.display sh) e.source := by
  have hno : ¬ ∃ docs, DocumentsOf fs toml cwd home docs ∧ DocsGood docs := by
    rintro ⟨docs', ⟨dirs, d1, d2, d3⟩, hg⟩
    exact bad_not_good hi hb (files_unique ⟨dirs, d1, d2⟩ hf) d3 hg
  obtain ⟨e, h⟩ := (C66_fails_iff ht hm hh he hr hp).2 fun ⟨docs, h1, h2, _⟩ => hno ⟨docs, h1, h2⟩
  refine ⟨e, h, fun sh => ?_⟩
  rcases C67_cause_partial ht hm hh he h sh with ⟨files', hf', h1⟩ | ⟨docs, h1, h2, _⟩
  · rwa [files_unique hf' hf] at h1
  · exact absurd ⟨docs, h1, h2⟩ hno

/-- C67: the message about the files is unique, and with it the loading fails. -/
theorem C67_first_file (ht : ∀ s t, toml s = .ok t → t.DistinctKeys) (hm : ∀ e, o.env = some e → DistinctKeys e)
    (hh : HomeOf p o cwd home) (he : EnvOf p o look) (hr : ∀ f, fs.read f ≠ .panic) (hp : ∀ s, toml s ≠ .panic)
    {files : List Path} (hf : FilesOf fs cwd home files) {msg : Str} {src : Option Err} (hb : FileBlamed fs toml files msg src) :
    ∃ e, EConfig.loadWithOptions p fs (fun s => toml s >>= Config.de) cwd o = .err e ∧ ∀ sh, e.display sh = msg := by
  obtain ⟨docs, f, hi, hbad⟩ := hb.bad
  obtain ⟨e, h, hfb⟩ := load_bad ht hm hh he hr hp hf hi hbad
  refine ⟨e, h, fun sh => ?_⟩
  have h' := hfb sh
  generalize e.display sh = m at h'
  generalize e.source = s at h'
  have same : ∀ {docs docs' : List (Path × Toml)} {f f' : Path}, InOrderUpTo fs toml files docs f → BadAfter fs toml docs f →
      InOrderUpTo fs toml files docs' f' → BadAfter fs toml docs' f' → docs = docs' ∧ f = f' := inOrder_unique
  have h1 := hb
  have h2 := h'
  cases hb with
  | read docs f src hi hread =>
    have b1 : BadAfter fs toml docs f := fun text t h => by rw [hread] at h; cases h
    cases h' with
    | read docs' f' src' hi' hread' =>
      obtain ⟨-, rfl⟩ := same hi b1 hi' fun text t h => by rw [hread'] at h; cases h
      rfl
    | syntactic docs' f' text' src' hi' hread' hp' =>
      obtain ⟨-, rfl⟩ := same hi b1 hi' fun text t h h2 => by
        rw [hread'] at h; cases Res.ok.inj h; rw [hp'] at h2; cases h2
      rw [hread] at hread'; cases hread'
    | config docs' f' text' t' what' hi' hread' hp' hc' =>
      obtain ⟨-, rfl⟩ := same hi b1 hi' fun text t h h2 h3 => by
        rw [hread'] at h; cases Res.ok.inj h; rw [hp'] at h2; cases Res.ok.inj h2; exact absurd h3 hc'
      rw [hread] at hread'; cases hread'
    | merge n u docs' f' text' t' src' hi' hread' hp' hc' hx' _ _ =>
      obtain ⟨-, rfl⟩ := same hi b1 hi' fun text t h h2 _ => by
        rw [hread'] at h; cases Res.ok.inj h; rw [hp'] at h2; cases Res.ok.inj h2; exact hx'
      rw [hread] at hread'; cases hread'
  | syntactic docs f text src hi hread hparse =>
    have b1 : BadAfter fs toml docs f := fun text t h h2 => by
      rw [hread] at h; cases Res.ok.inj h; rw [hparse] at h2; cases h2
    cases h' with
    | read docs' f' src' hi' hread' =>
      obtain ⟨-, rfl⟩ := same hi b1 hi' fun text t h => by rw [hread'] at h; cases h
      rw [hread] at hread'; cases hread'
    | syntactic docs' f' text' src' hi' hread' hp' =>
      obtain ⟨-, rfl⟩ := same hi b1 hi' fun text t h h2 => by
        rw [hread'] at h; cases Res.ok.inj h; rw [hp'] at h2; cases h2
      rfl
    | config docs' f' text' t' what' hi' hread' hp' hc' =>
      obtain ⟨-, rfl⟩ := same hi b1 hi' fun text t h h2 h3 => by
        rw [hread'] at h; cases Res.ok.inj h; rw [hp'] at h2; cases Res.ok.inj h2; exact absurd h3 hc'
      rfl
    | merge n u docs' f' text' t' src' hi' hread' hp' hc' hx' _ _ =>
      obtain ⟨-, rfl⟩ := same hi b1 hi' fun text t h h2 _ => by
        rw [hread'] at h; cases Res.ok.inj h; rw [hp'] at h2; cases Res.ok.inj h2; exact hx'
      rw [hread] at hread'; cases Res.ok.inj hread'; rw [hparse] at hp'; cases hp'
  | config docs f text t what hi hread hparse hc =>
    have b1 : BadAfter fs toml docs f := fun text t h h2 h3 => by
      rw [hread] at h; cases Res.ok.inj h; rw [hparse] at h2; cases Res.ok.inj h2; exact absurd h3 hc
    cases h' with
    | read docs' f' src' hi' hread' =>
      obtain ⟨-, rfl⟩ := same hi b1 hi' fun text t h => by rw [hread'] at h; cases h
      rw [hread] at hread'; cases hread'
    | syntactic docs' f' text' src' hi' hread' hp' =>
      obtain ⟨-, rfl⟩ := same hi b1 hi' fun text t h h2 => by
        rw [hread'] at h; cases Res.ok.inj h; rw [hp'] at h2; cases h2
      rfl
    | config docs' f' text' t' what' hi' hread' hp' hc' =>
      obtain ⟨-, rfl⟩ := same hi b1 hi' fun text t h h2 h3 => by
        rw [hread'] at h; cases Res.ok.inj h; rw [hp'] at h2; cases Res.ok.inj h2; exact absurd h3 hc'
      rfl
    | merge n u docs' f' text' t' src' hi' hread' hp' hc' hx' _ _ =>
      obtain ⟨-, rfl⟩ := same hi b1 hi' fun text t h h2 _ => by
        rw [hread'] at h; cases Res.ok.inj h; rw [hp'] at h2; cases Res.ok.inj h2; exact hx'
      rw [hread] at hread'; cases Res.ok.inj hread'; rw [hparse] at hp'; cases Res.ok.inj hp'; exact absurd hc' hc
  | merge nearest u docs f text t src hi hread hparse hc hx _ _ =>
    have b1 : BadAfter fs toml ((nearest, u) :: docs) f := fun text t h h2 h3 => by
      rw [hread] at h; cases Res.ok.inj h; rw [hparse] at h2; cases Res.ok.inj h2; exact hx
    cases h' with
    | read docs' f' src' hi' hread' =>
      obtain ⟨-, rfl⟩ := same hi b1 hi' fun text t h => by rw [hread'] at h; cases h
      rw [hread] at hread'; cases hread'
    | syntactic docs' f' text' src' hi' hread' hp' =>
      obtain ⟨-, rfl⟩ := same hi b1 hi' fun text t h h2 => by
        rw [hread'] at h; cases Res.ok.inj h; rw [hp'] at h2; cases h2
      rw [hread] at hread'; cases Res.ok.inj hread'; rw [hparse] at hp'; cases hp'
    | config docs' f' text' t' what' hi' hread' hp' hc' =>
      obtain ⟨-, rfl⟩ := same hi b1 hi' fun text t h h2 h3 => by
        rw [hread'] at h; cases Res.ok.inj h; rw [hp'] at h2; cases Res.ok.inj h2; exact absurd h3 hc'
      rw [hread] at hread'; cases Res.ok.inj hread'; rw [hparse] at hp'; cases Res.ok.inj hp'; exact absurd hc hc'
    | merge n u docs' f' text' t' src' hi' hread' hp' hc' hx' _ _ =>
      obtain ⟨e, rfl⟩ := same hi b1 hi' fun text t h h2 _ => by
        rw [hread'] at h; cases Res.ok.inj h; rw [hp'] at h2; cases Res.ok.inj h2; exact hx'
      cases e
      rfl

/-- C67: if the files up to `f` are in order and `f` is a config that writes a setting differently than one of them, the error names `f` and
the nearest file, and its cause tells the first setting that is written differently: its key (if it is one of `[alias]`, `[env]` or
`[target]`) and the two ways of writing, that of the nearer files first. -/
theorem C67_merge (ht : ∀ s t, toml s = .ok t → t.DistinctKeys) (hm : ∀ e, o.env = some e → DistinctKeys e)
    (hh : HomeOf p o cwd home) (he : EnvOf p o look) (hr : ∀ f, fs.read f ≠ .panic) (hp : ∀ s, toml s ≠ .panic)
    {files : List Path} (hf : FilesOf fs cwd home files) {nearest f : Path} {u t : Toml} {docs : List (Path × Toml)} {text : Str}
    (hi : InOrderUpTo fs toml files ((nearest, u) :: docs) f) (hread : fs.read f = .ok text) (hparse : toml text = .ok t) (hc : t.IsConfig)
    (hx : ∃ x ∈ (nearest, u) :: docs, SpelledApart x.2 t) :
    ∃ e src, EConfig.loadWithOptions p fs (fun s => toml s >>= Config.de) cwd o = .err e ∧
      (∀ sh, e.display sh = "failed to merge config from ".toList ++ quoted f ++ " into ".toList ++ quoted nearest) ∧
      e.source = some src ∧ MergeBlamed ((nearest, u) :: docs) t src := by
  have hbad : BadAfter fs toml ((nearest, u) :: docs) f := fun text t h h2 h3 => by
    rw [hread] at h; cases Res.ok.inj h; rw [hparse] at h2; cases Res.ok.inj h2; exact hx
  obtain ⟨e, h, hfb⟩ := load_bad ht hm hh he hr hp hf hi hbad
  have key : ∀ {m s}, FileBlamed fs toml files m s →
      m = "failed to merge config from ".toList ++ quoted f ++ " into ".toList ++ quoted nearest ∧
        ∃ src, s = some src ∧ MergeBlamed ((nearest, u) :: docs) t src := by
    intro m s h'
    cases h' with
    | read docs' f' src' hi' hread' =>
      obtain ⟨-, rfl⟩ := inOrder_unique hi hbad hi' fun text t h => by rw [hread'] at h; cases h
      rw [hread] at hread'; cases hread'
    | syntactic docs' f' text' src' hi' hread' hp' =>
      obtain ⟨-, rfl⟩ := inOrder_unique hi hbad hi' fun text t h h2 => by
        rw [hread'] at h; cases Res.ok.inj h; rw [hp'] at h2; cases h2
      rw [hread] at hread'; cases Res.ok.inj hread'; rw [hparse] at hp'; cases hp'
    | config docs' f' text' t' what' hi' hread' hp' hc' =>
      obtain ⟨-, rfl⟩ := inOrder_unique hi hbad hi' fun text t h h2 h3 => by
        rw [hread'] at h; cases Res.ok.inj h; rw [hp'] at h2; cases Res.ok.inj h2; exact absurd h3 hc'
      rw [hread] at hread'; cases Res.ok.inj hread'; rw [hparse] at hp'; cases Res.ok.inj hp'; exact absurd hc hc'
    | merge n u docs' f' text' t' src' hi' hread' hp' hc' hx' hb' _ =>
      obtain ⟨e, rfl⟩ := inOrder_unique hi hbad hi' fun text t h h2 _ => by
        rw [hread'] at h; cases Res.ok.inj h; rw [hp'] at h2; cases Res.ok.inj h2; exact hx'
      cases e
      rw [hread] at hread'; cases Res.ok.inj hread'; rw [hparse] at hp'; cases Res.ok.inj hp'
      exact ⟨rfl, _, rfl, hb'⟩
  obtain ⟨-, src, h1, h2⟩ := key (hfb ⟨fun _ => [], fun _ => [], fun _ => [], fun _ => [], fun _ => []⟩)
  exact ⟨e, src, h, fun sh => (key (hfb sh)).1, h1, h2⟩

/-- C67: of two settings one comes before the other, so there is only one that is the first. -/
theorem C67_order (q r : Spot) : q.Before r ∨ q = r ∨ r.Before q := by
  rcases Nat.lt_trichotomy q.section r.section with h | h | h
  · exact .inl (.inl h)
  · rcases strLt_total (q.entry.getD []) (r.entry.getD []) with hk | hk | hk
    · exact .inl (.inr ⟨h, .inl hk⟩)
    · have he : q.entry = r.entry := by
        cases q <;> cases r <;> first | rfl | (cases h; done) | exact congrArg some hk
      rcases Nat.lt_trichotomy q.field r.field with hf | hf | hf
      · exact .inl (.inr ⟨h, .inr ⟨he, hf⟩⟩)
      · refine .inr (.inl ?_)
        cases q <;> cases r <;> first | rfl | (cases h; done) | (cases hf; done) | (cases he; rfl)
      · exact .inr (.inr (.inr ⟨h.symm, .inr ⟨he.symm, hf⟩⟩))
    · exact .inr (.inr (.inr ⟨h.symm, .inl hk⟩))
  · exact .inr (.inr (.inl h))

/-! ### what is not named -/

/-- No config files. -/
def emptyFs : Fs := { ex := fun _ => false, read := fun _ => .err (.io []) }

/-- C67 is false as stated: if `CARGO_REGISTRIES_CRATES_IO_PROTOCOL` is malformed, the variable is not named.  (src/env.rs 82) -/
theorem C67_protocol_fails : ∃ e, EConfig.loadWithOptions
      { vars := [(.unicode "CARGO_REGISTRIES_CRATES_IO_PROTOCOL".toList, .unicode "http".toList)] } emptyFs (fun _ => .panic) "/w".toList {} =
        .err e ∧
    (∀ sh, e.display sh = "must be git or sparse, but found `http`".toList) ∧ e.source = none :=
  ⟨_, rfl, fun _ => (display_other _ _ _).trans (by decide +kernel), rfl⟩

/-- C67 is false as stated: if `BROWSER` is empty, it is not named.  (src/env.rs 260) -/
theorem C67_browser_fails : ∃ e, EConfig.loadWithOptions { vars := [(.unicode "BROWSER".toList, .unicode [])] } emptyFs (fun _ => .panic)
      "/w".toList {} = .err e ∧
    (∀ sh, e.display sh = "invalid length 0, expected at least one element".toList) ∧ e.source = none :=
  ⟨_, rfl, fun _ => (display_context _ _ _ _).trans (by decide +kernel), rfl⟩

/-- Three config files. -/
def threeFiles : Fs :=
  { ex := fun p => p = "/a/b/.cargo/config".toList || p = "/a/.cargo/config".toList || p = "/.cargo/config".toList
    read := fun p => .ok p }

/-- The nearest of the three files is empty, the other two do not agree in how they write `build.rustflags`. -/
def threeDocs (s : Str) : Res Toml :=
  if s = "/a/b/.cargo/config".toList then .ok (.tbl [])
  else if s = "/a/.cargo/config".toList then .ok (.tbl [("build".toList, .tbl [("rustflags".toList, .str "-g".toList)])])
  else .ok (.tbl [("build".toList, .tbl [("rustflags".toList, .arr [.str "-g".toList])])])

/-- C67 is false as stated: the message about two files that do not agree names one of them and the nearest of all files, here an empty
one.  (src/de.rs 141-153) -/
theorem C67_merge_fails : ∃ e, EConfig.loadWithOptions {} threeFiles (fun s => threeDocs s >>= Config.de) "/a/b".toList {} = .err e ∧
    ∀ sh, e.display sh = "failed to merge config from `/.cargo/config` into `/a/b/.cargo/config`".toList :=
  ⟨_, rfl, fun _ => (display_context _ _ _ _).trans (by decide +kernel)⟩

/-- The hypotheses of `C67_merge` can be met: the third of three files. -/
example : InOrderUpTo threeFiles threeDocs ["/a/b/.cargo/config".toList, "/a/.cargo/config".toList, "/.cargo/config".toList]
      [("/a/b/.cargo/config".toList, .tbl []),
        ("/a/.cargo/config".toList, .tbl [("build".toList, .tbl [("rustflags".toList, .str "-g".toList)])])] "/.cargo/config".toList ∧
    threeDocs "/.cargo/config".toList = .ok (.tbl [("build".toList, .tbl [("rustflags".toList, .arr [.str "-g".toList])])]) ∧
    (Toml.tbl [("build".toList, .tbl [("rustflags".toList, .arr [.str "-g".toList])])]).IsConfig ∧
    SpelledApart (.tbl [("build".toList, .tbl [("rustflags".toList, .str "-g".toList)])])
      (.tbl [("build".toList, .tbl [("rustflags".toList, .arr [.str "-g".toList])])]) := by
  have d1 : (Toml.tbl []).DistinctKeys := distinct_tbl (by decide) (fun _ h => by cases h)
  have d2 : (Toml.tbl [("build".toList, .tbl [("rustflags".toList, .str "-g".toList)])]).DistinctKeys := by
    refine distinct_tbl (by decide) fun x h => ?_
    rw [List.mem_singleton.1 h]
    refine distinct_tbl (by decide) fun x h => ?_
    rw [List.mem_singleton.1 h]
    exact distinct_leaf rfl
  have d3 : (Toml.tbl [("build".toList, .tbl [("rustflags".toList, .arr [.str "-g".toList])])]).DistinctKeys := by
    refine distinct_tbl (by decide) fun x h => ?_
    rw [List.mem_singleton.1 h]
    refine distinct_tbl (by decide) fun x h => ?_
    rw [List.mem_singleton.1 h]
    exact distinct_leaf rfl
  have c1 := (C62_accepted_iff _ d1).1 ⟨_, rfl⟩
  have c2 := (C62_accepted_iff _ d2).1 ⟨_, rfl⟩
  have c3 := (C62_accepted_iff _ d3).1 ⟨_, rfl⟩
  refine ⟨⟨⟨[], rfl⟩, ?_, ⟨?_, ?_⟩⟩, rfl, c3, ?_⟩
  · intro g t h
    rcases List.mem_cons.1 h with h | h
    · cases h; exact ⟨_, rfl, rfl⟩
    · cases List.mem_singleton.1 h; exact ⟨_, rfl, rfl⟩
  · intro g t h
    rcases List.mem_cons.1 h with h | h
    · cases h; exact c1
    · cases List.mem_singleton.1 h; exact c2
  · refine List.pairwise_cons.2 ⟨?_, by simp⟩
    rintro x - ⟨path, x, y, hp, h, -⟩
    rcases hp with ⟨k, rfl⟩ | ⟨k, rfl⟩ | ⟨k, rfl⟩
    · cases k <;> cases h
    · cases k <;> cases h
    · cases h
  · exact ⟨_, _, _, .inl ⟨.buildRustflags, rfl⟩, rfl, rfl, by decide⟩

/-! ### the samples -/

/-- A file that cannot be read is named. -/
example : ∃ e, EConfig.loadWithOptions {} { sampleFs with read := fun _ => .err (.io "EACCES".toList) } (fun _ => .panic) "/w/p".toList {} =
      .err e ∧
    (∀ sh, e.display sh = "failed to read `/w/p/.cargo/config`".toList) ∧ e.toIo.kind = .os "EACCES".toList :=
  ⟨_, rfl, fun _ => (display_context _ _ _ _).trans (by decide +kernel), rfl⟩

/-- The second file is the first that is not in order. -/
theorem sample_inOrder : InOrderUpTo sampleFs (fun s => if s = "near".toList then .ok sampleNearDoc else .err (.toml []))
    ["/w/p/.cargo/config".toList, "/w/.cargo/config.toml".toList] [("/w/p/.cargo/config".toList, sampleNearDoc)]
    "/w/.cargo/config.toml".toList where
  files := ⟨[], rfl⟩
  contents g t h := by
    rcases List.mem_singleton.1 h with h
    cases h
    exact ⟨_, rfl, rfl⟩
  good := ⟨fun f t h => by
      rcases List.mem_singleton.1 h with h
      cases h
      exact (C62_accepted_iff _ (sampleToml_distinct "near".toList _ rfl)).1 ⟨_, rfl⟩,
    by simp⟩

/-- What `C67_first_file` says of it. -/
example : FileBlamed sampleFs (fun s => if s = "near".toList then .ok sampleNearDoc else .err (.toml []))
    ["/w/p/.cargo/config".toList, "/w/.cargo/config.toml".toList]
    ("failed to parse ".toList ++ quoted "/w/.cargo/config.toml".toList ++ " as cargo configuration".toList) (some (.toml [])) :=
  .syntactic _ _ _ _ sample_inOrder rfl rfl

/-- A malformed variable is named. -/
example : ∃ e, EConfig.loadWithOptions { vars := [(.unicode "CARGO_HTTP_TIMEOUT".toList, .unicode "soon".toList)] } emptyFs (fun _ => .panic)
      "/w".toList {} = .err e ∧ ∀ sh, e.display sh = "failed to parse environment variable `CARGO_HTTP_TIMEOUT`".toList :=
  ⟨_, rfl, fun _ => (display_context _ _ _ _).trans (by decide +kernel)⟩

/-! ### C68 -/

/-- C68: the conversion to `io::Error` keeps the message. -/
theorem C68_display (e : Err) (sh : Shown) : e.toIo.display sh = e.display sh := by
  rcases e with _ | _ | ⟨_, _, _, _ | _⟩ | _ | _ | _ | _ | _ <;> rfl

/-- C68: the conversion to `io::Error` keeps the cause. -/
theorem C68_source (e : Err) : e.toIo.source = e.source := by
  rcases e with _ | _ | ⟨_, _, _, _ | _⟩ | _ | _ | _ | _ | _ <;> rfl

theorem kind_of_source {e src : Err} (h : e.source = some src) : e.toIo.kind = src.sourceKind := by
  cases e with
  | context m as d s =>
    replace h : s = some src := h
    subst h
    rfl
  | _ => cases h

theorem kind_of_none {e : Err} (h : e.source = none) (hio : ∀ w, e ≠ .io w) : e.toIo.kind = .other := by
  cases e <;> first | rfl | skip
  · simp only [Err.source] at h
    subst h
    rfl
  · exact absurd rfl (hio _)

theorem sourceKind_other {src : Err} (h : ¬ src.Foreign) : src.sourceKind = .other := by
  cases src <;> first | rfl | skip
  · exact absurd (.inl ⟨_, rfl⟩) h
  · exact absurd (.inr ⟨_, rfl⟩) h

/-- The cause, if the first file that is not in order is known. -/
theorem blamed_source {files : List Path} {docs : List (Path × Toml)} {f : Path} (hi : InOrderUpTo fs toml files docs f)
    (hb : BadAfter fs toml docs f) {m : Str} {s : Option Err} (h : FileBlamed fs toml files m s) :
    (∃ src, s = some src ∧ fs.read f = .err src) ∨
    (∃ text src, s = some src ∧ fs.read f = .ok text ∧ toml text = .err src) ∨
    (∃ text t what, s = some (.toml what) ∧ fs.read f = .ok text ∧ toml text = .ok t ∧ ¬ t.IsConfig) ∨
    ∃ text t src, s = some src ∧ fs.read f = .ok text ∧ toml text = .ok t ∧ t.IsConfig ∧ ¬ src.Foreign := by
  cases h with
  | read docs' f' src' hi' hread' =>
    obtain ⟨-, rfl⟩ := inOrder_unique hi hb hi' fun text t h => by rw [hread'] at h; cases h
    exact .inl ⟨_, rfl, hread'⟩
  | syntactic docs' f' text' src' hi' hread' hp' =>
    obtain ⟨-, rfl⟩ := inOrder_unique hi hb hi' fun text t h h2 => by
      rw [hread'] at h; cases Res.ok.inj h; rw [hp'] at h2; cases h2
    exact .inr (.inl ⟨_, _, rfl, hread', hp'⟩)
  | config docs' f' text' t' what' hi' hread' hp' hc' =>
    obtain ⟨-, rfl⟩ := inOrder_unique hi hb hi' fun text t h h2 h3 => by
      rw [hread'] at h; cases Res.ok.inj h; rw [hp'] at h2; cases Res.ok.inj h2; exact absurd h3 hc'
    exact .inr (.inr (.inl ⟨_, _, _, rfl, hread', hp', hc'⟩))
  | merge n u docs' f' text' t' src' hi' hread' hp' hc' hx' _ hf =>
    obtain ⟨-, rfl⟩ := inOrder_unique hi hb hi' fun text t h h2 _ => by
      rw [hread'] at h; cases Res.ok.inj h; rw [hp'] at h2; cases Res.ok.inj h2; exact hx'
    exact .inr (.inr (.inr ⟨_, _, _, rfl, hread', hp', hc', hf⟩))

/-- Nothing is shown. -/
def noShown : Shown := ⟨fun _ => [], fun _ => [], fun _ => [], fun _ => [], fun _ => []⟩

/-- C68: if the first file that is not in order cannot be read, the kind is that of the operating system's error. -/
theorem C68_unreadable (ht : ∀ s t, toml s = .ok t → t.DistinctKeys) (hm : ∀ e, o.env = some e → DistinctKeys e)
    (hh : HomeOf p o cwd home) (he : EnvOf p o look) (hr : ∀ f, fs.read f ≠ .panic) (hp : ∀ s, toml s ≠ .panic)
    {files : List Path} (hf : FilesOf fs cwd home files) {docs : List (Path × Toml)} {f : Path} (hi : InOrderUpTo fs toml files docs f)
    {what : Str} (hx : fs.read f = .err (.io what)) :
    ∃ e, EConfig.loadWithOptions p fs (fun s => toml s >>= Config.de) cwd o = .err e ∧ e.toIo.kind = .os what := by
  have hbad : BadAfter fs toml docs f := fun text t h => by rw [hx] at h; cases h
  obtain ⟨e, h, hb⟩ := load_bad ht hm hh he hr hp hf hi hbad
  refine ⟨e, h, ?_⟩
  rcases blamed_source hi hbad (hb noShown) with ⟨src, h1, h2⟩ | ⟨_, _, _, h2, _⟩ | ⟨_, _, _, _, h2, _⟩ | ⟨_, _, _, _, h2, _⟩ <;>
    rw [hx] at h2 <;> cases h2
  rw [kind_of_source h1]
  rfl

/-- C68: if the first file that is not in order is not TOML or not a config, the kind is `InvalidData`. -/
theorem C68_invalid (ht : ∀ s t, toml s = .ok t → t.DistinctKeys) (hm : ∀ e, o.env = some e → DistinctKeys e)
    (hh : HomeOf p o cwd home) (he : EnvOf p o look) (hr : ∀ f, fs.read f ≠ .panic) (hp : ∀ s, toml s ≠ .panic)
    {files : List Path} (hf : FilesOf fs cwd home files) {docs : List (Path × Toml)} {f : Path} (hi : InOrderUpTo fs toml files docs f)
    {text : Str} (hx : fs.read f = .ok text) (hbad : (∃ what, toml text = .err (.toml what)) ∨ ∃ t, toml text = .ok t ∧ ¬ t.IsConfig) :
    ∃ e, EConfig.loadWithOptions p fs (fun s => toml s >>= Config.de) cwd o = .err e ∧ e.toIo.kind = .invalidData := by
  have hba : BadAfter fs toml docs f := fun text' t h1 h2 h3 => by
    rw [hx] at h1
    cases Res.ok.inj h1
    rcases hbad with ⟨w, h⟩ | ⟨t', h, hn⟩
    · rw [h] at h2; cases h2
    · rw [h] at h2; cases Res.ok.inj h2; exact absurd h3 hn
  obtain ⟨e, h, hb⟩ := load_bad ht hm hh he hr hp hf hi hba
  refine ⟨e, h, ?_⟩
  rcases blamed_source hi hba (hb noShown) with ⟨src, _, h2⟩ | ⟨_, _, h1, h2, h3⟩ | ⟨_, _, _, h1, h2, h3, _⟩ | ⟨_, _, _, _, h2, h3, h4, _⟩ <;>
    rw [hx] at h2 <;> cases h2
  · rw [kind_of_source h1]
    rcases hbad with ⟨w, h⟩ | ⟨t', h, hn⟩
    · rw [h] at h3; cases h3; rfl
    · rw [h] at h3; cases h3
  · rw [kind_of_source h1]
    rfl
  · rcases hbad with ⟨w, h⟩ | ⟨t', h, hn⟩
    · rw [h] at h3; cases h3
    · rw [h] at h3; cases Res.ok.inj h3; exact absurd h4 hn

/-- C68: if each file can be read and is a config, the kind of the error of loading is `Other`. -/
theorem C68_other (ht : ∀ s t, toml s = .ok t → t.DistinctKeys) (hm : ∀ e, o.env = some e → DistinctKeys e)
    (hh : HomeOf p o cwd home) (he : EnvOf p o look) {files : List Path} (hf : FilesOf fs cwd home files)
    (hall : ∀ f ∈ files, ∃ text t, fs.read f = .ok text ∧ toml text = .ok t ∧ t.IsConfig) {e : Err}
    (h : EConfig.loadWithOptions p fs (fun s => toml s >>= Config.de) cwd o = .err e) : e.toIo.kind = .other := by
  have hc := C67_cause_partial ht hm hh he h
  have hmem : ∀ {docs f}, InOrderUpTo fs toml files docs f → f ∈ files := fun hi => by
    obtain ⟨rest, h⟩ := hi.files
    rw [h]
    exact List.mem_append_right _ List.mem_cons_self
  rcases hc noShown with ⟨files', hf', hb⟩ | ⟨docs, _, _, hb⟩
  · rw [files_unique hf' hf] at hb
    generalize e.display noShown = m at hb
    generalize hs : e.source = s at hb
    cases hb with
    | read docs f src hi hr =>
      obtain ⟨text, t, h1, _⟩ := hall f (hmem hi)
      rw [hr] at h1; cases h1
    | syntactic docs f text src hi hr hp =>
      obtain ⟨text, t, h1, h2, _⟩ := hall f (hmem hi)
      rw [hr] at h1; cases Res.ok.inj h1; rw [hp] at h2; cases h2
    | config docs f text t what hi hr hp hc =>
      obtain ⟨text, t, h1, h2, h3⟩ := hall f (hmem hi)
      rw [hr] at h1; cases Res.ok.inj h1; rw [hp] at h2; cases Res.ok.inj h2; exact absurd h3 hc
    | merge n u docs f text t src hi hr hp hc hx _ hn => rw [kind_of_source hs, sourceKind_other hn]
  · have hne : e.display noShown ≠ [] := by
      generalize e.display noShown = m at hb
      generalize e.source = s at hb
      cases hb <;> exact List.cons_ne_nil _ _
    have hio : ∀ w, e ≠ .io w := fun w h => hne (by rw [h]; rfl)
    generalize e.display noShown = m at hb
    generalize hs : e.source = s at hb
    cases hb with
    | named n src _ hn => rw [kind_of_source hs, sourceKind_other hn]
    | protocol s _ _ _ => exact kind_of_none hs hio
    | browser s _ _ _ => exact kind_of_none hs hio

/-- The hypotheses of `C68_invalid` and `C68_other` can be met. -/
example : ∃ e, EConfig.loadWithOptions {} (oneFile "/w/.cargo/config".toList)
      (fun _ => Config.de (.tbl [("build".toList, .tbl [("jobs".toList, .bool true)])])) "/w".toList {} = .err e ∧
    e.toIo.kind = .invalidData := ⟨_, rfl, rfl⟩
example : ∃ e, EConfig.loadWithOptions {} threeFiles (fun s => threeDocs s >>= Config.de) "/a/b".toList {} = .err e ∧
    e.toIo.kind = .other := ⟨_, rfl, rfl⟩

end CC
