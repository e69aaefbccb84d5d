import Verif.Lemmas.Env
/-
Helper lemmas: `apply_env` seen through the keys of Spec/Config, and its dependence on the environment.
-/
namespace CC

theorem readEnv_none {α : Type} {get : Str → Option OsStr} {n : Str} {rd : Str → Option α} (h : get n = none) :
    readEnv get [(n, rd)] = none := by simp only [readEnv, h]
theorem readEnv_invalid {α : Type} {get : Str → Option OsStr} {n : Str} {rd : Str → Option α} {b : List Nat}
    (h : get n = some (.invalid b)) : readEnv get [(n, rd)] = some none := by simp only [readEnv, h]
theorem readEnv_unicode {α : Type} {get : Str → Option OsStr} {n : Str} {rd : Str → Option α} {t : Str}
    (h : get n = some (.unicode t)) : readEnv get [(n, rd)] = some ((rd t).map fun a => (n, a)) := by
  simp only [readEnv, h]

theorem sources_index (s : Str) :
    ScalarKey.sources (.registriesIndex s) = [(indexVar s, fun t => some (some (.str t)))] := rfl
theorem sources_token (s : Str) :
    ScalarKey.sources (.registriesToken s) = [(tokenVar s, fun t => some (some (.str t)))] := rfl
theorem sources_protocol {s : Str} (h : s = "crates-io".toList) : ScalarKey.sources (.registriesProtocol s) =
    [(protoVar, fun t =>
      (([("git", Atom.protocol .git), ("sparse", .protocol .sparse)] : List (String × Atom)).find?
        fun e => e.1.toList == t).map fun e => some e.2)] := by
  subst h; rfl
theorem sources_protocol_none {s : Str} (h : ¬ s = "crates-io".toList) :
    ScalarKey.sources (.registriesProtocol s) = [] := by
  exact if_neg h
theorem sources_alias (s : Str) :
    ListKey.sources (.alias s) = [(aliasVar s, fun t => some (.string, wordsIn t))] := rfl

/-- A single-valued setting of a section follows its law. -/
theorem scalar_of_law {α : Type} {env : Env} {k : ScalarKey} {inj : α → Atom} {old new : Option (Val α)}
    {r : Res (Option (Val α))} (law : FieldLaw env k.sources mkScalar (viewAs inj) old r) (h : r = .ok new) :
    new.map (Val.map inj) = k.withEnv env.get (old.map (Val.map inj)) := by
  have := law.value h
  unfold ScalarKey.withEnv
  generalize readEnv env.get k.sources = x at this ⊢
  rcases x with _ | _ | ⟨n, a⟩ <;> exact this

theorem wrap_some {α : Type} (r : Res (Option (Val α))) (b : Option (Val α)) :
    r.ifSome b (fun v => some v) = r.ifSome b some := rfl

/-- The settings handled by the sections (not the loop): old content, and what `apply_env` computes. -/
theorem section_scalar {env : Env} {c c' : Config} (h : EnvApplied env c c') (k : ScalarKey) (hk : k ≠ .cargoNewVcs)
    (hr : ∀ s, k ≠ .registriesIndex s ∧ k ≠ .registriesToken s ∧ k ≠ .registriesProtocol s) :
    readEnv env.get k.sources ≠ some none ∧ k.get c' = k.withEnv env.get (k.get c) := by
  have hb := (BuildConfig.applyEnv_ok_iff env _ _).1 h.build
  have hf := (FutureIncompatReportConfig.applyEnv_ok_iff env _ _).1 h.fir
  have hh := (HttpConfig.applyEnv_ok_iff env _ _).1 h.http
  have hn := (NetConfig.applyEnv_ok_iff env _ _).1 h.net
  have hg := (RegistryConfig.applyEnv_ok_iff env _ _).1 h.registry
  have ht := (TermConfig.applyEnv_ok_iff env _ _).1 h.term
  obtain ⟨b1, b2, b3, b4, b5, b6, b7, b8, b9, b10, b11⟩ := hb
  obtain ⟨p1, p2, p3, p4, p5, p6, p7, p8⟩ := hh
  obtain ⟨n1, n2, n3⟩ := hn
  obtain ⟨g1, g2⟩ := hg
  obtain ⟨t1, t2, t3, t4, t5⟩ := ht
  have close : ∀ {α : Type} {k : ScalarKey} {inj : α → Atom} {old new : Option (Val α)} {r : Res (Option (Val α))},
      FieldLaw env k.sources mkScalar (viewAs inj) old r → r = .ok new →
      readEnv env.get k.sources ≠ some none ∧
        new.map (Val.map inj) = k.withEnv env.get (old.map (Val.map inj)) :=
    fun law h => ⟨law.fine h, scalar_of_law law h⟩
  cases k with
  | cargoNewVcs => exact absurd rfl hk
  | registriesIndex s => exact absurd rfl (hr s).1
  | registriesToken s => exact absurd rfl (hr s).2.1
  | registriesProtocol s => exact absurd rfl (hr s).2.2
  | buildJobs => exact close ((reads_i32 env _).ifSome _) b1
  | buildRustc => exact close ((reads_text env _).ifSomeElse (reads_text env _) _) b2
  | buildRustcWrapper => exact close ((reads_wrapper env _).ifSomeElse (reads_wrapper env _) _) b3
  | buildRustcWorkspaceWrapper => exact close ((reads_wrapper env _).ifSomeElse (reads_wrapper env _) _) b4
  | buildRustdoc => exact close ((reads_text env _).ifSomeElse (reads_text env _) _) b5
  | buildTargetDir => exact close ((reads_text env _).ifSomeElse (reads_text env _) _) b7
  | buildIncremental => exact close ((reads_incremental env _).ifSomeElse (reads_bool env _) _) b10
  | buildDepInfoBasedir => exact close ((reads_text env _).ifSome _) b11
  | envValue s => exact ⟨by simp [ScalarKey.sources, readEnv], by
      simp [ScalarKey.withEnv, ScalarKey.sources, readEnv, ScalarKey.get, h.env]⟩
  | envForce s => exact ⟨by simp [ScalarKey.sources, readEnv], by
      simp [ScalarKey.withEnv, ScalarKey.sources, readEnv, ScalarKey.get, h.env]⟩
  | envRelative s => exact ⟨by simp [ScalarKey.sources, readEnv], by
      simp [ScalarKey.withEnv, ScalarKey.sources, readEnv, ScalarKey.get, h.env]⟩
  | targetLinker s => exact ⟨by simp [ScalarKey.sources, readEnv], by
      simp [ScalarKey.withEnv, ScalarKey.sources, readEnv, ScalarKey.get, h.target]⟩
  | futureIncompatReportFrequency => exact close ((reads_frequency env _).ifSome _) hf
  | httpDebug => exact close ((reads_bool env _).ifSome _) p1
  | httpProxy => exact close ((reads_text env _).ifSome _) p2
  | httpTimeout => exact close ((reads_u32 env _).ifSome _) p3
  | httpCainfo => exact close ((reads_text env _).ifSome _) p4
  | httpCheckRevoke => exact close ((reads_bool env _).ifSome _) p5
  | httpLowSpeedLimit => exact close ((reads_u32 env _).ifSome _) p6
  | httpMultiplexing => exact close ((reads_bool env _).ifSome _) p7
  | httpUserAgent => exact close ((reads_text env _).ifSome _) p8
  | netRetry => exact close ((reads_u32 env _).ifSome _) n1
  | netGitFetchWithCli => exact close ((reads_bool env _).ifSome _) n2
  | netOffline => exact close ((reads_bool env _).ifSome _) n3
  | registryDefault => exact close ((reads_text env _).ifSome _) g1
  | registryToken => exact close ((reads_textRedacted env _).ifSome _) g2
  | termQuiet => exact close ((reads_bool env _).ifSome _) t1
  | termVerbose => exact close ((reads_bool env _).ifSome _) t2
  | termColor => exact close ((reads_color env _).ifSome _) t3
  | termProgressWhen => exact close ((reads_when env _).ifSome _) t4
  | termProgressWidth => exact close ((reads_u32 env _).ifSome _) t5

theorem EnvApplied.loopFine {env : Env} {c c' : Config} (h : EnvApplied env c c') {n : Str} {v : OsStr}
    (hg : env.get n = some v) : LoopFine n v := by
  obtain ⟨c1, h1, -⟩ := h.loop
  exact (applyVars_ok_iff env c).1 ⟨c1, h1⟩ _ (Env.mem_of_get hg)

theorem find_protocol (s : Str) :
    (([("git", Atom.protocol .git), ("sparse", .protocol .sparse)] : List (String × Atom)).find?
      fun e => e.1.toList == s).map (fun e => some e.2)
      = (Protocol.fromStr s).toOption.map fun p => some (Atom.protocol p) := by
  unfold Protocol.fromStr
  split
  · rename_i h; rw [find_cons_true _ _ _ _ h]; rfl
  · rename_i h
    rw [find_cons_false _ _ _ _ h]
    split
    · rename_i h; rw [find_cons_true _ _ _ _ h]; rfl
    · rename_i h; rw [find_cons_false _ _ _ _ h]; rfl

theorem loop_scalar {env : Env} {c c' : Config} (hd : DistinctKeys env) (h : EnvApplied env c c') (k : ScalarKey)
    (hr : ∃ s, k = .registriesIndex s ∨ k = .registriesToken s ∨ k = .registriesProtocol s) :
    readEnv env.get k.sources ≠ some none ∧ k.get c' = k.withEnv env.get (k.get c) := by
  have hv := h.loopView hd
  obtain ⟨s, rfl | rfl | rfl⟩ := hr
  · have h1 := congrFun (congrArg LoopView.index hv) s
    simp only [loopView, LoopView.final] at h1
    simp only [ScalarKey.withEnv, sources_index, ScalarKey.get]
    rw [h1]
    cases hg : env.get (indexVar s) with
    | none => rw [readEnv_none hg]; exact ⟨by simp, rfl⟩
    | some v =>
      obtain ⟨t, rfl⟩ := (h.loopFine hg).1 s (Or.inr (Or.inl rfl))
      rw [readEnv_unicode hg]
      exact ⟨by simp, rfl⟩
  · have h1 := congrFun (congrArg LoopView.token hv) s
    simp only [loopView, LoopView.final] at h1
    simp only [ScalarKey.withEnv, sources_token, ScalarKey.get]
    rw [h1]
    cases hg : env.get (tokenVar s) with
    | none => rw [readEnv_none hg]; exact ⟨by simp, rfl⟩
    | some v =>
      obtain ⟨t, rfl⟩ := (h.loopFine hg).1 s (Or.inr (Or.inr rfl))
      rw [readEnv_unicode hg]
      exact ⟨by simp, rfl⟩
  · have h1 := congrFun (congrArg LoopView.protocol hv) s
    simp only [loopView, LoopView.final] at h1
    simp only [ScalarKey.withEnv, ScalarKey.get]
    rw [h1]
    by_cases hs : s = "crates-io".toList
    · rw [sources_protocol hs, if_pos hs]
      cases hg : env.get protoVar with
      | none => rw [readEnv_none hg]; exact ⟨by simp, rfl⟩
      | some v =>
        obtain ⟨t, p, rfl, hp⟩ := (h.loopFine hg).2 rfl
        rw [readEnv_unicode hg, find_protocol]
        simp only [OsStr.toStr?, hp, Res.toOption, Option.map_some, Option.bind_some]
        exact ⟨by simp, rfl⟩
    · rw [sources_protocol_none hs, if_neg hs]
      exact ⟨by simp [readEnv], rfl⟩

/-- A list setting of a section follows its law. -/
theorem list_of_law {φ : Type} {env : Env} {k : ListKey} {view : φ → Option (Repr' × List (Val Str))} {old new : φ}
    {r : Res φ} (law : FieldLaw env k.sources mkList view old r) (h : r = .ok new) :
    readEnv env.get k.sources ≠ some none ∧ view new = k.withEnv env.get (view old) := by
  refine ⟨law.fine h, ?_⟩
  have := law.value h
  unfold ListKey.withEnv
  generalize readEnv env.get k.sources = x at this ⊢
  rcases x with _ | _ | ⟨n, a⟩ <;> exact this

theorem applied_list {env : Env} {c c' : Config} (hd : DistinctKeys env) (h : EnvApplied env c c') (k : ListKey) :
    readEnv env.get k.sources ≠ some none ∧ k.get c' = k.withEnv env.get (k.get c) := by
  have hb := (BuildConfig.applyEnv_ok_iff env _ _).1 h.build
  obtain ⟨b1, b2, b3, b4, b5, b6, b7, b8, b9, b10, b11⟩ := hb
  cases k with
  | buildTarget => exact list_of_law (k := .buildTarget) ((reads_target env _).ifSome _) b6
  | buildRustflags => exact list_of_law (k := .buildRustflags) (law_rustflags env _ _ _ _) b8
  | buildRustdocflags => exact list_of_law (k := .buildRustdocflags) (law_rustflags env _ _ _ _) b9
  | targetRustflags s => exact ⟨by simp [ListKey.sources, readEnv], by
      simp [ListKey.withEnv, ListKey.sources, readEnv, ListKey.get, h.target]⟩
  | targetRustdocflags s => exact ⟨by simp [ListKey.sources, readEnv], by
      simp [ListKey.withEnv, ListKey.sources, readEnv, ListKey.get, h.target]⟩
  | alias s =>
    have h1 := congrFun (congrArg LoopView.alias (h.loopView hd)) s
    simp only [loopView, LoopView.final] at h1
    simp only [ListKey.withEnv, sources_alias, ListKey.get]
    rw [h1]
    cases hg : env.get (aliasVar s) with
    | none => rw [readEnv_none hg]; exact ⟨by simp, rfl⟩
    | some v =>
      obtain ⟨t, rfl⟩ := (h.loopFine hg).1 s (Or.inl rfl)
      rw [readEnv_unicode hg, wordsIn_eq]
      exact ⟨by simp, rfl⟩

theorem applied_prog {env : Env} {c c' : Config} (h : EnvApplied env c c') (k : ProgKey) :
    (k.get c = none → readEnv env.get k.sources ≠ some none) ∧ k.get c' = k.withEnv env.get (k.get c) := by
  cases k with
  | targetRunner s =>
    refine ⟨fun _ => by simp [ProgKey.sources, readEnv], ?_⟩
    simp only [ProgKey.withEnv, ProgKey.sources, readEnv, ProgKey.get, h.target]
    cases BMap.get c.target s <;> simp
    rename_i t
    cases t.runner <;> simp
  | docBrowser =>
    cases hb : c.doc.browser with
    | some x =>
      have hd := h.doc
      rw [DocConfig.applyEnv_some hb] at hd
      have hd : c.doc = c'.doc := by simpa using hd
      refine ⟨fun hn => by simp [ProgKey.get, hb] at hn, ?_⟩
      simp only [ProgKey.get, ProgKey.withEnv, ← hd, hb, Option.map_some]
    | none =>
      have law := DocConfig.applyEnv_none env hb
      refine ⟨fun _ => law.fine h.doc, ?_⟩
      have := law.value h.doc
      simp only [ProgKey.get, ProgKey.withEnv, hb, Option.map_none]
      simp only [viewProg, hb, Option.map_none] at this
      generalize readEnv env.get (ProgKey.sources .docBrowser) = x at this ⊢
      rcases x with _ | _ | ⟨n, a⟩ <;> exact this

/-! ### When it succeeds -/

/-- No consulted variable is malformed. -/
structure EnvFine (get : Str → Option OsStr) (c : Config) : Prop where
  scalar : ∀ k : ScalarKey, k ≠ .cargoNewVcs → readEnv get k.sources ≠ some none
  list : ∀ k : ListKey, readEnv get k.sources ≠ some none
  prog : ∀ k : ProgKey, k.get c = none → readEnv get k.sources ≠ some none

theorem envFine_of_applied {env : Env} {c c' : Config} (hd : DistinctKeys env) (h : EnvApplied env c c') :
    EnvFine env.get c where
  scalar k hk := by
    by_cases hr : ∃ s, k = .registriesIndex s ∨ k = .registriesToken s ∨ k = .registriesProtocol s
    · exact (loop_scalar hd h k hr).1
    · refine (section_scalar h k hk fun s => ?_).1
      exact ⟨fun e => hr ⟨s, .inl e⟩, fun e => hr ⟨s, .inr (.inl e)⟩, fun e => hr ⟨s, .inr (.inr e)⟩⟩
  list k := (applied_list hd h k).1
  prog k := (applied_prog h k).1

theorem loopFine_of_fine {env : Env} (hd : DistinctKeys env) {c : Config} (h : EnvFine env.get c) :
    ∀ e ∈ env, LoopFine e.1 e.2 := by
  rintro ⟨n, v⟩ he
  have hg := Env.get_of_mem hd he
  constructor
  · intro k hk
    cases v with
    | unicode s => exact ⟨s, rfl⟩
    | invalid b =>
      exfalso
      rcases hk with hk | hk | hk
      · refine h.list (.alias k) ?_
        simp only at hk
        rw [hk] at hg
        rw [sources_alias]; exact readEnv_invalid hg
      · refine h.scalar (.registriesIndex k) (by simp) ?_
        simp only at hk
        rw [hk] at hg
        rw [sources_index]; exact readEnv_invalid hg
      · refine h.scalar (.registriesToken k) (by simp) ?_
        simp only at hk
        rw [hk] at hg
        rw [sources_token]; exact readEnv_invalid hg
  · intro hk
    simp only at hk
    have := h.scalar (.registriesProtocol "crates-io".toList) (by simp)
    rw [sources_protocol rfl] at this
    rw [hk] at hg
    cases v with
    | invalid b => exact absurd (readEnv_invalid hg) this
    | unicode s =>
      rw [readEnv_unicode hg, find_protocol] at this
      cases hp : Protocol.fromStr s with
      | ok p => exact ⟨s, p, rfl, hp⟩
      | err e => rw [hp] at this; exact absurd rfl this
      | panic => rw [hp] at this; exact absurd rfl this

theorem applied_of_fine {env : Env} (hd : DistinctKeys env) {c : Config} (h : EnvFine env.get c) :
    ∃ c', EnvApplied env c c' := by
  obtain ⟨c1, hc1⟩ := (applyVars_ok_iff env c).2 (loopFine_of_fine hd h)
  have S := fun (k : ScalarKey) (hk : k ≠ .cargoNewVcs) => h.scalar k hk
  obtain ⟨b1, hb1⟩ := ((reads_i32 env "CARGO_BUILD_JOBS").ifSome c.build.jobs).ok (S .buildJobs (by simp))
  obtain ⟨b2, hb2⟩ := ((reads_text env "RUSTC").ifSomeElse (reads_text env "CARGO_BUILD_RUSTC") c.build.rustc).ok
    (S .buildRustc (by simp))
  obtain ⟨b3, hb3⟩ := ((reads_wrapper env "RUSTC_WRAPPER").ifSomeElse (reads_wrapper env "CARGO_BUILD_RUSTC_WRAPPER")
    c.build.rustcWrapper).ok (S .buildRustcWrapper (by simp))
  obtain ⟨b4, hb4⟩ := ((reads_wrapper env "RUSTC_WORKSPACE_WRAPPER").ifSomeElse
    (reads_wrapper env "CARGO_BUILD_RUSTC_WORKSPACE_WRAPPER") c.build.rustcWorkspaceWrapper).ok
    (S .buildRustcWorkspaceWrapper (by simp))
  obtain ⟨b5, hb5⟩ := ((reads_text env "RUSTDOC").ifSomeElse (reads_text env "CARGO_BUILD_RUSTDOC") c.build.rustdoc).ok
    (S .buildRustdoc (by simp))
  obtain ⟨b6, hb6⟩ := ((reads_target env "CARGO_BUILD_TARGET".toList).ifSome c.build.target).ok (h.list .buildTarget)
  obtain ⟨b7, hb7⟩ := ((reads_text env "CARGO_TARGET_DIR").ifSomeElse (reads_text env "CARGO_BUILD_TARGET_DIR")
    c.build.targetDir).ok (S .buildTargetDir (by simp))
  obtain ⟨⟨b8, o8⟩, hb8⟩ := (law_rustflags env _ _ _ c.build.rustflags).ok (h.list .buildRustflags)
  obtain ⟨⟨b9, o9⟩, hb9⟩ := (law_rustflags env _ _ _ c.build.rustdocflags).ok (h.list .buildRustdocflags)
  obtain ⟨b10, hb10⟩ := ((reads_incremental env "CARGO_INCREMENTAL".toList).ifSomeElse
    (reads_bool env "CARGO_BUILD_INCREMENTAL") c.build.incremental).ok (S .buildIncremental (by simp))
  obtain ⟨b11, hb11⟩ := ((reads_text env "CARGO_BUILD_DEP_INFO_BASEDIR").ifSome c.build.depInfoBasedir).ok
    (S .buildDepInfoBasedir (by simp))
  have hdoc : ∃ d, c.doc.applyEnv env = .ok d := by
    cases hb : c.doc.browser with
    | some x => exact ⟨_, DocConfig.applyEnv_some hb⟩
    | none => exact (DocConfig.applyEnv_none env hb).ok (h.prog .docBrowser (by simp [ProgKey.get, hb]))
  obtain ⟨d, hdoc⟩ := hdoc
  obtain ⟨f, hf⟩ := ((reads_frequency env "CARGO_FUTURE_INCOMPAT_REPORT_FREQUENCY").ifSome
    c.futureIncompatReport.frequency).ok (S .futureIncompatReportFrequency (by simp))
  obtain ⟨p1, hp1⟩ := ((reads_bool env "CARGO_HTTP_DEBUG").ifSome c.http.debug).ok (S .httpDebug (by simp))
  obtain ⟨p2, hp2⟩ := ((reads_text env "CARGO_HTTP_PROXY").ifSome c.http.proxy).ok (S .httpProxy (by simp))
  obtain ⟨p3, hp3⟩ := ((reads_u32 env "CARGO_HTTP_TIMEOUT").ifSome c.http.timeout).ok (S .httpTimeout (by simp))
  obtain ⟨p4, hp4⟩ := ((reads_text env "CARGO_HTTP_CAINFO").ifSome c.http.cainfo).ok (S .httpCainfo (by simp))
  obtain ⟨p5, hp5⟩ := ((reads_bool env "CARGO_HTTP_CHECK_REVOKE").ifSome c.http.checkRevoke).ok
    (S .httpCheckRevoke (by simp))
  obtain ⟨p6, hp6⟩ := ((reads_u32 env "CARGO_HTTP_LOW_SPEED_LIMIT").ifSome c.http.lowSpeedLimit).ok
    (S .httpLowSpeedLimit (by simp))
  obtain ⟨p7, hp7⟩ := ((reads_bool env "CARGO_HTTP_MULTIPLEXING").ifSome c.http.multiplexing).ok
    (S .httpMultiplexing (by simp))
  obtain ⟨p8, hp8⟩ := ((reads_text env "CARGO_HTTP_USER_AGENT").ifSome c.http.userAgent).ok (S .httpUserAgent (by simp))
  obtain ⟨n1, hn1⟩ := ((reads_u32 env "CARGO_NET_RETRY").ifSome c.net.retry).ok (S .netRetry (by simp))
  obtain ⟨n2, hn2⟩ := ((reads_bool env "CARGO_NET_GIT_FETCH_WITH_CLI").ifSome c.net.gitFetchWithCli).ok
    (S .netGitFetchWithCli (by simp))
  obtain ⟨n3, hn3⟩ := ((reads_bool env "CARGO_NET_OFFLINE").ifSome c.net.offline).ok (S .netOffline (by simp))
  obtain ⟨g1, hg1⟩ := ((reads_text env "CARGO_REGISTRY_DEFAULT").ifSome c.registry.default).ok
    (S .registryDefault (by simp))
  obtain ⟨g2, hg2⟩ := ((reads_textRedacted env "CARGO_REGISTRY_TOKEN").ifSome c.registry.token).ok
    (S .registryToken (by simp))
  obtain ⟨t1, ht1⟩ := ((reads_bool env "CARGO_TERM_QUIET").ifSome c.term.quiet).ok (S .termQuiet (by simp))
  obtain ⟨t2, ht2⟩ := ((reads_bool env "CARGO_TERM_VERBOSE").ifSome c.term.verbose).ok (S .termVerbose (by simp))
  obtain ⟨t3, ht3⟩ := ((reads_color env "CARGO_TERM_COLOR").ifSome c.term.color).ok (S .termColor (by simp))
  obtain ⟨t4, ht4⟩ := ((reads_when env "CARGO_TERM_PROGRESS_WHEN").ifSome c.term.progress.when).ok
    (S .termProgressWhen (by simp))
  obtain ⟨t5, ht5⟩ := ((reads_u32 env "CARGO_TERM_PROGRESS_WIDTH").ifSome c.term.progress.width).ok
    (S .termProgressWidth (by simp))
  refine ⟨⟨c1.alias, ⟨b1, b2, b3, b4, b5, b6, b7, b8, b9, b10, b11, o8, o9⟩, d, c.env, ⟨f⟩, c.cargoNew,
    ⟨p1, p2, p3, p4, p5, p6, p7, p8⟩, ⟨n1, n2, n3⟩, c1.registries, ⟨g1, g2⟩, c.target, ⟨t1, t2, t3, ⟨t4, t5⟩⟩⟩,
    ⟨c1, hc1, rfl, rfl⟩, ?_, hdoc, ?_, ?_, ?_, ?_, ?_, rfl, rfl, rfl⟩
  · exact (BuildConfig.applyEnv_ok_iff env _ _).2 ⟨hb1, hb2, hb3, hb4, hb5, hb6, hb7, hb8, hb9, hb10, hb11⟩
  · exact (FutureIncompatReportConfig.applyEnv_ok_iff env _ _).2 hf
  · exact (HttpConfig.applyEnv_ok_iff env _ _).2 ⟨hp1, hp2, hp3, hp4, hp5, hp6, hp7, hp8⟩
  · exact (NetConfig.applyEnv_ok_iff env _ _).2 ⟨hn1, hn2, hn3⟩
  · exact (RegistryConfig.applyEnv_ok_iff env _ _).2 ⟨hg1, hg2⟩
  · exact (TermConfig.applyEnv_ok_iff env _ _).2 ⟨ht1, ht2, ht3, ht4, ht5⟩

end CC
