import Verif.Lemmas.EnvSec
import Verif.Lemmas.EnvLoop
/-
Helper lemmas for `Config::apply_env` as a whole.
-/
namespace CC

/-! ### The environment as a map -/

theorem Env.mem_of_get {env : Env} {n : Str} {v : OsStr} (h : env.get n = some v) : (n, v) ∈ env := by
  induction env with
  | nil => cases h
  | cons e env ih =>
    obtain ⟨n', v'⟩ := e
    simp only [Env.get] at h
    split at h
    · rename_i hn; cases h; subst hn; exact List.mem_cons_self
    · exact List.mem_cons_of_mem _ (ih h)

theorem Env.get_eq_none {env : Env} {n : Str} (h : ∀ e ∈ env, e.1 ≠ n) : env.get n = none := by
  cases hg : env.get n with
  | none => rfl
  | some v => exact absurd rfl (h _ (Env.mem_of_get hg))

theorem Env.get_of_mem {env : Env} (hd : DistinctKeys env) {n : Str} {v : OsStr} (h : (n, v) ∈ env) :
    env.get n = some v := by
  induction env with
  | nil => cases h
  | cons e env ih =>
    obtain ⟨n', v'⟩ := e
    obtain ⟨h1, h2⟩ := List.pairwise_cons.1 hd
    simp only [Env.get]
    rcases List.mem_cons.1 h with h | h
    · cases h; rw [if_pos rfl]
    · rw [if_neg (h1 _ h)]; exact ih h2 h

theorem Env.get_perm {env env' : Env} (hd : DistinctKeys env) (hp : env.Perm env') : env.get = env'.get := by
  have hd' : DistinctKeys env' := (hp.pairwise_iff fun h => h.symm).1 hd
  funext n
  cases h : env.get n with
  | some v => exact (Env.get_of_mem hd' (hp.mem_iff.1 (Env.mem_of_get h))).symm
  | none =>
    symm
    refine Env.get_eq_none fun e he hn => ?_
    have := Env.get_of_mem hd (n := e.1) (v := e.2) (hp.mem_iff.2 he)
    rw [hn, h] at this; cases this

/-! ### The loop -/

theorem applyVars_ok_iff (env : Env) (c : Config) :
    (∃ c', c.applyVars env = .ok c') ↔ ∀ e ∈ env, LoopFine e.1 e.2 := by
  induction env generalizing c with
  | nil => exact ⟨fun _ _ h => (List.not_mem_nil h).elim, fun _ => ⟨c, rfl⟩⟩
  | cons e env ih =>
    obtain ⟨n, v⟩ := e
    simp only [Config.applyVars, Res.bind_eq_ok]
    constructor
    · rintro ⟨c', c1, h1, h2⟩ e he
      rcases List.mem_cons.1 he with rfl | he
      · exact (applyVar_ok_iff c n v).1 ⟨_, h1⟩
      · exact (ih c1).1 ⟨_, h2⟩ e he
    · intro h
      obtain ⟨c1, h1⟩ := (applyVar_ok_iff c n v).2 (h (n, v) List.mem_cons_self)
      obtain ⟨c', h2⟩ := (ih c1).2 fun e he => h e (List.mem_cons_of_mem _ he)
      exact ⟨c', c1, h1, h2⟩

theorem applyVars_ne_panic (env : Env) (c : Config) : c.applyVars env ≠ .panic := by
  induction env generalizing c with
  | nil => simp [Config.applyVars]
  | cons e env ih =>
    obtain ⟨n, v⟩ := e
    simp only [Config.applyVars]
    exact Res.bind_ne_panic (applyVar_ne_panic c n v) fun c1 _ => ih c1

/-- All variables in turn. -/
def LoopView.setAll (w : LoopView) (env : Env) : LoopView := env.foldl (fun w e => w.set e.1 e.2) w

theorem applyVars_frame {env : Env} {c c' : Config} (h : c.applyVars env = .ok c') :
    c' = { c with alias := c'.alias, registries := c'.registries } ∧
    (c.alias.Sorted → c'.alias.Sorted) ∧ (c.registries.Sorted → c'.registries.Sorted) ∧
    loopView c' = (loopView c).setAll env := by
  induction env generalizing c with
  | nil => cases h; exact ⟨rfl, id, id, rfl⟩
  | cons e env ih =>
    obtain ⟨n, v⟩ := e
    simp only [Config.applyVars, Res.bind_eq_ok] at h
    obtain ⟨c1, h1, h2⟩ := h
    obtain ⟨f1, a1, r1, w1⟩ := applyVar_frame h1
    obtain ⟨f2, a2, r2, w2⟩ := ih h2
    refine ⟨?_, fun h => a2 (a1 h), fun h => r2 (r1 h), ?_⟩
    · rw [f2, f1]
    · rw [w2, w1]; rfl

/-- The loop's part of the config in terms of lookups. -/
def LoopView.final (w : LoopView) (get : Str → Option OsStr) : LoopView where
  alias k := match get (aliasVar k) with
    | some v => v.toStr?.map fun s => StringList.fromString s (some (.environment (aliasVar k)))
    | none => w.alias k
  index k := match get (indexVar k) with
    | some v => v.toStr?.map fun s => ⟨s, some (.environment (indexVar k))⟩
    | none => w.index k
  token k := match get (tokenVar k) with
    | some v => v.toStr?.map fun s => ⟨s, some (.environment (tokenVar k))⟩
    | none => w.token k
  protocol k := if k = "crates-io".toList then
      match get protoVar with
      | some v => v.toStr?.bind fun s => (Protocol.fromStr s).toOption.map fun p => ⟨p, some (.environment protoVar)⟩
      | none => w.protocol k
    else w.protocol k
  present k := w.present k || (get (indexVar k)).isSome || (get (tokenVar k)).isSome ||
      (decide (k = "crates-io".toList) && (get protoVar).isSome)

attribute [local irreducible] aliasVar indexVar tokenVar protoVar

theorem setAll_eq_final (env : Env) (hd : DistinctKeys env) (w : LoopView) : w.setAll env = w.final env.get := by
  induction env generalizing w with
  | nil =>
    refine LoopView.ext' ?_ ?_ ?_ ?_ ?_ <;> intro k <;> simp only [LoopView.setAll, LoopView.final, List.foldl, Env.get]
    · split <;> rfl
    · simp
  | cons e env ih =>
    obtain ⟨n, v⟩ := e
    obtain ⟨h1, h2⟩ := List.pairwise_cons.1 hd
    have hn : Env.get env n = none := Env.get_eq_none fun e he => (h1 e he).symm
    have hs : w.setAll ((n, v) :: env) = (w.set n v).setAll env := rfl
    rw [hs, ih h2]
    refine LoopView.ext' ?_ ?_ ?_ ?_ ?_ <;> intro k <;> simp only [LoopView.final, Env.get, LoopView.set] <;>
      generalize "crates-io".toList = ci
    · by_cases h : n = aliasVar k
      · subst h; simp [hn]
      · simp [h]
    · by_cases h : n = indexVar k
      · subst h; simp [hn]
      · simp [h]
    · by_cases h : n = tokenVar k
      · subst h; simp [hn]
      · simp [h]
    · by_cases h : n = protoVar
      · subst h; by_cases hk : k = ci <;> simp [hn, hk]
      · simp [h]
    · by_cases hi : n = indexVar k
      · subst hi; simp [hn, index_ne_token, index_ne_proto]
      · by_cases ht : n = tokenVar k
        · subst ht; simp [hn, (index_ne_token _ _).symm, token_ne_proto]
        · by_cases hp : n = protoVar
          · subst hp; by_cases hk : k = ci <;> simp [hn, hi, ht, hk]
          · simp [hi, ht, hp]

theorem registries_ext {a b : Config} (ha : a.registries.Sorted) (hb : b.registries.Sorted)
    (h : loopView a = loopView b) : a.registries = b.registries := by
  refine BMap.ext ha hb fun k => ?_
  have h1 := congrFun (congrArg LoopView.index h) k
  have h2 := congrFun (congrArg LoopView.token h) k
  have h3 := congrFun (congrArg LoopView.protocol h) k
  have h4 := congrFun (congrArg LoopView.present h) k
  simp only [loopView] at h1 h2 h3 h4
  cases hx : BMap.get a.registries k <;> cases hy : BMap.get b.registries k <;> rw [hx, hy] at h1 h2 h3 h4
  · simp at h4
  · simp at h4
  · rename_i x y
    cases x; cases y
    simp only [Option.bind_some] at h1 h2 h3
    simp [h1, h2, h3]

theorem alias_ext {a b : Config} (ha : a.alias.Sorted) (hb : b.alias.Sorted)
    (h : loopView a = loopView b) : a.alias = b.alias :=
  BMap.ext ha hb fun k => congrFun (congrArg LoopView.alias h) k

/-! ### The sections -/

theorem BuildConfig.applyEnv_ok_iff (env : Env) (b b' : BuildConfig) : b.applyEnv env = .ok b' ↔
    (env.parse i32FromStr "CARGO_BUILD_JOBS".toList).ifSome b.jobs some = .ok b'.jobs ∧
    Res.ifSomeElse (env.var "RUSTC".toList) some (env.var "CARGO_BUILD_RUSTC".toList) b.rustc some = .ok b'.rustc ∧
    Res.ifSomeElse (env.var "RUSTC_WRAPPER".toList) wrapperOf (env.var "CARGO_BUILD_RUSTC_WRAPPER".toList)
      b.rustcWrapper wrapperOf = .ok b'.rustcWrapper ∧
    Res.ifSomeElse (env.var "RUSTC_WORKSPACE_WRAPPER".toList) wrapperOf
      (env.var "CARGO_BUILD_RUSTC_WORKSPACE_WRAPPER".toList) b.rustcWorkspaceWrapper wrapperOf
        = .ok b'.rustcWorkspaceWrapper ∧
    Res.ifSomeElse (env.var "RUSTDOC".toList) some (env.var "CARGO_BUILD_RUSTDOC".toList) b.rustdoc some
      = .ok b'.rustdoc ∧
    (env.var "CARGO_BUILD_TARGET".toList).ifSome b.target (fun v => some (.string v)) = .ok b'.target ∧
    Res.ifSomeElse (env.var "CARGO_TARGET_DIR".toList) some (env.var "CARGO_BUILD_TARGET_DIR".toList) b.targetDir some
      = .ok b'.targetDir ∧
    rustflagsFromEnv env "CARGO_ENCODED_RUSTFLAGS".toList "RUSTFLAGS".toList "CARGO_BUILD_RUSTFLAGS".toList b.rustflags
      = .ok (b'.rustflags, b'.overrideTargetRustflags) ∧
    rustflagsFromEnv env "CARGO_ENCODED_RUSTDOCFLAGS".toList "RUSTDOCFLAGS".toList "CARGO_BUILD_RUSTDOCFLAGS".toList
      b.rustdocflags = .ok (b'.rustdocflags, b'.overrideTargetRustdocflags) ∧
    Res.ifSomeElse (env.var "CARGO_INCREMENTAL".toList) (fun v => some { val := v.val = "1".toList, defn := v.defn })
      (env.parse boolFromStr "CARGO_BUILD_INCREMENTAL".toList) b.incremental some = .ok b'.incremental ∧
    (env.var "CARGO_BUILD_DEP_INFO_BASEDIR".toList).ifSome b.depInfoBasedir some = .ok b'.depInfoBasedir := by
  unfold BuildConfig.applyEnv
  simp only [Res.bind_eq_ok, Res.pure_eq, Res.ok.injEq, Prod.exists]
  constructor
  · rintro ⟨x1, h1, x2, h2, x3, h3, x4, h4, x5, h5, x6, h6, x7, h7, x8, o8, h8, x9, o9, h9, x10, h10, x11, h11, rfl⟩
    exact ⟨h1, h2, h3, h4, h5, h6, h7, h8, h9, h10, h11⟩
  · rintro ⟨h1, h2, h3, h4, h5, h6, h7, h8, h9, h10, h11⟩
    exact ⟨_, h1, _, h2, _, h3, _, h4, _, h5, _, h6, _, h7, _, _, h8, _, _, h9, _, h10, _, h11, rfl⟩

theorem HttpConfig.applyEnv_ok_iff (env : Env) (h h' : HttpConfig) : h.applyEnv env = .ok h' ↔
    (env.parse boolFromStr "CARGO_HTTP_DEBUG".toList).ifSome h.debug some = .ok h'.debug ∧
    (env.var "CARGO_HTTP_PROXY".toList).ifSome h.proxy some = .ok h'.proxy ∧
    (env.parse u32FromStr "CARGO_HTTP_TIMEOUT".toList).ifSome h.timeout some = .ok h'.timeout ∧
    (env.var "CARGO_HTTP_CAINFO".toList).ifSome h.cainfo some = .ok h'.cainfo ∧
    (env.parse boolFromStr "CARGO_HTTP_CHECK_REVOKE".toList).ifSome h.checkRevoke some = .ok h'.checkRevoke ∧
    (env.parse u32FromStr "CARGO_HTTP_LOW_SPEED_LIMIT".toList).ifSome h.lowSpeedLimit some = .ok h'.lowSpeedLimit ∧
    (env.parse boolFromStr "CARGO_HTTP_MULTIPLEXING".toList).ifSome h.multiplexing some = .ok h'.multiplexing ∧
    (env.var "CARGO_HTTP_USER_AGENT".toList).ifSome h.userAgent some = .ok h'.userAgent := by
  unfold HttpConfig.applyEnv
  simp only [Res.bind_eq_ok, Res.pure_eq, Res.ok.injEq]
  constructor
  · rintro ⟨x1, h1, x2, h2, x3, h3, x4, h4, x5, h5, x6, h6, x7, h7, x8, h8, rfl⟩
    exact ⟨h1, h2, h3, h4, h5, h6, h7, h8⟩
  · rintro ⟨h1, h2, h3, h4, h5, h6, h7, h8⟩
    exact ⟨_, h1, _, h2, _, h3, _, h4, _, h5, _, h6, _, h7, _, h8, rfl⟩

theorem NetConfig.applyEnv_ok_iff (env : Env) (n n' : NetConfig) : n.applyEnv env = .ok n' ↔
    (env.parse u32FromStr "CARGO_NET_RETRY".toList).ifSome n.retry some = .ok n'.retry ∧
    (env.parse boolFromStr "CARGO_NET_GIT_FETCH_WITH_CLI".toList).ifSome n.gitFetchWithCli some
      = .ok n'.gitFetchWithCli ∧
    (env.parse boolFromStr "CARGO_NET_OFFLINE".toList).ifSome n.offline some = .ok n'.offline := by
  unfold NetConfig.applyEnv
  simp only [Res.bind_eq_ok, Res.pure_eq, Res.ok.injEq]
  constructor
  · rintro ⟨x1, h1, x2, h2, x3, h3, rfl⟩
    exact ⟨h1, h2, h3⟩
  · rintro ⟨h1, h2, h3⟩
    exact ⟨_, h1, _, h2, _, h3, rfl⟩

theorem RegistryConfig.applyEnv_ok_iff (env : Env) (n n' : RegistryConfig) : n.applyEnv env = .ok n' ↔
    (env.var "CARGO_REGISTRY_DEFAULT".toList).ifSome n.default some = .ok n'.default ∧
    (env.varRedacted "CARGO_REGISTRY_TOKEN".toList).ifSome n.token some = .ok n'.token := by
  unfold RegistryConfig.applyEnv
  simp only [Res.bind_eq_ok, Res.pure_eq, Res.ok.injEq]
  constructor
  · rintro ⟨x1, h1, x2, h2, rfl⟩
    exact ⟨h1, h2⟩
  · rintro ⟨h1, h2⟩
    exact ⟨_, h1, _, h2, rfl⟩

theorem FutureIncompatReportConfig.applyEnv_ok_iff (env : Env) (n n' : FutureIncompatReportConfig) :
    n.applyEnv env = .ok n' ↔
    (env.parse Frequency.fromStr "CARGO_FUTURE_INCOMPAT_REPORT_FREQUENCY".toList).ifSome n.frequency some
      = .ok n'.frequency := by
  unfold FutureIncompatReportConfig.applyEnv
  simp only [Res.bind_eq_ok, Res.pure_eq, Res.ok.injEq]
  constructor
  · rintro ⟨x1, h1, rfl⟩
    exact h1
  · intro h1
    exact ⟨_, h1, rfl⟩

theorem TermConfig.applyEnv_ok_iff (env : Env) (t t' : TermConfig) : t.applyEnv env = .ok t' ↔
    (env.parse boolFromStr "CARGO_TERM_QUIET".toList).ifSome t.quiet some = .ok t'.quiet ∧
    (env.parse boolFromStr "CARGO_TERM_VERBOSE".toList).ifSome t.verbose some = .ok t'.verbose ∧
    (env.parse Color.fromStr "CARGO_TERM_COLOR".toList).ifSome t.color some = .ok t'.color ∧
    (env.parse When.fromStr "CARGO_TERM_PROGRESS_WHEN".toList).ifSome t.progress.when some = .ok t'.progress.when ∧
    (env.parse u32FromStr "CARGO_TERM_PROGRESS_WIDTH".toList).ifSome t.progress.width some
      = .ok t'.progress.width := by
  unfold TermConfig.applyEnv TermProgress.applyEnv
  simp only [Res.bind_eq_ok, Res.pure_eq, Res.ok.injEq]
  constructor
  · rintro ⟨x1, h1, x2, h2, x3, h3, x4, ⟨x5, h5, x6, h6, rfl⟩, rfl⟩
    exact ⟨h1, h2, h3, h5, h6⟩
  · rintro ⟨h1, h2, h3, h4, h5⟩
    exact ⟨_, h1, _, h2, _, h3, _, ⟨_, h4, _, h5, rfl⟩, rfl⟩

/-- How commands are seen by `ProgKey.get`. -/
def viewProg (x : Option PathAndArgs) : Option (Repr' × List (Val Str)) := x.map fun x => (x.repr, x.path :: x.args)

theorem DocConfig.applyEnv_some {env : Env} {d : DocConfig} {x : PathAndArgs} (h : d.browser = some x) :
    d.applyEnv env = .ok d := by
  unfold DocConfig.applyEnv; rw [h]

theorem DocConfig.applyEnv_none (env : Env) {d : DocConfig} (h : d.browser = none) :
    FieldLaw env (ProgKey.sources .docBrowser) mkList (fun d : DocConfig => viewProg d.browser) d (d.applyEnv env) := by
  unfold FieldLaw DocConfig.applyEnv Env.var
  rw [h]
  simp only [ProgKey.sources, readEnv, wordsIn_eq]
  cases env.get "BROWSER".toList with
  | none => rfl
  | some v =>
    cases v with
    | invalid b => exact ⟨_, rfl⟩
    | unicode s =>
      simp only [OsStr.toStr?, Res.ok_bind, PathAndArgs.fromString]
      cases hw : splitSpaceSeparated s with
      | nil => exact ⟨_, rfl⟩
      | cons w ws =>
        refine ⟨_, rfl, ?_⟩
        simp [viewProg, mkList, listFromVar]

/-! ### The whole config -/

/-- `apply_env` succeeded. -/
structure EnvApplied (env : Env) (c c' : Config) : Prop where
  loop : ∃ c1, c.applyVars env = .ok c1 ∧ c'.alias = c1.alias ∧ c'.registries = c1.registries
  build : c.build.applyEnv env = .ok c'.build
  doc : c.doc.applyEnv env = .ok c'.doc
  fir : c.futureIncompatReport.applyEnv env = .ok c'.futureIncompatReport
  http : c.http.applyEnv env = .ok c'.http
  net : c.net.applyEnv env = .ok c'.net
  registry : c.registry.applyEnv env = .ok c'.registry
  term : c.term.applyEnv env = .ok c'.term
  env : c'.env = c.env
  cargoNew : c'.cargoNew = c.cargoNew
  target : c'.target = c.target

theorem applyEnv_ok_iff (env : Env) (c c' : Config) : c.applyEnv env = .ok c' ↔ EnvApplied env c c' := by
  unfold Config.applyEnv
  simp only [Res.bind_eq_ok, Res.pure_eq, Res.ok.injEq]
  constructor
  · rintro ⟨c1, h1, x2, h2, x3, h3, x4, h4, x5, h5, x6, h6, x7, h7, x8, h8, rfl⟩
    have f := (applyVars_frame h1).1
    rw [f] at h2 h3 h4 h5 h6 h7 h8
    refine ⟨⟨c1, h1, rfl, rfl⟩, h2, h3, h4, h5, h6, h7, h8, ?_, ?_, ?_⟩ <;> rw [f]
  · rintro ⟨⟨c1, h1, ha, hr⟩, h2, h3, h4, h5, h6, h7, h8, he, hn, ht⟩
    have f := (applyVars_frame h1).1
    refine ⟨c1, h1, c'.build, ?_, c'.doc, ?_, c'.futureIncompatReport, ?_, c'.http, ?_, c'.net, ?_, c'.registry, ?_,
      c'.term, ?_, ?_⟩
    · rw [f]; exact h2
    · rw [f]; exact h3
    · rw [f]; exact h4
    · rw [f]; exact h5
    · rw [f]; exact h6
    · rw [f]; exact h7
    · rw [f]; exact h8
    · rw [f]
      cases c'
      simp only at ha hr he hn ht ⊢
      rw [ha, hr, he, hn, ht]

theorem EnvApplied.loopView {env : Env} {c c' : Config} (hd : DistinctKeys env) (h : EnvApplied env c c') :
    loopView c' = (loopView c).final env.get := by
  obtain ⟨c1, h1, ha, hr⟩ := h.loop
  have h2 := (applyVars_frame h1).2.2.2
  rw [setAll_eq_final env hd] at h2
  rw [← h2]
  simp only [CC.loopView, ha, hr]

end CC
