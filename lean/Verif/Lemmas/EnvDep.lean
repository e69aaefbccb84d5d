import Verif.Lemmas.EnvKeys
import Verif.Lemmas.Load
/-
Helper lemmas: what `apply_env` depends on, idempotence, and the filter on names.
-/
namespace CC

theorem envRelevant_iff (n : Str) : envRelevant n = true ↔ CargoVariable n := by
  unfold envRelevant CargoVariable startsWith
  rw [Bool.or_eq_true, Bool.or_eq_true, Option.isSome_iff_exists, Option.isSome_iff_exists, decide_eq_true_eq]
  constructor
  · rintro ((⟨r, h⟩ | ⟨r, h⟩) | h)
    · exact Or.inl ⟨r, stripPrefix_eq_some.1 h⟩
    · exact Or.inr (Or.inl ⟨r, stripPrefix_eq_some.1 h⟩)
    · exact Or.inr (Or.inr h)
  · rintro (⟨r, h⟩ | ⟨r, h⟩ | h)
    · exact Or.inl (Or.inl ⟨r, stripPrefix_eq_some.2 h⟩)
    · exact Or.inl (Or.inr ⟨r, stripPrefix_eq_some.2 h⟩)
    · exact Or.inr h

theorem cargo_prefix_relevant {n p r : Str} (h : n = p ++ r) (hp : ∃ q, p = "CARGO".toList ++ q) : CargoVariable n := by
  obtain ⟨q, rfl⟩ := hp
  exact Or.inl ⟨q ++ r, by rw [h, List.append_assoc]⟩

theorem InfluentialVariable.relevant {n : Str} (h : InfluentialVariable n) : CargoVariable n := by
  cases h with
  | plain h =>
    have hall : ∀ m ∈ plainVariables, envRelevant m.toList = true := by decide +kernel
    exact (envRelevant_iff _).1 (hall _ h)
  | alias k => exact cargo_prefix_relevant rfl ⟨"_ALIAS_".toList, by decide⟩
  | index k => rw [List.append_assoc]; exact cargo_prefix_relevant rfl ⟨"_REGISTRIES_".toList, by decide⟩
  | token k => rw [List.append_assoc]; exact cargo_prefix_relevant rfl ⟨"_REGISTRIES_".toList, by decide⟩
  | target _ _ => rw [List.append_assoc, List.append_assoc]; exact cargo_prefix_relevant rfl ⟨"_TARGET_".toList, by decide⟩

theorem aliasVar_influential (k : Str) : InfluentialVariable (aliasVar k) := .alias k
theorem indexVar_influential (k : Str) : InfluentialVariable (indexVar k) := by
  rw [indexVar_eq, ← List.append_assoc]; exact .index k
theorem tokenVar_influential (k : Str) : InfluentialVariable (tokenVar k) := by
  rw [tokenVar_eq, ← List.append_assoc]; exact .token k
theorem protoVar_influential : InfluentialVariable protoVar :=
  .plain (n := "CARGO_REGISTRIES_CRATES_IO_PROTOCOL") (by decide +kernel)

section
variable {env env' : Env}

theorem var_congr {n : Str} (h : env.get n = env'.get n) : env.var n = env'.var n := by
  unfold Env.var; rw [h]
theorem varRedacted_congr {n : Str} (h : env.get n = env'.get n) : env.varRedacted n = env'.varRedacted n := by
  unfold Env.varRedacted; rw [h]
theorem parse_congr {α : Type} {f : Str → Res α} {n : Str} (h : env.get n = env'.get n) :
    env.parse f n = env'.parse f n := by
  unfold Env.parse; rw [var_congr h]

/-- The variables with fixed names have the same values. -/
def SamePlain (env env' : Env) : Prop := ∀ n ∈ plainVariables, env.get n.toList = env'.get n.toList

theorem SamePlain.var (h : SamePlain env env') (n : String) (hn : n ∈ plainVariables) : env.var n.toList = env'.var n.toList :=
  var_congr (h n hn)
theorem SamePlain.varRedacted (h : SamePlain env env') (n : String) (hn : n ∈ plainVariables) :
    env.varRedacted n.toList = env'.varRedacted n.toList := varRedacted_congr (h n hn)
theorem SamePlain.parse (h : SamePlain env env') {α : Type} (f : Str → Res α) (n : String) (hn : n ∈ plainVariables) :
    env.parse f n.toList = env'.parse f n.toList := parse_congr (h n hn)

theorem build_congr (h : SamePlain env env') (c : Config) : c.build.applyEnv env = c.build.applyEnv env' := by
  unfold BuildConfig.applyEnv rustflagsFromEnv
  rw [h.parse _ "CARGO_BUILD_JOBS" (by decide +kernel), h.var "RUSTC" (by decide +kernel), h.var "CARGO_BUILD_RUSTC" (by decide +kernel),
    h.var "RUSTC_WRAPPER" (by decide +kernel), h.var "CARGO_BUILD_RUSTC_WRAPPER" (by decide +kernel),
    h.var "RUSTC_WORKSPACE_WRAPPER" (by decide +kernel), h.var "CARGO_BUILD_RUSTC_WORKSPACE_WRAPPER" (by decide +kernel),
    h.var "RUSTDOC" (by decide +kernel), h.var "CARGO_BUILD_RUSTDOC" (by decide +kernel),
    h.var "CARGO_BUILD_TARGET" (by decide +kernel), h.var "CARGO_TARGET_DIR" (by decide +kernel),
    h.var "CARGO_BUILD_TARGET_DIR" (by decide +kernel), h.var "CARGO_ENCODED_RUSTFLAGS" (by decide +kernel),
    h.var "RUSTFLAGS" (by decide +kernel), h.var "CARGO_BUILD_RUSTFLAGS" (by decide +kernel),
    h.var "CARGO_ENCODED_RUSTDOCFLAGS" (by decide +kernel), h.var "RUSTDOCFLAGS" (by decide +kernel),
    h.var "CARGO_BUILD_RUSTDOCFLAGS" (by decide +kernel), h.var "CARGO_INCREMENTAL" (by decide +kernel),
    h.parse _ "CARGO_BUILD_INCREMENTAL" (by decide +kernel), h.var "CARGO_BUILD_DEP_INFO_BASEDIR" (by decide +kernel)]

theorem doc_congr (h : SamePlain env env') (c : Config) : c.doc.applyEnv env = c.doc.applyEnv env' := by
  unfold DocConfig.applyEnv
  rw [h.var "BROWSER" (by decide +kernel)]

theorem futureIncompatReport_congr (h : SamePlain env env') (c : Config) : c.futureIncompatReport.applyEnv env = c.futureIncompatReport.applyEnv env' := by
  unfold FutureIncompatReportConfig.applyEnv
  rw [h.parse _ "CARGO_FUTURE_INCOMPAT_REPORT_FREQUENCY" (by decide +kernel)]

theorem http_congr (h : SamePlain env env') (c : Config) : c.http.applyEnv env = c.http.applyEnv env' := by
  unfold HttpConfig.applyEnv
  rw [h.parse _ "CARGO_HTTP_DEBUG" (by decide +kernel), h.var "CARGO_HTTP_PROXY" (by decide +kernel),
    h.parse _ "CARGO_HTTP_TIMEOUT" (by decide +kernel), h.var "CARGO_HTTP_CAINFO" (by decide +kernel),
    h.parse _ "CARGO_HTTP_CHECK_REVOKE" (by decide +kernel), h.parse _ "CARGO_HTTP_LOW_SPEED_LIMIT" (by decide +kernel),
    h.parse _ "CARGO_HTTP_MULTIPLEXING" (by decide +kernel), h.var "CARGO_HTTP_USER_AGENT" (by decide +kernel)]

theorem net_congr (h : SamePlain env env') (c : Config) : c.net.applyEnv env = c.net.applyEnv env' := by
  unfold NetConfig.applyEnv
  rw [h.parse _ "CARGO_NET_RETRY" (by decide +kernel), h.parse _ "CARGO_NET_GIT_FETCH_WITH_CLI" (by decide +kernel),
    h.parse _ "CARGO_NET_OFFLINE" (by decide +kernel)]

theorem registry_congr (h : SamePlain env env') (c : Config) : c.registry.applyEnv env = c.registry.applyEnv env' := by
  unfold RegistryConfig.applyEnv
  rw [h.var "CARGO_REGISTRY_DEFAULT" (by decide +kernel), h.varRedacted "CARGO_REGISTRY_TOKEN" (by decide +kernel)]

theorem term_congr (h : SamePlain env env') (c : Config) : c.term.applyEnv env = c.term.applyEnv env' := by
  unfold TermConfig.applyEnv TermProgress.applyEnv
  rw [h.parse _ "CARGO_TERM_QUIET" (by decide +kernel), h.parse _ "CARGO_TERM_VERBOSE" (by decide +kernel),
    h.parse _ "CARGO_TERM_COLOR" (by decide +kernel), h.parse _ "CARGO_TERM_PROGRESS_WHEN" (by decide +kernel),
    h.parse _ "CARGO_TERM_PROGRESS_WIDTH" (by decide +kernel)]

/-- The sections depend on the environment through the variables with fixed names only. -/
theorem sections_congr (h : SamePlain env env') (c : Config) :
    c.build.applyEnv env = c.build.applyEnv env' ∧ c.doc.applyEnv env = c.doc.applyEnv env' ∧
    c.futureIncompatReport.applyEnv env = c.futureIncompatReport.applyEnv env' ∧
    c.http.applyEnv env = c.http.applyEnv env' ∧ c.net.applyEnv env = c.net.applyEnv env' ∧
    c.registry.applyEnv env = c.registry.applyEnv env' ∧ c.term.applyEnv env = c.term.applyEnv env' :=
  ⟨build_congr h c, doc_congr h c, futureIncompatReport_congr h c, http_congr h c, net_congr h c, registry_congr h c, term_congr h c⟩

theorem loopFine_congr (hd : DistinctKeys env) (hd' : DistinctKeys env')
    (h : ∀ n, InfluentialVariable n → env.get n = env'.get n) (hf : ∀ e ∈ env, LoopFine e.1 e.2) :
    ∀ e ∈ env', LoopFine e.1 e.2 := by
  rintro ⟨n, v⟩ he
  have hg := Env.get_of_mem hd' he
  have key : InfluentialVariable n → LoopFine n v := fun hr => by
    have h2 : env.get n = some v := (h n hr).trans hg
    exact hf (n, v) (Env.mem_of_get h2)
  refine ⟨fun k hk => ?_, fun hk => ?_⟩
  · refine (key ?_).1 k hk
    rcases hk with hk | hk | hk <;> simp only at hk <;> rw [hk]
    · exact aliasVar_influential k
    · exact indexVar_influential k
    · exact tokenVar_influential k
  · refine (key ?_).2 hk
    simp only at hk
    rw [hk]; exact protoVar_influential

theorem final_congr (h : ∀ n, InfluentialVariable n → env.get n = env'.get n) (w : LoopView) :
    w.final env.get = w.final env'.get := by
  unfold LoopView.final
  simp only [h _ (aliasVar_influential _), h _ (indexVar_influential _), h _ (tokenVar_influential _), h _ protoVar_influential]

theorem applied_congr (hd : DistinctKeys env) (hd' : DistinctKeys env') {c c' : Config} (ha : c.alias.Sorted)
    (hr : c.registries.Sorted) (h : ∀ n, InfluentialVariable n → env.get n = env'.get n) (hc : EnvApplied env c c') :
    EnvApplied env' c c' := by
  obtain ⟨s1, s2, s3, s4, s5, s6, s7⟩ := sections_congr (fun n hn => h _ (.plain hn)) c
  obtain ⟨c1, hc1, h1, h2⟩ := hc.loop
  obtain ⟨d1, hd1⟩ := (applyVars_ok_iff env' c).2
    (loopFine_congr hd hd' h ((applyVars_ok_iff env c).1 ⟨c1, hc1⟩))
  obtain ⟨-, a1, r1, w1⟩ := applyVars_frame hc1
  obtain ⟨-, a2, r2, w2⟩ := applyVars_frame hd1
  rw [setAll_eq_final _ hd, final_congr h] at w1
  rw [setAll_eq_final _ hd'] at w2
  have e := w1.trans w2.symm
  refine ⟨⟨d1, hd1, h1.trans (alias_ext (a1 ha) (a2 ha) e), h2.trans (registries_ext (r1 hr) (r2 hr) e)⟩,
    s1 ▸ hc.build, s2 ▸ hc.doc, s3 ▸ hc.fir, s4 ▸ hc.http, s5 ▸ hc.net, s6 ▸ hc.registry, s7 ▸ hc.term,
    hc.env, hc.cargoNew, hc.target⟩

end

theorem Reads.ne_panic {α δ κ φ : Type} {env : Env} {src : Source δ} {mk : Str → δ → κ} {view : φ → κ} {f : α → φ}
    {r : Res (Option α)} (h : Reads env src mk view f r) : r ≠ .panic := by
  unfold Reads at h
  split at h
  · rw [h]; simp
  · obtain ⟨e, h⟩ := h; rw [h]; simp
  · obtain ⟨v, h, -⟩ := h; rw [h]; simp

theorem applyEnv_ne_panic (env : Env) (c : Config) : c.applyEnv env ≠ .panic := by
  unfold Config.applyEnv BuildConfig.applyEnv FutureIncompatReportConfig.applyEnv HttpConfig.applyEnv NetConfig.applyEnv
    RegistryConfig.applyEnv TermConfig.applyEnv TermProgress.applyEnv
  refine Res.bind_ne_panic (applyVars_ne_panic env c) fun c1 _ => ?_
  refine Res.bind_ne_panic ?_ fun _ _ => ?_
  · refine Res.bind_ne_panic ((reads_i32 env _).ifSome _).ne_panic fun _ _ => ?_
    refine Res.bind_ne_panic ((reads_text env _).ifSomeElse (reads_text env _) _).ne_panic fun _ _ => ?_
    refine Res.bind_ne_panic ((reads_wrapper env _).ifSomeElse (reads_wrapper env _) _).ne_panic fun _ _ => ?_
    refine Res.bind_ne_panic ((reads_wrapper env _).ifSomeElse (reads_wrapper env _) _).ne_panic fun _ _ => ?_
    refine Res.bind_ne_panic ((reads_text env _).ifSomeElse (reads_text env _) _).ne_panic fun _ _ => ?_
    refine Res.bind_ne_panic ((reads_target env _).ifSome _).ne_panic fun _ _ => ?_
    refine Res.bind_ne_panic ((reads_text env _).ifSomeElse (reads_text env _) _).ne_panic fun _ _ => ?_
    refine Res.bind_ne_panic (law_rustflags env _ _ _ _).ne_panic fun _ _ => ?_
    refine Res.bind_ne_panic (law_rustflags env _ _ _ _).ne_panic fun _ _ => ?_
    refine Res.bind_ne_panic ((reads_incremental env _).ifSomeElse (reads_bool env _) _).ne_panic fun _ _ => ?_
    refine Res.bind_ne_panic ((reads_text env _).ifSome _).ne_panic fun _ _ => ?_
    simp
  refine Res.bind_ne_panic ?_ fun _ _ => ?_
  · generalize { c1 with build := _ } = c2
    cases hb : c2.doc.browser with
    | some x => rw [DocConfig.applyEnv_some hb]; simp
    | none => exact (DocConfig.applyEnv_none env hb).ne_panic
  refine Res.bind_ne_panic ?_ fun _ _ => ?_
  · refine Res.bind_ne_panic ((reads_frequency env _).ifSome _).ne_panic fun _ _ => ?_
    simp
  refine Res.bind_ne_panic ?_ fun _ _ => ?_
  · refine Res.bind_ne_panic ((reads_bool env _).ifSome _).ne_panic fun _ _ => ?_
    refine Res.bind_ne_panic ((reads_text env _).ifSome _).ne_panic fun _ _ => ?_
    refine Res.bind_ne_panic ((reads_u32 env _).ifSome _).ne_panic fun _ _ => ?_
    refine Res.bind_ne_panic ((reads_text env _).ifSome _).ne_panic fun _ _ => ?_
    refine Res.bind_ne_panic ((reads_bool env _).ifSome _).ne_panic fun _ _ => ?_
    refine Res.bind_ne_panic ((reads_u32 env _).ifSome _).ne_panic fun _ _ => ?_
    refine Res.bind_ne_panic ((reads_bool env _).ifSome _).ne_panic fun _ _ => ?_
    refine Res.bind_ne_panic ((reads_text env _).ifSome _).ne_panic fun _ _ => ?_
    simp
  refine Res.bind_ne_panic ?_ fun _ _ => ?_
  · refine Res.bind_ne_panic ((reads_u32 env _).ifSome _).ne_panic fun _ _ => ?_
    refine Res.bind_ne_panic ((reads_bool env _).ifSome _).ne_panic fun _ _ => ?_
    refine Res.bind_ne_panic ((reads_bool env _).ifSome _).ne_panic fun _ _ => ?_
    simp
  refine Res.bind_ne_panic ?_ fun _ _ => ?_
  · refine Res.bind_ne_panic ((reads_text env _).ifSome _).ne_panic fun _ _ => ?_
    refine Res.bind_ne_panic ((reads_textRedacted env _).ifSome _).ne_panic fun _ _ => ?_
    simp
  refine Res.bind_ne_panic ?_ fun _ _ => ?_
  · refine Res.bind_ne_panic ((reads_bool env _).ifSome _).ne_panic fun _ _ => ?_
    refine Res.bind_ne_panic ((reads_bool env _).ifSome _).ne_panic fun _ _ => ?_
    refine Res.bind_ne_panic ((reads_color env _).ifSome _).ne_panic fun _ _ => ?_
    refine Res.bind_ne_panic ?_ fun _ _ => ?_
    · refine Res.bind_ne_panic ((reads_when env _).ifSome _).ne_panic fun _ _ => ?_
      refine Res.bind_ne_panic ((reads_u32 env _).ifSome _).ne_panic fun _ _ => ?_
      simp
    simp
  simp

theorem applyEnv_congr {env env' : Env} {c : Config} (hd : DistinctKeys env) (hd' : DistinctKeys env') (ha : c.alias.Sorted)
    (hr : c.registries.Sorted) (h : ∀ n, InfluentialVariable n → env.get n = env'.get n) :
    (c.applyEnv env).Same (c.applyEnv env') := by
  refine Res.same_of_iff (applyEnv_ne_panic _ _) (applyEnv_ne_panic _ _) fun a => ?_
  rw [applyEnv_ok_iff, applyEnv_ok_iff]
  exact ⟨applied_congr hd hd' ha hr h, applied_congr hd' hd ha hr fun n hn => (h n hn).symm⟩

/-! ### Idempotence -/

theorem ifSome_idem {α β : Type} {r : Res (Option α)} {b x : β} {f : α → β} (h : r.ifSome b f = .ok x) :
    r.ifSome x f = .ok x := by
  unfold Res.ifSome at h ⊢
  rcases r with (_ | v) | _ | _
  · rfl
  · exact h
  · exact h
  · exact h

theorem ifSomeElse_idem {α α' β : Type} {r : Res (Option α)} {s : Res (Option α')} {b x : β} {f : α → β} {g : α' → β}
    (h : Res.ifSomeElse r f s b g = .ok x) : Res.ifSomeElse r f s x g = .ok x := by
  unfold Res.ifSomeElse at h ⊢
  rcases r with (_ | v) | _ | _
  · exact ifSome_idem h
  · exact h
  · exact h
  · exact h

theorem rustflags_idem {env : Env} {e p b : Str} {old x : Option Flags} {o : Bool}
    (h : rustflagsFromEnv env e p b old = .ok (x, o)) : rustflagsFromEnv env e p b x = .ok (x, o) := by
  unfold rustflagsFromEnv at h ⊢
  rcases hv : env.var e with (_ | v) | _ | _ <;> rw [hv] at h
  · simp only [Res.ok_bind] at h ⊢
    unfold Res.ifSomeElse Res.ifSome at h ⊢
    rcases hp : env.var p with (_ | w) | _ | _ <;> rw [hp] at h
    · simp only [Res.ok_bind] at h ⊢
      rcases hb : env.var b with (_ | u) | _ | _ <;> rw [hb] at h
      · simp only [Res.ok_bind, Res.ok.injEq, Prod.mk.injEq] at h ⊢
        exact ⟨trivial, h.2⟩
      · exact h
      · exact h
      · exact h
    · exact h
    · exact h
    · exact h
  · exact h
  · exact h
  · exact h

theorem applied_idem {env : Env} (hd : DistinctKeys env) {c c' : Config} (ha : c.alias.Sorted) (hr : c.registries.Sorted)
    (h : EnvApplied env c c') : EnvApplied env c' c' := by
  obtain ⟨c1, hc1, h1, h2⟩ := h.loop
  obtain ⟨d1, hd1⟩ := (applyVars_ok_iff env c').2 ((applyVars_ok_iff env c).1 ⟨c1, hc1⟩)
  obtain ⟨-, a1, r1, -⟩ := applyVars_frame hc1
  obtain ⟨-, a2, r2, w2⟩ := applyVars_frame hd1
  have sa : c'.alias.Sorted := h1 ▸ a1 ha
  have sr : c'.registries.Sorted := h2 ▸ r1 hr
  rw [setAll_eq_final _ hd, h.loopView hd] at w2
  have e : loopView d1 = loopView c' := by
    rw [w2, h.loopView hd]
    refine LoopView.ext' ?_ ?_ ?_ ?_ ?_ <;> intro k <;> simp only [LoopView.final] <;> generalize "crates-io".toList = ci
    · cases env.get (aliasVar k) <;> rfl
    · cases env.get (indexVar k) <;> rfl
    · cases env.get (tokenVar k) <;> rfl
    · by_cases hk : k = ci
      · simp only [if_pos hk]; cases env.get protoVar <;> rfl
      · simp only [if_neg hk]
    · cases (env.get (indexVar k)).isSome <;> cases (env.get (tokenVar k)).isSome <;>
        cases (env.get protoVar).isSome <;> simp
  obtain ⟨b1, b2, b3, b4, b5, b6, b7, b8, b9, b10, b11⟩ := (BuildConfig.applyEnv_ok_iff env _ _).1 h.build
  obtain ⟨p1, p2, p3, p4, p5, p6, p7, p8⟩ := (HttpConfig.applyEnv_ok_iff env _ _).1 h.http
  obtain ⟨n1, n2, n3⟩ := (NetConfig.applyEnv_ok_iff env _ _).1 h.net
  obtain ⟨g1, g2⟩ := (RegistryConfig.applyEnv_ok_iff env _ _).1 h.registry
  obtain ⟨t1, t2, t3, t4, t5⟩ := (TermConfig.applyEnv_ok_iff env _ _).1 h.term
  refine ⟨⟨d1, hd1, alias_ext sa (a2 sa) e.symm, registries_ext sr (r2 sr) e.symm⟩, ?_, ?_, ?_, ?_, ?_, ?_, ?_, rfl, rfl, rfl⟩
  · exact (BuildConfig.applyEnv_ok_iff env _ _).2 ⟨ifSome_idem b1, ifSomeElse_idem b2, ifSomeElse_idem b3, ifSomeElse_idem b4,
      ifSomeElse_idem b5, ifSome_idem b6, ifSomeElse_idem b7, rustflags_idem b8, rustflags_idem b9, ifSomeElse_idem b10,
      ifSome_idem b11⟩
  · have hdoc := h.doc
    cases hb : c'.doc.browser with
    | some x => exact DocConfig.applyEnv_some hb
    | none =>
      unfold DocConfig.applyEnv at hdoc ⊢
      rw [hb]
      cases hb' : c.doc.browser with
      | some y =>
        rw [hb'] at hdoc
        have e2 : c.doc = c'.doc := Res.ok.inj hdoc
        rw [← e2, hb'] at hb; cases hb
      | none =>
        rw [hb'] at hdoc
        simp only at hdoc ⊢
        rcases hv : env.var "BROWSER".toList with (_ | v) | _ | _ <;> rw [hv] at hdoc
        · rfl
        · simp only [Res.ok_bind] at hdoc
          split at hdoc
          · have e2 := Res.ok.inj hdoc
            rw [← e2] at hb; cases hb
          · cases hdoc
        · cases hdoc
        · cases hdoc
  · exact (FutureIncompatReportConfig.applyEnv_ok_iff env _ _).2
      (ifSome_idem ((FutureIncompatReportConfig.applyEnv_ok_iff env _ _).1 h.fir))
  · exact (HttpConfig.applyEnv_ok_iff env _ _).2 ⟨ifSome_idem p1, ifSome_idem p2, ifSome_idem p3, ifSome_idem p4,
      ifSome_idem p5, ifSome_idem p6, ifSome_idem p7, ifSome_idem p8⟩
  · exact (NetConfig.applyEnv_ok_iff env _ _).2 ⟨ifSome_idem n1, ifSome_idem n2, ifSome_idem n3⟩
  · exact (RegistryConfig.applyEnv_ok_iff env _ _).2 ⟨ifSome_idem g1, ifSome_idem g2⟩
  · exact (TermConfig.applyEnv_ok_iff env _ _).2 ⟨ifSome_idem t1, ifSome_idem t2, ifSome_idem t3, ifSome_idem t4,
      ifSome_idem t5⟩

/-! ### The filter on names -/

theorem Env.get_insert (m : Env) (k k' : Str) (v : OsStr) :
    (m.insert k v).get k' = if k = k' then some v else m.get k' := by
  induction m with
  | nil => simp [Env.insert, Env.get]
  | cons e m ih =>
    obtain ⟨n, w⟩ := e
    simp only [Env.insert]
    by_cases h : n = k
    · subst h
      simp only [if_true, Env.get]
      split <;> rfl
    · simp only [if_neg h, Env.get, ih]
      by_cases h1 : n = k'
      · subst h1; simp [Ne.symm h]
      · simp [h1]

theorem Env.mem_insert {m : Env} {k : Str} {v : OsStr} {e : Str × OsStr} (h : e ∈ m.insert k v) :
    e = (k, v) ∨ (e ∈ m ∧ e.1 ≠ k) ∨ e ∈ m := by
  induction m with
  | nil => simp [Env.insert] at h; exact Or.inl h
  | cons x m ih =>
    obtain ⟨n, w⟩ := x
    simp only [Env.insert] at h
    split at h
    · rcases List.mem_cons.1 h with h | h
      · exact Or.inl h
      · exact Or.inr (Or.inr (List.mem_cons_of_mem _ h))
    · rcases List.mem_cons.1 h with h | h
      · exact Or.inr (Or.inr (h ▸ List.mem_cons_self))
      · rcases ih h with h | h | h
        · exact Or.inl h
        · exact Or.inr (Or.inr (List.mem_cons_of_mem _ h.1))
        · exact Or.inr (Or.inr (List.mem_cons_of_mem _ h))

theorem DistinctKeys.insert {m : Env} (h : DistinctKeys m) (k : Str) (v : OsStr) : DistinctKeys (m.insert k v) := by
  induction m with
  | nil => simp [Env.insert, DistinctKeys]
  | cons x m ih =>
    obtain ⟨n, w⟩ := x
    obtain ⟨h1, h2⟩ := List.pairwise_cons.1 h
    simp only [Env.insert]
    split
    · rename_i hn
      subst hn
      exact List.pairwise_cons.2 ⟨h1, h2⟩
    · rename_i hn
      refine List.pairwise_cons.2 ⟨fun e he => ?_, ih h2⟩
      rcases Env.mem_insert he with rfl | h | h
      · exact hn
      · exact h1 e h.1
      · exact h1 e h

theorem optEnvLoop_distinct (vars : List (OsStr × OsStr)) (m : Env) (h : DistinctKeys m) :
    DistinctKeys (optEnvLoop m vars) := by
  induction vars generalizing m with
  | nil => exact h
  | cons e vars ih =>
    obtain ⟨k, v⟩ := e
    cases k with
    | invalid b => exact ih m h
    | unicode k =>
      simp only [optEnvLoop, OsStr.toStr?]
      split
      · exact ih _ (h.insert k v)
      · exact ih _ h

theorem lastValue_cons_ne (n : Str) (k v : OsStr) (vars : List (OsStr × OsStr)) (h : k ≠ .unicode n) :
    lastValue ((k, v) :: vars) n = lastValue vars n := by
  unfold lastValue
  rw [List.filter_cons_of_neg (by simpa using h)]

theorem lastValue_cons_eq (n : Str) (v : OsStr) (vars : List (OsStr × OsStr)) :
    lastValue ((.unicode n, v) :: vars) n = some ((lastValue vars n).getD v) := by
  unfold lastValue
  rw [List.filter_cons_of_pos (by simp), List.getLast?_cons]
  cases (vars.filter fun e => e.1 == .unicode n).getLast? <;> simp

theorem optEnvLoop_get (vars : List (OsStr × OsStr)) (m : Env) (n : Str) :
    (optEnvLoop m vars).get n = if envRelevant n then (lastValue vars n).or (m.get n) else m.get n := by
  induction vars generalizing m with
  | nil => simp [optEnvLoop, lastValue]
  | cons e vars ih =>
    obtain ⟨k, v⟩ := e
    cases k with
    | invalid b =>
      rw [lastValue_cons_ne _ _ _ _ (by simp)]
      exact ih m
    | unicode k =>
      simp only [optEnvLoop, OsStr.toStr?]
      rw [ih]
      by_cases hk : k = n
      · subst hk
        rw [lastValue_cons_eq]
        cases hr : envRelevant k
        · simp
        · simp only [if_true, Env.get_insert]
          cases lastValue vars k <;> rfl
      · rw [lastValue_cons_ne _ _ _ _ (by simpa using hk)]
        cases hr : envRelevant k
        · simp
        · simp only [if_true, Env.get_insert, if_neg hk]

theorem get_filter_relevant (env : Env) {n : Str} (h : envRelevant n = true) :
    Env.get (env.filter fun e => envRelevant e.1) n = env.get n := by
  induction env with
  | nil => rfl
  | cons e env ih =>
    obtain ⟨k, v⟩ := e
    by_cases hk : envRelevant k = true
    · rw [List.filter_cons_of_pos (by simpa using hk)]
      simp only [Env.get, ih]
    · rw [List.filter_cons_of_neg (by simpa using hk)]
      have : k ≠ n := fun e => hk (e ▸ h)
      simp only [Env.get, if_neg this, ih]

end CC
