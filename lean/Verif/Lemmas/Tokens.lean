import Verif.Spec.Tokens
import Verif.Spec.Resolve
import Verif.Model.DebugAll
import Verif.Model.Query
import Verif.Lemmas.EnvDep
/-
Lemmas on authentication tokens.
-/
namespace CC

/-! ### Outcomes -/

theorem SameOutcome.bind {α β : Type} {R : α → α → Prop} {S : β → β → Prop} {r r' : Res α} {f f' : α → Res β}
    (h : SameOutcome R r r') (hf : ∀ a a', R a a' → SameOutcome S (f a) (f' a')) : SameOutcome S (r >>= f) (r' >>= f') := by
  cases r <;> cases r' <;> first | exact h.elim | skip
  · exact hf _ _ h
  · exact h
  · exact h

theorem SameOutcome.refl {α : Type} {R : α → α → Prop} (hr : ∀ a, R a a) (r : Res α) : SameOutcome R r r := by
  cases r
  · exact hr _
  · rfl
  · trivial

theorem SameOutcome.withContext {α : Type} {R : α → α → Prop} {r r' : Res α} (h : SameOutcome R r r') (m : Str) (a : List Str)
    (d : List Dbg) : SameOutcome R (r.withContext m a d) (r'.withContext m a d) := by
  cases r <;> cases r' <;> first | exact h.elim | skip
  · exact h
  · cases h; rfl
  · trivial

/-! ### Configurations -/

/-- A registry table without the text of the token. -/
def RegistriesConfigValue.redact (r : RegistriesConfigValue) : RegistriesConfigValue := { r with token := blank r.token }
/-- The registry section without the text of the token. -/
def RegistryConfig.redact (r : RegistryConfig) : RegistryConfig := { r with token := blank r.token }

theorem same_iff {c c' : Config} : SameButTokens c c' ↔ c.alias = c'.alias ∧ c.build = c'.build ∧ c.doc = c'.doc ∧ c.env = c'.env ∧
    c.futureIncompatReport = c'.futureIncompatReport ∧ c.cargoNew = c'.cargoNew ∧ c.http = c'.http ∧ c.net = c'.net ∧
    c.registries.mapVals RegistriesConfigValue.redact = c'.registries.mapVals RegistriesConfigValue.redact ∧
    c.registry.redact = c'.registry.redact ∧ c.target = c'.target ∧ c.term = c'.term := by
  unfold SameButTokens Config.redact
  rw [Config.mk.injEq]
  rfl

theorem same_refl (c : Config) : SameButTokens c c := rfl

theorem mapVals_get_eq {V W : Type} {f : V → W} {m m' : BMap V} (h : BMap.mapVals f m = BMap.mapVals f m') (k : Str) :
    (BMap.get m k).map f = (BMap.get m' k).map f := by
  rw [← BMap.get_mapVals, ← BMap.get_mapVals, h]

theorem mapVals_insert {V W : Type} (f : V → W) (m : BMap V) (k : Str) (v : V) :
    BMap.mapVals f (BMap.insert k v m) = BMap.insert k (f v) (BMap.mapVals f m) := by
  induction m with
  | nil => rfl
  | cons e m ih =>
    obtain ⟨k', v'⟩ := e
    simp only [BMap.insert, BMap.mapVals, List.map_cons] at ih ⊢
    split
    · rfl
    · split
      · rfl
      · rw [List.map_cons, ih]

/-! ### Debug -/

theorem dbgToken_blank (t : Option (Val Str)) : dbgToken (blank t) = dbgToken t := by
  cases t <;> rfl

theorem RegistriesConfigValue.dbg_redact (r : RegistriesConfigValue) : r.redact.dbg = r.dbg := by
  unfold RegistriesConfigValue.dbg RegistriesConfigValue.redact
  simp only [dbgToken_blank]

theorem RegistryConfig.dbg_redact (r : RegistryConfig) : r.redact.dbg = r.dbg := by
  unfold RegistryConfig.dbg RegistryConfig.redact
  simp only [dbgToken_blank]

theorem Dbg.map_mapVals {V W : Type} (f : W → Dbg) (g : V → W) (m : BMap V) : Dbg.map f (BMap.mapVals g m) = Dbg.map (f ∘ g) m := by
  unfold Dbg.map BMap.mapVals
  rw [List.map_map]; rfl

theorem Config.dbg_redact (c : Config) : c.redact.dbg = c.dbg := by
  unfold Config.dbg
  have h1 : Dbg.map RegistriesConfigValue.dbg c.redact.registries = Dbg.map RegistriesConfigValue.dbg c.registries := by
    refine (Dbg.map_mapVals _ RegistriesConfigValue.redact c.registries).trans ?_
    congr 1
    funext r
    exact RegistriesConfigValue.dbg_redact r
  have h2 : c.redact.registry.dbg = c.registry.dbg := RegistryConfig.dbg_redact c.registry
  rw [h1, h2]; rfl

theorem EConfig.dbg_redact (c : EConfig) (s : Cells) : c.redact.dbg s = c.dbg s := by
  unfold EConfig.dbg
  have h1 : Dbg.map ERegistries.dbg c.redact.registries = Dbg.map ERegistries.dbg c.registries := by
    refine (Dbg.map_mapVals ERegistries.dbg (fun r => { r with token := r.token.map fun _ => [] }) c.registries).trans ?_
    congr 1
    funext r
    obtain ⟨i, t, p⟩ := r
    cases t <;> rfl
  have h2 : c.redact.registry.dbg = c.registry.dbg := by
    unfold EConfig.redact
    generalize c.registry = r
    obtain ⟨d, t⟩ := r
    cases t <;> rfl
  rw [h1, h2]; rfl

/-! ### Merging -/

theorem mergeOpt_scalar_ok {α : Type} (a b : Option α) (f : Bool) : ∃ x, mergeOpt mergeScalar a b f = .ok x := by
  cases a <;> cases b <;> exact ⟨_, rfl⟩

theorem mergeOpt_blank (a b : Option (Val Str)) (f : Bool) {x : Option (Val Str)} (h : mergeOpt mergeScalar a b f = .ok x) :
    mergeOpt mergeScalar (blank a) (blank b) f = .ok (blank x) := by
  cases a <;> cases b <;> cases f <;> cases Res.ok.inj h <;> rfl

theorem mergeRegistries_redact {a b r : RegistriesConfigValue} {f : Bool} (h : mergeRegistries a b f = .ok r) :
    mergeRegistries a.redact b.redact f = .ok r.redact := by
  unfold mergeRegistries at h ⊢
  simp only [Res.bind_eq_ok] at h
  obtain ⟨x1, h1, x2, h2, x3, h3, h⟩ := h
  cases Res.ok.inj h
  show (mergeOpt mergeScalar a.index b.index f >>= fun index => mergeOpt mergeScalar (blank a.token) (blank b.token) f >>= fun token =>
    mergeOpt mergeScalar a.protocol b.protocol f >>= fun protocol => Res.ok _) = _
  rw [h1, mergeOpt_blank _ _ _ h2, h3]
  rfl

theorem mergeRegistries_ok (a b : RegistriesConfigValue) (f : Bool) : ∃ r, mergeRegistries a b f = .ok r := by
  obtain ⟨x1, h1⟩ := mergeOpt_scalar_ok a.index b.index f
  obtain ⟨x2, h2⟩ := mergeOpt_scalar_ok a.token b.token f
  obtain ⟨x3, h3⟩ := mergeOpt_scalar_ok a.protocol b.protocol f
  refine ⟨⟨x1, x2, x3⟩, ?_⟩
  unfold mergeRegistries
  rw [h1, h2, h3]; rfl

theorem mergeRegistry_redact {a b r : RegistryConfig} {f : Bool} (h : mergeRegistry a b f = .ok r) :
    mergeRegistry a.redact b.redact f = .ok r.redact := by
  unfold mergeRegistry at h ⊢
  simp only [Res.bind_eq_ok] at h
  obtain ⟨x1, h1, x2, h2, h⟩ := h
  cases Res.ok.inj h
  show (mergeOpt mergeScalar a.default b.default f >>= fun default => mergeOpt mergeScalar (blank a.token) (blank b.token) f >>= fun token =>
    Res.ok _) = _
  rw [h1, mergeOpt_blank _ _ _ h2]
  rfl

theorem mergeRegistry_ok (a b : RegistryConfig) (f : Bool) : ∃ r, mergeRegistry a b f = .ok r := by
  obtain ⟨x1, h1⟩ := mergeOpt_scalar_ok a.default b.default f
  obtain ⟨x2, h2⟩ := mergeOpt_scalar_ok a.token b.token f
  refine ⟨⟨x1, x2⟩, ?_⟩
  unfold mergeRegistry
  rw [h1, h2]; rfl

theorem mergeMap_registries_redact (a b : BMap RegistriesConfigValue) (f : Bool) :
    ∃ r, mergeMap (clash RegistriesConfigValue.dbg) mergeRegistries a b f = .ok r ∧
      mergeMap (clash RegistriesConfigValue.dbg) mergeRegistries (a.mapVals RegistriesConfigValue.redact)
        (b.mapVals RegistriesConfigValue.redact) f = .ok (r.mapVals RegistriesConfigValue.redact) := by
  induction b generalizing a with
  | nil => exact ⟨a, rfl, rfl⟩
  | cons e b ih =>
    obtain ⟨k, v⟩ := e
    simp only [mergeMap, BMap.mapVals, List.map_cons]
    have hg := BMap.get_mapVals RegistriesConfigValue.redact a k
    simp only [BMap.mapVals] at hg
    rw [hg]
    cases BMap.get a k with
    | none =>
      obtain ⟨r, h1, h2⟩ := ih (BMap.insert k v a)
      rw [mapVals_insert] at h2
      exact ⟨r, h1, h2⟩
    | some x =>
      obtain ⟨y, hy⟩ := mergeRegistries_ok x v f
      obtain ⟨r, h1, h2⟩ := ih (BMap.insert k y a)
      rw [mapVals_insert] at h2
      refine ⟨r, ?_, ?_⟩
      · simp only [hy, Res.withContext, Res.ok_bind]; exact h1
      · simp only [Option.map_some, mergeRegistries_redact hy, Res.withContext, Res.ok_bind]; exact h2

theorem same_bind {α : Type} {r : Res α} {f f' : α → Res Config} (hf : ∀ a, SameOutcome SameButTokens (f a) (f' a)) :
    SameOutcome SameButTokens (r >>= f) (r >>= f') := by
  cases r
  · exact hf _
  · rfl
  · trivial

theorem merge_same {a a' b b' : Config} (ha : SameButTokens a a') (hb : SameButTokens b b') (f : Bool) :
    SameOutcome SameButTokens (mergeConfig a b f) (mergeConfig a' b' f) := by
  obtain ⟨a1, a2, a3, a4, a5, a6, a7, a8, a9, a10, a11, a12⟩ := same_iff.1 ha
  obtain ⟨b1, b2, b3, b4, b5, b6, b7, b8, b9, b10, b11, b12⟩ := same_iff.1 hb
  unfold mergeConfig
  rw [a1, a2, a3, a4, a5, a6, a7, a8, a11, a12, b1, b2, b3, b4, b5, b6, b7, b8, b11, b12]
  refine same_bind fun x1 => same_bind fun x2 => same_bind fun x3 => same_bind fun x4 => same_bind fun x5 => same_bind fun x6 =>
    same_bind fun x7 => same_bind fun x8 => ?_
  obtain ⟨r, h1, h2⟩ := mergeMap_registries_redact a.registries b.registries f
  obtain ⟨r', h1', h2'⟩ := mergeMap_registries_redact a'.registries b'.registries f
  rw [h1, h1']
  simp only [Res.ok_bind]
  rw [a9, b9, h2'] at h2
  obtain ⟨s, g1⟩ := mergeRegistry_ok a.registry b.registry f
  obtain ⟨s', g1'⟩ := mergeRegistry_ok a'.registry b'.registry f
  rw [g1, g1']
  simp only [Res.ok_bind]
  have g2 := mergeRegistry_redact g1
  rw [a10, b10, mergeRegistry_redact g1'] at g2
  refine same_bind fun x11 => same_bind fun x12 => ?_
  exact same_iff.2 ⟨rfl, rfl, rfl, rfl, rfl, rfl, rfl, rfl, (Res.ok.inj h2).symm, (Res.ok.inj g2).symm, rfl, rfl⟩

/-! ### Loading -/

theorem setPath_same {c c' : Config} (h : SameButTokens c c') (p : Path) : SameButTokens (c.setPath p) (c'.setPath p) := by
  obtain ⟨h1, h2, h3, h4, h5, h6, h7, h8, h9, h10, h11, h12⟩ := same_iff.1 h
  have com : ∀ r : RegistriesConfigValue, (r.setPath p).redact = r.redact.setPath p := by
    rintro ⟨i, t, q⟩; cases t <;> rfl
  have com' : ∀ r : RegistryConfig, (r.setPath p).redact = r.redact.setPath p := by
    rintro ⟨d, t⟩; cases t <;> rfl
  refine same_iff.2 ⟨?_, ?_, ?_, ?_, ?_, ?_, ?_, ?_, ?_, ?_, ?_, ?_⟩ <;> unfold Config.setPath <;> simp only
  · rw [h1]
  · rw [h2]
  · rw [h3]
  · rw [h4]
  · rw [h5]
  · rw [h6]
  · rw [h7]
  · rw [h8]
  · have aux : ∀ m : BMap RegistriesConfigValue, (m.mapVals (RegistriesConfigValue.setPath p)).mapVals RegistriesConfigValue.redact
        = (m.mapVals RegistriesConfigValue.redact).mapVals (RegistriesConfigValue.setPath p) := by
      intro m
      unfold BMap.mapVals
      rw [List.map_map, List.map_map]
      congr 1
      funext e
      exact congrArg (Prod.mk e.1) (com e.2)
    rw [aux, aux, h9]
  · rw [com', com', h10]
  · rw [h11]
  · rw [h12]

theorem loadFile_same {parse : Str → Res Config} {fs fs' : Fs} (h : SameFilesButTokens parse fs fs') (p : Path) :
    SameOutcome SameButTokens (loadFile fs parse p) (loadFile fs' parse p) := by
  unfold loadFile
  rcases h.read p with e | ⟨s, s', c, c', e1, e2, e3, e4, hc⟩
  · rw [e]
    exact SameOutcome.refl same_refl _
  · rw [e1, e2]
    simp only [Res.withContext, Res.ok_bind]
    rw [e3, e4]
    exact setPath_same hc p

theorem loadLoop_same {parse : Str → Res Config} {fs fs' : Fs} (h : SameFilesButTokens parse fs fs') (ps : List Path)
    {b b' : Option (Path × Config)} (hb : OptionRel (fun x y => x.1 = y.1 ∧ SameButTokens x.2 y.2) b b') :
    SameOutcome (OptionRel fun x y => x.1 = y.1 ∧ SameButTokens x.2 y.2) (loadLoop fs parse ps b) (loadLoop fs' parse ps b') := by
  induction ps generalizing b b' with
  | nil => exact hb
  | cons p ps ih =>
    unfold loadLoop
    refine (loadFile_same h p).bind fun c c' hc => ?_
    cases hb with
    | none => exact ih (.some ⟨rfl, hc⟩)
    | @some x y hxy =>
      obtain ⟨q, x⟩ := x
      obtain ⟨q', y⟩ := y
      obtain ⟨rfl, hxy⟩ := hxy
      exact ((merge_same hxy hc false).withContext _ _ _).bind fun d d' hd => ih (.some ⟨rfl, hd⟩)

/-! ### The environment -/

/-- The name is not that of a variable holding a token. -/
def notToken (n : Str) : Bool :=
  n != "CARGO_REGISTRY_TOKEN".toList &&
    match stripPrefix "CARGO_REGISTRIES_".toList n with
    | none => true
    | some r => (stripSuffix "_TOKEN".toList r).isNone

theorem notToken_iff {n : Str} : notToken n = true ↔ ¬ TokenVar n := by
  unfold notToken TokenVar
  rw [Bool.and_eq_true, bne_iff_ne, not_or]
  refine and_congr Iff.rfl ?_
  cases h : stripPrefix "CARGO_REGISTRIES_".toList n with
  | none =>
    refine ⟨fun _ ⟨k, hk⟩ => ?_, fun _ => rfl⟩
    rw [List.append_assoc] at hk
    rw [stripPrefix_eq_some.2 hk] at h
    cases h
  | some r =>
    have hn := stripPrefix_eq_some.1 h
    show (stripSuffix "_TOKEN".toList r).isNone = true ↔ _
    cases h' : stripSuffix "_TOKEN".toList r with
    | none =>
      refine ⟨fun _ ⟨k, hk⟩ => ?_, fun _ => rfl⟩
      rw [hn, List.append_assoc] at hk
      rw [stripSuffix_eq_some.2 (List.append_cancel_left hk)] at h'
      cases h'
    | some k =>
      refine ⟨(fun h => by cases h), fun hne => absurd ⟨k, ?_⟩ hne⟩
      rw [hn, stripSuffix_eq_some.1 h', List.append_assoc]

theorem SameEnvButTokens.get {env env' : Env} (h : SameEnvButTokens env env') (n : Str) (hn : ¬ TokenVar n) :
    env.get n = env'.get n := by
  induction h with
  | nil => rfl
  | same e _ ih => obtain ⟨k, v⟩ := e; simp only [Env.get, ih]
  | @token k v v' env env' ht _ _ ih =>
    have : k ≠ n := fun e => hn (e ▸ ht)
    simp only [Env.get, this, if_false, ih]

theorem SameEnvButTokens.get_token {env env' : Env} (h : SameEnvButTokens env env') (n : Str) :
    OptionRel (fun v v' => v = v' ∨ SameValidity v v') (env.get n) (env'.get n) := by
  induction h with
  | nil => exact .none
  | same e _ ih =>
    obtain ⟨k, v⟩ := e
    simp only [Env.get]
    split
    · exact .some (Or.inl rfl)
    · exact ih
  | token ht hv _ ih =>
    simp only [Env.get]
    split
    · exact .some (Or.inr hv)
    · exact ih

theorem sections_tokens {env env' : Env} (h : ∀ n, ¬ TokenVar n → env.get n = env'.get n) (c : Config) :
    c.build.applyEnv env = c.build.applyEnv env' ∧ c.doc.applyEnv env = c.doc.applyEnv env' ∧
    c.futureIncompatReport.applyEnv env = c.futureIncompatReport.applyEnv env' ∧
    c.http.applyEnv env = c.http.applyEnv env' ∧ c.net.applyEnv env = c.net.applyEnv env' ∧
    env.var "CARGO_REGISTRY_DEFAULT".toList = env'.var "CARGO_REGISTRY_DEFAULT".toList ∧
    c.term.applyEnv env = c.term.applyEnv env' := by
  have v : ∀ n, notToken n = true → env.var n = env'.var n := fun n hn => var_congr (h n (notToken_iff.1 hn))
  have p : ∀ {α : Type} (f : Str → Res α) n, notToken n = true → env.parse f n = env'.parse f n :=
    fun f n hn => parse_congr (h n (notToken_iff.1 hn))
  refine ⟨?_, ?_, ?_, ?_, ?_, ?_, ?_⟩
  · unfold BuildConfig.applyEnv rustflagsFromEnv
    rw [p _ "CARGO_BUILD_JOBS".toList (by decide), v "RUSTC".toList (by decide), v "CARGO_BUILD_RUSTC".toList (by decide),
      v "RUSTC_WRAPPER".toList (by decide), v "CARGO_BUILD_RUSTC_WRAPPER".toList (by decide),
      v "RUSTC_WORKSPACE_WRAPPER".toList (by decide), v "CARGO_BUILD_RUSTC_WORKSPACE_WRAPPER".toList (by decide),
      v "RUSTDOC".toList (by decide), v "CARGO_BUILD_RUSTDOC".toList (by decide),
      v "CARGO_BUILD_TARGET".toList (by decide), v "CARGO_TARGET_DIR".toList (by decide),
      v "CARGO_BUILD_TARGET_DIR".toList (by decide), v "CARGO_ENCODED_RUSTFLAGS".toList (by decide),
      v "RUSTFLAGS".toList (by decide), v "CARGO_BUILD_RUSTFLAGS".toList (by decide),
      v "CARGO_ENCODED_RUSTDOCFLAGS".toList (by decide), v "RUSTDOCFLAGS".toList (by decide),
      v "CARGO_BUILD_RUSTDOCFLAGS".toList (by decide), v "CARGO_INCREMENTAL".toList (by decide),
      p _ "CARGO_BUILD_INCREMENTAL".toList (by decide), v "CARGO_BUILD_DEP_INFO_BASEDIR".toList (by decide)]
  · unfold DocConfig.applyEnv
    rw [v "BROWSER".toList (by decide)]
  · unfold FutureIncompatReportConfig.applyEnv
    rw [p _ "CARGO_FUTURE_INCOMPAT_REPORT_FREQUENCY".toList (by decide)]
  · unfold HttpConfig.applyEnv
    rw [p _ "CARGO_HTTP_DEBUG".toList (by decide), v "CARGO_HTTP_PROXY".toList (by decide),
      p _ "CARGO_HTTP_TIMEOUT".toList (by decide), v "CARGO_HTTP_CAINFO".toList (by decide),
      p _ "CARGO_HTTP_CHECK_REVOKE".toList (by decide), p _ "CARGO_HTTP_LOW_SPEED_LIMIT".toList (by decide),
      p _ "CARGO_HTTP_MULTIPLEXING".toList (by decide), v "CARGO_HTTP_USER_AGENT".toList (by decide)]
  · unfold NetConfig.applyEnv
    rw [p _ "CARGO_NET_RETRY".toList (by decide), p _ "CARGO_NET_GIT_FETCH_WITH_CLI".toList (by decide),
      p _ "CARGO_NET_OFFLINE".toList (by decide)]
  · exact v _ (by decide)
  · unfold TermConfig.applyEnv TermProgress.applyEnv
    rw [p _ "CARGO_TERM_QUIET".toList (by decide), p _ "CARGO_TERM_VERBOSE".toList (by decide),
      p _ "CARGO_TERM_COLOR".toList (by decide), p _ "CARGO_TERM_PROGRESS_WHEN".toList (by decide),
      p _ "CARGO_TERM_PROGRESS_WIDTH".toList (by decide)]

theorem varRedacted_same {env env' : Env} (h : SameEnvButTokens env env') (n : Str) :
    SameOutcome (fun a b => blank a = blank b) (env.varRedacted n) (env'.varRedacted n) := by
  unfold Env.varRedacted
  have hg := h.get_token n
  generalize env.get n = x at hg
  generalize env'.get n = y at hg
  cases hg with
  | none => rfl
  | @some v v' hv =>
    rcases hv with rfl | hv
    · exact SameOutcome.refl (R := fun a b => blank a = blank b) (fun _ => rfl) _
    · cases v <;> cases v' <;> first | exact hv.elim | rfl

theorem registry_same {env env' : Env} (h : SameEnvButTokens env env') {r r' : RegistryConfig} (hr : r.redact = r'.redact) :
    SameOutcome (fun a b => RegistryConfig.redact a = RegistryConfig.redact b) (r.applyEnv env) (r'.applyEnv env') := by
  unfold RegistryConfig.applyEnv
  rw [(sections_tokens (fun n hn => h.get n hn) {}).2.2.2.2.2.1]
  obtain ⟨d, t⟩ := r
  obtain ⟨d', t'⟩ := r'
  obtain ⟨rfl, ht⟩ := RegistryConfig.mk.inj hr
  generalize env'.var "CARGO_REGISTRY_DEFAULT".toList = x
  cases x with
  | err => rfl
  | panic => trivial
  | ok o =>
    have key : ∀ q : Option (Val Str), SameOutcome (fun a b => RegistryConfig.redact a = RegistryConfig.redact b)
        ((env.varRedacted "CARGO_REGISTRY_TOKEN".toList).ifSome t some >>= fun x => Res.ok ⟨q, x⟩)
        ((env'.varRedacted "CARGO_REGISTRY_TOKEN".toList).ifSome t' some >>= fun x => Res.ok ⟨q, x⟩) := by
      intro q
      have hv := varRedacted_same h "CARGO_REGISTRY_TOKEN".toList
      generalize env.varRedacted "CARGO_REGISTRY_TOKEN".toList = y at hv
      generalize env'.varRedacted "CARGO_REGISTRY_TOKEN".toList = y' at hv
      cases y <;> cases y' <;> first | exact hv.elim | skip
      · rename_i u u'
        cases u <;> cases u'
        · exact congrArg (RegistryConfig.mk q) ht
        · cases hv
        · cases hv
        · exact congrArg (RegistryConfig.mk q) hv
      · exact hv
      · trivial
    cases o with
    | none => exact key d
    | some v => exact key (some v)

theorem updRegistry_same {k : Str} {u u' : RegistriesConfigValue → RegistriesConfigValue}
    (hu : ∀ x x', x.redact = x'.redact → (u x).redact = (u' x').redact) {m m' : BMap RegistriesConfigValue}
    (h : m.mapVals RegistriesConfigValue.redact = m'.mapVals RegistriesConfigValue.redact) :
    (updRegistry k u m).mapVals RegistriesConfigValue.redact = (updRegistry k u' m').mapVals RegistriesConfigValue.redact := by
  unfold updRegistry
  have hg := mapVals_get_eq h k
  generalize BMap.get m k = x at hg
  generalize BMap.get m' k = y at hg
  cases x <;> cases y
  · simp only; rw [mapVals_insert, mapVals_insert, h, hu _ _ rfl]
  · cases hg
  · cases hg
  · simp only; rw [mapVals_insert, mapVals_insert, h, hu _ _ (Option.some.inj hg)]

theorem applyVar_same {n : Str} {v v' : OsStr} (hv : v = v' ∨ (TokenVar n ∧ SameValidity v v')) {c c' : Config}
    (hc : SameButTokens c c') : SameOutcome SameButTokens (c.applyVar n v) (c'.applyVar n v') := by
  obtain ⟨h1, h2, h3, h4, h5, h6, h7, h8, h9, h10, h11, h12⟩ := same_iff.1 hc
  have nt : ∀ {p : Prop}, ¬ TokenVar n → (v = v' → p) → p := fun h f => hv.elim f fun x => absurd x.1 h
  have alias_nt : ∀ {k}, stripPrefix "CARGO_ALIAS_".toList n = some k → ¬ TokenVar n := by
    rintro k hk (rfl | ⟨r, rfl⟩)
    · rw [stripPrefix_eq_some] at hk; simp at hk
    · rw [stripPrefix_eq_some, List.append_assoc] at hk; simp at hk
  unfold Config.applyVar
  cases e1 : stripPrefix "CARGO_ALIAS_".toList n with
  | some k =>
    refine nt (alias_nt e1) fun e => ?_
    subst e
    simp only
    cases v.toStr? with
    | none => rfl
    | some s => exact same_iff.2 ⟨by rw [h1], h2, h3, h4, h5, h6, h7, h8, h9, h10, h11, h12⟩
  | none =>
    simp only
    cases e2 : stripPrefix "CARGO_REGISTRIES_".toList n with
    | none => exact hc
    | some r =>
      have hn := stripPrefix_eq_some.1 e2
      have reg_ne : n ≠ "CARGO_REGISTRY_TOKEN".toList := by
        intro e; rw [hn] at e; simp at e
      have nt2 : stripSuffix "_TOKEN".toList r = none → ¬ TokenVar n := by
        rintro e (h | ⟨k, h⟩)
        · exact reg_ne h
        · rw [hn, List.append_assoc] at h
          rw [stripSuffix_eq_some.2 (List.append_cancel_left h)] at e
          cases e
      simp only
      cases e3 : stripSuffix "_INDEX".toList r with
      | some k =>
        have : stripSuffix "_TOKEN".toList r = none := by
          cases e : stripSuffix "_TOKEN".toList r with
          | none => rfl
          | some k' =>
            have a := stripSuffix_eq_some.1 e3
            have b := stripSuffix_eq_some.1 e
            have := congrArg List.getLast? (a.symm.trans b)
            simp at this
        refine nt (nt2 this) fun e => ?_
        subst e
        simp only
        cases v.toStr? with
        | none => rfl
        | some s =>
          refine same_iff.2 ⟨h1, h2, h3, h4, h5, h6, h7, h8, updRegistry_same ?_ h9, h10, h11, h12⟩
          rintro ⟨i, t, p⟩ ⟨i', t', p'⟩ hx
          obtain ⟨rfl, ht, rfl⟩ := RegistriesConfigValue.mk.inj hx
          simp only [RegistriesConfigValue.redact, ht]
      | none =>
        simp only
        cases e4 : stripSuffix "_TOKEN".toList r with
        | some k =>
          have key : ∀ s s' : Str, SameButTokens
              { c with registries := updRegistry k (fun x => { x with token := some ⟨s, some (.environment n)⟩ }) c.registries }
              { c' with registries := updRegistry k (fun x => { x with token := some ⟨s', some (.environment n)⟩ }) c'.registries } := by
            intro s s'
            refine same_iff.2 ⟨h1, h2, h3, h4, h5, h6, h7, h8, updRegistry_same ?_ h9, h10, h11, h12⟩
            rintro ⟨i, t, p⟩ ⟨i', t', p'⟩ hx
            obtain ⟨rfl, ht, rfl⟩ := RegistriesConfigValue.mk.inj hx
            rfl
          have sv : SameValidity v v' := by
            rcases hv with rfl | hv
            · cases v <;> trivial
            · exact hv.2
          simp only
          cases v <;> cases v' <;> first | exact sv.elim | skip
          · exact key _ _
          · rfl
        | none =>
          refine nt (nt2 e4) fun e => ?_
          subst e
          simp only
          split
          · cases v.toStr? with
            | none => rfl
            | some s =>
              refine SameOutcome.bind (SameOutcome.refl (R := Eq) (fun _ => rfl) _) fun q q' hq => ?_
              subst hq
              refine same_iff.2 ⟨h1, h2, h3, h4, h5, h6, h7, h8, updRegistry_same ?_ h9, h10, h11, h12⟩
              rintro ⟨i, t, p⟩ ⟨i', t', p'⟩ hx
              obtain ⟨rfl, ht, rfl⟩ := RegistriesConfigValue.mk.inj hx
              simp only [RegistriesConfigValue.redact, ht]
          · exact hc

theorem applyVars_same {env env' : Env} (h : SameEnvButTokens env env') {c c' : Config} (hc : SameButTokens c c') :
    SameOutcome SameButTokens (c.applyVars env) (c'.applyVars env') := by
  induction h generalizing c c' with
  | nil => exact hc
  | same e _ ih => exact (applyVar_same (Or.inl rfl) hc).bind fun _ _ h => ih h
  | token ht hv _ ih => exact (applyVar_same (Or.inr ⟨ht, hv⟩) hc).bind fun _ _ h => ih h

theorem applyEnv_same {env env' : Env} (h : SameEnvButTokens env env') {c c' : Config} (hc : SameButTokens c c') :
    SameOutcome SameButTokens (c.applyEnv env) (c'.applyEnv env') := by
  unfold Config.applyEnv
  refine (applyVars_same h hc).bind fun d d' hd => ?_
  obtain ⟨h1, h2, h3, h4, h5, h6, h7, h8, h9, h10, h11, h12⟩ := same_iff.1 hd
  obtain ⟨s1, s2, s3, s4, s5, -, s7⟩ := sections_tokens (fun n hn => h.get n hn) d
  simp only
  rw [s1, s2, s3, s4, s5, s7, h2, h3, h5, h7, h8, h12]
  refine same_bind fun x1 => same_bind fun x2 => same_bind fun x3 => same_bind fun x4 => same_bind fun x5 => ?_
  refine (registry_same h h10).bind fun r r' hr => same_bind fun x7 => ?_
  exact same_iff.2 ⟨h1, rfl, rfl, h4, rfl, h6, rfl, rfl, h9, hr, h11, rfl⟩

/-! ### The resolved configuration -/

theorem easy_same {d d' : Config} {env env' : Env} {cargo : OsStr} {cwd : Path} (h : SameEnvButTokens env env')
    (hd : SameButTokens d d') :
    SameOutcome SameEConfig (EConfig.fromUnresolved d ⟨env, cargo, cwd⟩) (EConfig.fromUnresolved d' ⟨env', cargo, cwd⟩) := by
  unfold EConfig.fromUnresolved
  refine (applyEnv_same h hd).bind fun c c' hc => ?_
  obtain ⟨h1, h2, h3, h4, h5, h6, h7, h8, h9, h10, h11, h12⟩ := same_iff.1 hc
  have bnd : ∀ {α : Type} {r : Res α} {f f' : α → Res EConfig}, (∀ a, SameOutcome SameEConfig (f a) (f' a)) →
      SameOutcome SameEConfig (r >>= f) (r >>= f') := by
    intro α r f f' hf
    cases r
    · exact hf _
    · rfl
    · trivial
  rw [h1, h2, h3, h4, h5, h6, h7, h8, h11, h12]
  refine bnd fun x1 => bnd fun x2 => bnd fun x3 => ⟨?_, h⟩
  unfold EConfig.redact
  have r1 : ∀ m : BMap RegistriesConfigValue, BMap.mapVals (fun r : ERegistries => { r with token := r.token.map fun _ => [] })
      (m.mapVals ERegistries.fromUnresolved) = (m.mapVals RegistriesConfigValue.redact).mapVals ERegistries.fromUnresolved := by
    intro m
    unfold BMap.mapVals
    rw [List.map_map, List.map_map]
    congr 1
    funext e
    obtain ⟨k, i, t, p⟩ := e
    cases t <;> rfl
  have r2 : ∀ r : RegistryConfig, ({ ERegistry.fromUnresolved r with token := (ERegistry.fromUnresolved r).token.map fun _ => [] }
      : ERegistry) = ERegistry.fromUnresolved r.redact := by
    rintro ⟨d, t⟩; cases t <;> rfl
  simp only [r1, r2, h9, h10]

/-! ### Queries -/

theorem targetVar_not_token (t x : Str) : ¬ TokenVar (targetVar t x) := by
  unfold targetVar
  rintro (h | ⟨k, h⟩)
  · simp at h
  · rw [List.append_assoc] at h; simp at h

theorem queryRustc_env (cx : Ctx) (e : Env) (b : EBuild) : queryRustc { cx with env := e } b = queryRustc cx b := rfl
theorem cfgOf_env (cx : Ctx) (e : Env) (b : EBuild) (t : TargetTriple) : cfgOf { cx with env := e } b t = cfgOf cx b t := rfl
theorem evalCfg_env (cx : Ctx) (e : Env) (b : EBuild) (k : Str) (t : TargetTriple) :
    evalCfg { cx with env := e } b k t = evalCfg cx b k t := rfl
theorem cfgTables_env (cx : Ctx) (e : Env) (b : EBuild) (t : TargetTriple) (m : BMap TargetConfig) (a : TargetAcc) :
    cfgTables { cx with env := e } b t m a = cfgTables cx b t m a := by
  induction m generalizing a with
  | nil => rfl
  | cons x m ih =>
    obtain ⟨k, v⟩ := x
    simp only [cfgTables, ih, evalCfg_env]

theorem targetEnv_same {env env' : Env} (h : SameEnvButTokens env env') (t : Str) (a : TargetAcc) :
    a.applyEnv env t = a.applyEnv env' t := by
  have v : ∀ x, env.var (targetVar t x) = env'.var (targetVar t x) := fun x => var_congr (h.get _ (targetVar_not_token t x))
  unfold TargetAcc.applyEnv
  rw [v, v, v, v]

theorem resolveTarget_same {cx cx' : Ctx} (h : SameEnvButTokens cx.env cx'.env) (hc : { cx with env := [] } = { cx' with env := [] })
    (ts : BMap TargetConfig) (o1 : Bool) (f1 : Option Flags) (o2 : Bool) (f2 : Option Flags) (t : TargetTriple) (b : EBuild) :
    resolveTarget cx ts o1 f1 o2 f2 t b = resolveTarget cx' ts o1 f1 o2 f2 t b := by
  unfold resolveTarget
  have : ∀ a, cfgTables cx b t ts a = cfgTables cx' b t ts a := by
    intro a
    rw [← cfgTables_env cx [] b, ← cfgTables_env cx' [] b, hc]
  simp only [targetEnv_same h, this]

theorem ask_same {c c' : EConfig} (h : SameEConfig c c') (q : Query) : c.ask q = c'.ask q := by
  obtain ⟨ht, he⟩ := h
  unfold EConfig.redact at ht
  obtain ⟨h1, h2, h3, h4, h5, h6, h7, h8, h9, h10, h11, h12, h13⟩ := EConfig.mk.inj ht
  simp only at h2 h11
  have hi : ∀ t, c.initTarget t = c'.initTarget t := by
    intro t
    have hcwd : c.cx.currentDir = c'.cx.currentDir := (Ctx.mk.inj h13).2.2
    unfold EConfig.initTarget
    rw [h2, h11, hcwd]
    simp only [resolveTarget_same he h13]
  have hh : c.hostTriple = c'.hostTriple := by
    show queryHostTriple { c.cx with env := [] } c.build = queryHostTriple { c'.cx with env := [] } c'.build
    rw [h2, h13]
  cases q <;> unfold EConfig.ask
  all_goals simp only [EConfig.target, EConfig.linker, EConfig.runner, EConfig.rustflags, EConfig.rustdocflags,
    EConfig.targetEntry, EConfig.buildTargetForConfig, EConfig.buildTargetForCli, hi, h2, hh]
  · congr 1
    show queryRustc { c.cx with env := [] } c.build = queryRustc { c'.cx with env := [] } c'.build
    rw [h2, h13]
  · congr 1
    show queryRustcVersion { c.cx with env := [] } c.build = queryRustcVersion { c'.cx with env := [] } c'.build
    rw [h2, h13]
  · congr 1
    show queryCargoVersion { c.cx with env := [] } c.build = queryCargoVersion { c'.cx with env := [] } c'.build
    rw [h2, h13]

end CC
