import Verif.Lemmas.Tokens
/-
C55: authentication tokens are not shown.

The theorems are of the form: inputs which differ only in the texts of tokens give outcomes which differ only in the texts of tokens;
in particular errors are the same, so nothing about a token can be learned from them.
-/
namespace CC

/-- `Debug` of an unresolved configuration (and so of its registry tables) does not depend on the texts of tokens. -/
theorem C55_debug (c c' : Config) (h : SameButTokens c c') : c.dbg = c'.dbg := by
  rw [← Config.dbg_redact c, ← Config.dbg_redact c', h]

/-- The same for the single tables. -/
theorem C55_debug_tables (i d t t' : Option (Val Str)) (p : Option (Val Protocol)) (h : blank t = blank t') :
    (RegistriesConfigValue.mk i t p).dbg = (RegistriesConfigValue.mk i t' p).dbg ∧
    (RegistryConfig.mk d t).dbg = (RegistryConfig.mk d t').dbg := by
  constructor
  · rw [← RegistriesConfigValue.dbg_redact, ← RegistriesConfigValue.dbg_redact ⟨i, t', p⟩]
    unfold RegistriesConfigValue.redact
    simp only [h]
  · rw [← RegistryConfig.dbg_redact, ← RegistryConfig.dbg_redact ⟨d, t'⟩]
    unfold RegistryConfig.redact
    simp only [h]

/-- `Debug` of the resolved registry tables does not depend on the tokens. -/
theorem C55_debug_easy_tables (i d : Option Str) (t t' : Str) (p : Option Protocol) :
    (ERegistries.mk i (some t) p).dbg = (ERegistries.mk i (some t') p).dbg ∧
    (ERegistry.mk d (some t)).dbg = (ERegistry.mk d (some t')).dbg := ⟨rfl, rfl⟩

/-- Merging: errors do not depend on tokens, and neither does anything else in the result. -/
theorem C55_merge (a a' b b' : Config) (ha : SameButTokens a a') (hb : SameButTokens b b') (force : Bool) :
    SameOutcome SameButTokens (mergeConfig a b force) (mergeConfig a' b' force) := merge_same ha hb force

/-- Loading files: errors do not depend on the texts of the tokens in files which can be parsed. -/
theorem C55_load (parse : Str → Res Config) (fs fs' : Fs) (h : SameFilesButTokens parse fs fs') (cwd : Path) (home : Option Path) :
    SameOutcome SameButTokens (loadConfig fs parse cwd home) (loadConfig fs' parse cwd home) := by
  unfold loadConfig loadPaths
  rw [show fs.ex = fs'.ex from funext h.ex]
  refine (loadLoop_same h _ .none).bind fun x y hxy => ?_
  cases hxy with
  | none => rfl
  | some hxy => exact hxy.2

/-- Applying the environment: errors do not depend on the texts of tokens, nor on the bytes of a token variable that is not Unicode. -/
theorem C55_env (env env' : Env) (h : SameEnvButTokens env env') (c c' : Config) (hc : SameButTokens c c') :
    SameOutcome SameButTokens (c.applyEnv env) (c'.applyEnv env') := applyEnv_same h hc

/-- Loading with options, as a whole: the outcome does not depend on the texts of tokens, except in the tokens. -/
theorem C55_load_with_options (p : ProcEnv) (parse : Str → Res Config) (fs fs' : Fs) (hf : SameFilesButTokens parse fs fs')
    (env env' : Env) (he : SameEnvButTokens env env') (cwd : Path) (o : Options) :
    SameOutcome (fun x y => SameEConfig x.1 y.1 ∧ x.2 = y.2)
      (EConfig.loadWithOptions p fs parse cwd { o with env := some env })
      (EConfig.loadWithOptions p fs' parse cwd { o with env := some env' }) := by
  unfold EConfig.loadWithOptions Options.intoContext
  simp only [Option.isNone_some, Bool.false_eq_true, if_false, Option.getD_some]
  have hcargo : env.get "CARGO".toList = env'.get "CARGO".toList := he.get _ (notToken_iff.1 (by decide))
  rw [hcargo]
  exact (C55_load parse fs fs' hf cwd _).bind fun d d' hd => (easy_same he hd).bind fun c c' hc => ⟨hc, rfl⟩

/-- Queries: answers, errors, commands run and the cells do not depend on tokens at all. -/
theorem C55_queries (c c' : EConfig) (h : SameEConfig c c') (q : Query) (w : World) (s : Cells) :
    c.ask q w s = c'.ask q w s := by rw [ask_same h q]

/-- `Debug` of the resolved configuration depends on tokens through the environment it keeps only.  Missing for the full claim:
independence of the environment, which is false, see `C55_easy_debug_leaks`. -/
theorem C55_debug_easy_partial (c c' : EConfig) (s : Cells) (h : SameEConfig c c') (he : c.cx.env = c'.cx.env) :
    c.dbg s = c'.dbg s := by
  rw [← EConfig.dbg_redact c, ← EConfig.dbg_redact c']
  have := h.tables
  have : c.redact = c'.redact := by
    obtain ⟨h1, h2, h3, h4, h5, h6, h7, h8, h9, h10, h11, h12, h13⟩ := EConfig.mk.inj this
    have hx : c.cx = c'.cx := by
      obtain ⟨_, h14, h15⟩ := Ctx.mk.inj h13
      cases hc : c.cx; cases hc' : c'.cx
      rw [hc, hc'] at he
      rw [hc, hc'] at h14 h15
      simp only at he h14 h15
      rw [he, h14, h15]
    unfold EConfig.redact at *
    simp only at *
    rw [EConfig.mk.injEq]
    exact ⟨h1, h2, h3, h4, h5, h6, h7, h8, h9, h10, h11, h12, hx⟩
  rw [this]

/-- `Debug` of a resolved configuration shows tokens that are in environment variables: loading with two environments differing only in
a token gives configurations with different `Debug` output. -/
theorem C55_easy_debug_leaks : ∃ (env env' : Env) (c c' : EConfig) (s : Cells), SameEnvButTokens env env' ∧
    EConfig.loadWithOptions {} ⟨fun _ => false, fun _ => .err (.io [])⟩ (fun _ => .ok {}) "/".toList { env := some env } = .ok (c, s) ∧
    EConfig.loadWithOptions {} ⟨fun _ => false, fun _ => .err (.io [])⟩ (fun _ => .ok {}) "/".toList { env := some env' } = .ok (c', s) ∧
    c.dbg s ≠ c'.dbg s := by
  refine ⟨[("CARGO_REGISTRY_TOKEN".toList, .unicode "secret1".toList)], [("CARGO_REGISTRY_TOKEN".toList, .unicode "secret2".toList)],
    { registry := { token := some "secret1".toList },
      cx := ⟨[("CARGO_REGISTRY_TOKEN".toList, .unicode "secret1".toList)], .unicode "cargo".toList, "/".toList⟩ },
    { registry := { token := some "secret2".toList },
      cx := ⟨[("CARGO_REGISTRY_TOKEN".toList, .unicode "secret2".toList)], .unicode "cargo".toList, "/".toList⟩ },
    { cargoHome := some none }, .token (Or.inl rfl) trivial .nil, by rfl, by rfl, ?_⟩
  intro h
  simp [EConfig.dbg, Ctx.dbg, Dbg.map, OsStr.dbg] at h

-- non-vacuity
example : SameEnvButTokens [("CARGO_NET_RETRY".toList, .unicode "3".toList), ("CARGO_REGISTRIES_A_TOKEN".toList, .invalid [255])]
    [("CARGO_NET_RETRY".toList, .unicode "3".toList), ("CARGO_REGISTRIES_A_TOKEN".toList, .invalid [254])] :=
  .same _ (.token (Or.inr ⟨"A".toList, by decide⟩) trivial .nil)
example : ∃ e, (({} : Config).applyEnv [("CARGO_REGISTRIES_A_TOKEN".toList, .invalid [255])]) = .err e := ⟨_, rfl⟩
example : SameButTokens { registry := { token := some ⟨"x".toList, none⟩ } } { registry := { token := some ⟨"y".toList, none⟩ } } := rfl
example : ¬ SameButTokens { registry := { default := some ⟨"x".toList, none⟩ } } { registry := { default := some ⟨"y".toList, none⟩ } } := by
  intro h
  exact absurd (congrArg (fun c : Config => c.registry.default) h) (by decide)

/-! ### The theorems applied to samples -/

/-- Two configs that differ in tokens. -/
def tokenConfig (t : Str) : Config :=
  { registries := [("a".toList, { index := some ⟨"https://a".toList, none⟩, token := some ⟨t, some (.path "/w/.cargo/config".toList)⟩ })]
    registry := { token := some ⟨t, none⟩ } }

theorem sample_tokens (t t' : Str) : SameButTokens (tokenConfig t) (tokenConfig t') := rfl

example (t t' : Str) : (tokenConfig t).dbg = (tokenConfig t').dbg := C55_debug _ _ (sample_tokens t t')

/-- A config and its tokens are not the same thing: they do differ. -/
example : tokenConfig "x".toList ≠ tokenConfig "y".toList := by decide

example (t t' : Str) (force : Bool) : SameOutcome SameButTokens (mergeConfig (tokenConfig t) (tokenConfig t) force)
    (mergeConfig (tokenConfig t') (tokenConfig t') force) := C55_merge _ _ _ _ (sample_tokens t t') (sample_tokens t t') force

example (t t' : Str) : SameOutcome SameButTokens ((tokenConfig t).applyEnv []) ((tokenConfig t').applyEnv []) :=
  C55_env [] [] .nil _ _ (sample_tokens t t')

end CC
