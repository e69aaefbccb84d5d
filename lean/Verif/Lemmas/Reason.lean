import Verif.Spec.Reason
import Verif.Lemmas.Cause
/-
Lemmas for C83: the exact outcome of `apply_env`.
-/
namespace CC

theorem varMessage_inj {n m : Str} (h : varMessage n = varMessage m) : n = m := by
  unfold varMessage quoted at h
  have h := List.append_cancel_left h
  exact List.append_cancel_right (List.cons.inj h).2

/-- The error has the cause it should have, if it is about a variable. -/
def Explained (look : Str → Option OsStr) (e : Err) : Prop :=
  ∀ n, (∀ sh, e.display sh = varMessage n) → ∃ src, e.source = some src ∧ VarReason look n src

/-- The outcome is an error with the message `m`, if there is one. -/
def Exact {α : Type} (look : Str → Option OsStr) (m : Option Str) (r : Res α) : Prop :=
  match m with
  | none => ∃ a, r = .ok a
  | some msg => ∃ e, r = .err e ∧ (∀ sh, e.display sh = msg) ∧ Explained look e

theorem exact_ok {α : Type} (look : Str → Option OsStr) (a : α) : Exact look none (Res.ok a) := ⟨a, rfl⟩

/-- One setting after the other. -/
theorem exact_cons {α β γ : Type} {look : Str → Option OsStr} {d : γ → Option Str} {k : γ} {l l' : List γ} {x : Res α} {g : α → Res β}
    (h : Exact look (d k) x) (hg : ∀ a, Exact look (firstSome (l.map d)) (g a)) (hl : l' = k :: l := by rfl) :
    Exact look (firstSome (l'.map d)) (x >>= g) := by
  subst hl
  rw [List.map_cons]
  cases hd : d k with
  | none =>
    rw [hd] at h
    obtain ⟨a, h⟩ := h
    rw [h]
    exact hg a
  | some m =>
    rw [hd] at h
    obtain ⟨e, h, h'⟩ := h
    rw [h]
    exact ⟨e, rfl, h'⟩

theorem firstSome_settings {α : Type} (a b : List (Option α)) : firstSome (a ++ b) = (firstSome a).or (firstSome b) := by
  induction a with
  | nil => rfl
  | cons x a ih => cases x <;> simp [firstSome, ih]

/-- Some settings after some others. -/
theorem exact_append {α β γ : Type} {look : Str → Option OsStr} {d : γ → Option Str} {a b l : List γ} {x : Res α} {g : α → Res β}
    (h : Exact look (firstSome (a.map d)) x) (hg : ∀ y, Exact look (firstSome (b.map d)) (g y)) (hl : l = a ++ b := by rfl) :
    Exact look (firstSome (l.map d)) (x >>= g) := by
  subst hl
  rw [List.map_append, firstSome_settings]
  cases hd : firstSome (a.map d) with
  | none =>
    rw [hd] at h
    obtain ⟨y, h⟩ := h
    rw [h]
    exact hg y
  | some m =>
    rw [hd] at h
    obtain ⟨e, h, h'⟩ := h
    rw [h]
    exact ⟨e, rfl, h'⟩

/-! ### single variables -/

/-- The error is about `n`, and its cause is as it should be. -/
def NamesWhy (look : Str → Option OsStr) (n : Str) (e : Err) : Prop :=
  (∀ sh, e.display sh = varMessage n) ∧ ∃ src, e.source = some src ∧ VarReason look n src

theorem NamesWhy.explained {look : Str → Option OsStr} {n : Str} {e : Err} (h : NamesWhy look n e) : Explained look e := by
  intro m hm
  have : varMessage n = varMessage m := (h.1 ⟨fun _ => [], fun _ => [], fun _ => [], fun _ => [], fun _ => []⟩).symm.trans (hm _)
  cases varMessage_inj this
  exact h.2

theorem namesWhy_context {look : Str → Option OsStr} {n : Str} {src : Err} (h : VarReason look n src) :
    NamesWhy look n (.context "failed to parse environment variable `{}`".toList [n] [] (some src)) :=
  ⟨fun sh => (display_context _ _ _ sh).trans (fill_var n), src, rfl, h⟩

theorem namesWhy_notUnicode {look : Str → Option OsStr} {n : Str} {b : List Nat} (h : look n = some (.invalid b)) (ht : ¬ TokenVar n) :
    NamesWhy look n (.envNotUnicode n (.invalid b)) := by
  unfold Err.envNotUnicode; exact namesWhy_context (.notText b h ht)

theorem namesWhy_redacted {look : Str → Option OsStr} {n : Str} {b : List Nat} (h : look n = some (.invalid b)) (ht : TokenVar n) :
    NamesWhy look n (.envNotUnicodeRedacted n) := by
  unfold Err.envNotUnicodeRedacted; exact namesWhy_context (.token b h ht)

theorem var_why {env : Env} {n : Str} (ht : ¬ TokenVar n) {e : Err} (h : env.var n = .err e) : NamesWhy env.get n e := by
  unfold Env.var at h
  split at h
  · cases h
  · rename_i v hv
    split at h
    · cases h
    · rename_i hs
      obtain ⟨b, rfl⟩ := toStr_none hs
      cases h; exact namesWhy_notUnicode hv ht

theorem varRedacted_why {env : Env} {n : Str} (ht : TokenVar n) {e : Err} (h : env.varRedacted n = .err e) : NamesWhy env.get n e := by
  unfold Env.varRedacted at h
  split at h
  · cases h
  · rename_i v hv
    split at h
    · cases h
    · rename_i hs
      obtain ⟨b, rfl⟩ := toStr_none hs
      cases h; exact namesWhy_redacted hv ht

theorem parse_why {α : Type} {fromStr : Str → Res α} {env : Env} {n : Str} (ht : ¬ TokenVar n)
    (ho : ∀ s e, env.get n = some (.unicode s) → fromStr s = .err e → VarReason env.get n e) {e : Err}
    (h : env.parse fromStr n = .err e) : NamesWhy env.get n e := by
  unfold Env.parse at h
  rcases Res.bind_eq_err.1 h with h | ⟨o, hv, h⟩
  · exact var_why ht h
  · cases o with
    | none => cases h
    | some v =>
      have hv : Env.get env n = some (.unicode v.val) := by
        unfold Env.var at hv
        cases hg : Env.get env n with
        | none => rw [hg] at hv; cases hv
        | some w =>
          rw [hg] at hv
          cases w with
          | unicode s => cases hv; rfl
          | invalid b => cases hv
      rcases Res.bind_eq_err.1 h with h | ⟨o, _, h⟩
      · cases hp : v.parse fromStr with
        | ok a => rw [hp] at h; cases h
        | err e' =>
          rw [hp] at h
          cases h
          unfold Val.parse at hp
          rcases Res.bind_eq_err.1 hp with hp | ⟨_, _, hp⟩
          · exact namesWhy_context (ho v.val e' hv hp)
          · cases hp
        | panic => rw [hp] at h; cases h
      · cases h

/-- The names of the variables of tokens. -/
theorem not_token {n : Str} (h1 : n ≠ "CARGO_REGISTRY_TOKEN".toList) (h2 : startsWith "CARGO_REGISTRIES_".toList n = false) :
    ¬ TokenVar n := by
  rintro (h | ⟨k, rfl⟩)
  · exact h1 h
  · rw [List.append_assoc, startsWith, stripPrefix_eq_some.2 rfl] at h2
    cases h2

/-- Closes `¬ TokenVar n` for a name that is not free. -/
macro "fixed_name" : tactic => `(tactic| exact not_token (by decide +kernel) (by decide +kernel))

theorem bool_why {env : Env} {v : String} (hm : v ∈ boolVars) (ht : ¬ TokenVar v.toList) {e : Err}
    (h : env.parse boolFromStr v.toList = .err e) : NamesWhy env.get v.toList e := by
  refine parse_why ht (fun s e hv he => ?_) h
  unfold boolFromStr parseBool at he
  split at he
  · cases he
  · rename_i hx
    cases he
    split at hx
    · cases hx
    · rename_i h1
      split at hx
      · cases hx
      · rename_i h2
        exact .boolean v s hm rfl hv h1 h2

theorem u32_why {env : Env} {v : String} (hm : v ∈ u32Vars) (ht : ¬ TokenVar v.toList) {e : Err}
    (h : env.parse u32FromStr v.toList = .err e) : NamesWhy env.get v.toList e := by
  refine parse_why ht (fun s e hv he => ?_) h
  unfold u32FromStr at he
  split at he
  · cases he
  · rename_i hx
    cases he
    exact .unsigned v s hm rfl hv (by rw [textU32_eq]; exact hx)

theorem jobs_why {env : Env} {e : Err} (h : env.parse i32FromStr "CARGO_BUILD_JOBS".toList = .err e) :
    NamesWhy env.get "CARGO_BUILD_JOBS".toList e := by
  refine parse_why (by fixed_name) (fun s e hv he => ?_) h
  unfold i32FromStr at he
  split at he
  · cases he
  · rename_i hx
    cases he
    exact .signed s rfl hv (by rw [textI32_eq]; exact hx)

theorem fill_found (a a' s : Str) (ha : a' = a ++ "`{}`".toList) (h : '{' ∉ a) : fill a' [s] = a ++ quoted s := by
  rw [fill_quoted a a' [] s [] ha h, fill_nil, List.append_nil]

theorem frequency_why {env : Env} {e : Err}
    (h : env.parse Frequency.fromStr "CARGO_FUTURE_INCOMPAT_REPORT_FREQUENCY".toList = .err e) :
    NamesWhy env.get "CARGO_FUTURE_INCOMPAT_REPORT_FREQUENCY".toList e := by
  refine parse_why (by fixed_name) (fun s e hv he => ?_) h
  unfold Frequency.fromStr at he
  split at he
  · cases he
  · rename_i h1
    split at he
    · cases he
    · rename_i h2
      cases he
      refine .word "CARGO_FUTURE_INCOMPAT_REPORT_FREQUENCY" ["always", "never"] "must be always or never, but found " s _ (by simp [wordVars])
        rfl hv (by simp only [List.mem_cons, List.not_mem_nil, or_false]; rintro w (rfl | rfl) <;> assumption) fun sh => ?_
      rw [display_other]
      exact fill_found _ _ s (by decide +kernel) (by decide +kernel)

theorem color_why {env : Env} {e : Err} (h : env.parse Color.fromStr "CARGO_TERM_COLOR".toList = .err e) :
    NamesWhy env.get "CARGO_TERM_COLOR".toList e := by
  refine parse_why (by fixed_name) (fun s e hv he => ?_) h
  unfold Color.fromStr at he
  split at he
  · cases he
  · rename_i h1
    split at he
    · cases he
    · rename_i h2
      split at he
      · cases he
      · rename_i h3
        cases he
        refine .word "CARGO_TERM_COLOR" ["auto", "always", "never"] "must be auto, always, or never, but found " s _ (by simp [wordVars])
          rfl hv (by simp only [List.mem_cons, List.not_mem_nil, or_false]; rintro w (rfl | rfl | rfl) <;> assumption) fun sh => ?_
        rw [display_other]
        exact fill_found _ _ s (by decide +kernel) (by decide +kernel)

theorem when_why {env : Env} {e : Err} (h : env.parse When.fromStr "CARGO_TERM_PROGRESS_WHEN".toList = .err e) :
    NamesWhy env.get "CARGO_TERM_PROGRESS_WHEN".toList e := by
  refine parse_why (by fixed_name) (fun s e hv he => ?_) h
  unfold When.fromStr at he
  split at he
  · cases he
  · rename_i h1
    split at he
    · cases he
    · rename_i h2
      split at he
      · cases he
      · rename_i h3
        cases he
        refine .word "CARGO_TERM_PROGRESS_WHEN" ["auto", "always", "never"] "must be auto, always, or never, but found " s _
          (by simp [wordVars]) rfl hv (by simp only [List.mem_cons, List.not_mem_nil, or_false]; rintro w (rfl | rfl | rfl) <;> assumption)
          fun sh => ?_
        rw [display_other]
        exact fill_found _ _ s (by decide +kernel) (by decide +kernel)

/-! ### settings -/

section
variable {α α' δ κ φ : Type} {env : Env} {src src' : Source δ} {srcs : List (Source δ)} {mk : Str → δ → κ} {view : φ → κ} {f : α → φ}
  {r : Res (Option α)}

theorem Reads.set (h : Reads env src mk view f r) {v : α} (he : r = .ok (some v)) (srcs : List (Source δ)) :
    malformedVar env.get (src :: srcs) = none := by
  obtain ⟨n, rd⟩ := src
  rw [he] at h
  unfold Reads at h
  simp only [readEnv] at h
  simp only [malformedVar]
  cases hv : env.get n with
  | none => rw [hv] at h; cases h
  | some w =>
    rw [hv] at h
    cases w with
    | invalid b => obtain ⟨e, h⟩ := h; cases h
    | unicode s =>
      dsimp only at h ⊢
      cases hr : rd s with
      | none => rw [hr] at h; obtain ⟨e, h⟩ := h; cases h
      | some a => rfl

theorem Reads.no_panic (h : Reads env src mk view f r) : r ≠ .panic := by
  rintro rfl
  unfold Reads at h
  split at h
  · cases h
  · obtain ⟨e, h⟩ := h; cases h
  · obtain ⟨e, h, _⟩ := h; cases h

theorem exact_orElse (h : Reads env src mk view f r) (hn : ∀ e, r = .err e → NamesWhy env.get src.1 e) {s : Res φ}
    (hs : Exact env.get ((malformedVar env.get srcs).map varMessage) s) {g : Option α → Res φ} (hg : g none = s)
    (hg' : ∀ v, g (some v) = .ok (f v)) : Exact env.get ((malformedVar env.get (src :: srcs)).map varMessage) (r >>= g) := by
  cases hr : r with
  | panic => exact absurd hr h.no_panic
  | err e =>
    have hw := hn e hr
    have hm : malformedVar env.get (src :: srcs) = some src.1 := by
      obtain ⟨n, rd⟩ := src
      rw [hr] at h
      unfold Reads at h
      simp only [readEnv] at h
      simp only [malformedVar]
      cases hv : env.get n with
      | none => rw [hv] at h; cases h
      | some w =>
        rw [hv] at h
        cases w with
        | invalid b => rfl
        | unicode s =>
          dsimp only at h ⊢
          cases hr : rd s with
          | none => rfl
          | some a => rw [hr] at h; obtain ⟨v, h, _⟩ := h; cases h
    rw [hm]
    exact ⟨e, rfl, hw.1, hw.explained⟩
  | ok o =>
    cases o with
    | some v => rw [h.set hr, Res.ok_bind, hg']; exact exact_ok _ _
    | none => rw [h.unset hr, Res.ok_bind, hg]; exact hs

theorem exact_ifSome (h : Reads env src mk view f r) (hn : ∀ e, r = .err e → NamesWhy env.get src.1 e) (old : φ) :
    Exact env.get ((malformedVar env.get [src]).map varMessage) (r.ifSome old f) :=
  exact_orElse h hn (exact_ok _ old) rfl fun _ => rfl

theorem exact_ifSomeElse {s : Res (Option α')} {g : α' → φ} (h : Reads env src mk view f r)
    (hn : ∀ e, r = .err e → NamesWhy env.get src.1 e) (h' : Reads env src' mk view g s)
    (hn' : ∀ e, s = .err e → NamesWhy env.get src'.1 e) (old : φ) :
    Exact env.get ((malformedVar env.get [src, src']).map varMessage) (Res.ifSomeElse r f s old g) :=
  exact_orElse h hn (exact_ifSome h' hn' old) rfl fun _ => rfl
end

theorem exact_rustflags (env : Env) (e p b : Str) (he : ¬ TokenVar e) (hp : ¬ TokenVar p) (hb : ¬ TokenVar b) (old : Option Flags) :
    Exact env.get ((malformedVar env.get [asEncoded e, asWords p, asWords b]).map varMessage) (rustflagsFromEnv env e p b old) := by
  have h1 : Reads env (asEncoded e) mkList (fun x : Option Flags × Bool => viewFlags x.1)
      (fun v => (some (Flags.fromEncoded v), true)) (env.var e) :=
    reads_var fun s => ⟨_, rfl, by simp [viewFlags, mkList, listFromVar, Flags.fromEncoded, splitEncoded, unitSep, piecesAt_eq]⟩
  have h2 : ∀ n o, Reads env (asWords n) mkList (fun x : Option Flags × Bool => viewFlags x.1)
      (fun v => (some (Flags.fromSpaceSeparated v.val v.defn), o)) (env.var n) := fun n o =>
    reads_var fun s => ⟨_, rfl, by simp [viewFlags, mkList, listFromVar, Flags.fromSpaceSeparated, wordsIn_eq]⟩
  exact exact_orElse h1 (fun _ => var_why he) (exact_ifSomeElse (h2 p true) (fun _ => var_why hp) (h2 b false) (fun _ => var_why hb) (old, false))
    rfl fun _ => rfl

section
variable (env : Env) (docs : List (Path × Toml))

theorem exact_build (b : BuildConfig) :
    Exact env.get (firstSome ((fixedNames.take 11).map (FixedName.defect env.get docs))) (b.applyEnv env) := by
  unfold BuildConfig.applyEnv
  refine exact_cons (k := FixedName.scalar .buildJobs) (exact_ifSome (reads_i32 env _) (fun _ => jobs_why) _) fun _ => ?_
  refine exact_cons (k := FixedName.scalar .buildRustc) (exact_ifSomeElse (reads_text env _) (fun _ => var_why (by fixed_name)) (reads_text env _)
    (fun _ => var_why (by fixed_name)) _) fun _ => ?_
  refine exact_cons (k := FixedName.scalar .buildRustcWrapper) (exact_ifSomeElse (reads_wrapper env _) (fun _ => var_why (by fixed_name))
    (reads_wrapper env _) (fun _ => var_why (by fixed_name)) _) fun _ => ?_
  refine exact_cons (k := FixedName.scalar .buildRustcWorkspaceWrapper) (exact_ifSomeElse (reads_wrapper env _) (fun _ => var_why (by fixed_name))
    (reads_wrapper env _) (fun _ => var_why (by fixed_name)) _) fun _ => ?_
  refine exact_cons (k := FixedName.scalar .buildRustdoc) (exact_ifSomeElse (reads_text env _) (fun _ => var_why (by fixed_name)) (reads_text env _)
    (fun _ => var_why (by fixed_name)) _) fun _ => ?_
  refine exact_cons (k := FixedName.list .buildTarget) (exact_ifSome (reads_target env _) (fun _ => var_why (by fixed_name)) _) fun _ => ?_
  refine exact_cons (k := FixedName.scalar .buildTargetDir) (exact_ifSomeElse (reads_text env _) (fun _ => var_why (by fixed_name))
    (reads_text env _) (fun _ => var_why (by fixed_name)) _) fun _ => ?_
  refine exact_cons (k := FixedName.list .buildRustflags) (exact_rustflags env _ _ _ (by fixed_name) (by fixed_name) (by fixed_name) _) fun _ => ?_
  refine exact_cons (k := FixedName.list .buildRustdocflags) (exact_rustflags env _ _ _ (by fixed_name) (by fixed_name) (by fixed_name) _)
    fun _ => ?_
  refine exact_cons (k := FixedName.scalar .buildIncremental) (exact_ifSomeElse (reads_incremental env _) (fun _ => var_why (by fixed_name))
    (reads_bool env _) (fun _ => bool_why (by simp [boolVars]) (by fixed_name)) _) fun _ => ?_
  refine exact_cons (k := FixedName.scalar .buildDepInfoBasedir) (exact_ifSome (reads_text env _) (fun _ => var_why (by fixed_name)) _) fun _ => ?_
  exact exact_ok _ _

theorem exact_frequency (f : FutureIncompatReportConfig) :
    Exact env.get (firstSome (((fixedNames.drop 12).take 1).map (FixedName.defect env.get docs))) (f.applyEnv env) := by
  unfold FutureIncompatReportConfig.applyEnv
  refine exact_cons (k := FixedName.scalar .futureIncompatReportFrequency) (exact_ifSome (reads_frequency env _) (fun _ => frequency_why) _)
    fun _ => ?_
  exact exact_ok _ _

theorem exact_http (f : HttpConfig) :
    Exact env.get (firstSome (((fixedNames.drop 13).take 8).map (FixedName.defect env.get docs))) (f.applyEnv env) := by
  unfold HttpConfig.applyEnv
  refine exact_cons (k := FixedName.scalar .httpDebug) (exact_ifSome (reads_bool env _) (fun _ => bool_why (by simp [boolVars]) (by fixed_name)) _)
    fun _ => ?_
  refine exact_cons (k := FixedName.scalar .httpProxy) (exact_ifSome (reads_text env _) (fun _ => var_why (by fixed_name)) _) fun _ => ?_
  refine exact_cons (k := FixedName.scalar .httpTimeout) (exact_ifSome (reads_u32 env _) (fun _ => u32_why (by simp [u32Vars]) (by fixed_name)) _)
    fun _ => ?_
  refine exact_cons (k := FixedName.scalar .httpCainfo) (exact_ifSome (reads_text env _) (fun _ => var_why (by fixed_name)) _) fun _ => ?_
  refine exact_cons (k := FixedName.scalar .httpCheckRevoke)
    (exact_ifSome (reads_bool env _) (fun _ => bool_why (by simp [boolVars]) (by fixed_name)) _) fun _ => ?_
  refine exact_cons (k := FixedName.scalar .httpLowSpeedLimit)
    (exact_ifSome (reads_u32 env _) (fun _ => u32_why (by simp [u32Vars]) (by fixed_name)) _) fun _ => ?_
  refine exact_cons (k := FixedName.scalar .httpMultiplexing)
    (exact_ifSome (reads_bool env _) (fun _ => bool_why (by simp [boolVars]) (by fixed_name)) _) fun _ => ?_
  refine exact_cons (k := FixedName.scalar .httpUserAgent) (exact_ifSome (reads_text env _) (fun _ => var_why (by fixed_name)) _) fun _ => ?_
  exact exact_ok _ _

theorem exact_net (f : NetConfig) :
    Exact env.get (firstSome (((fixedNames.drop 21).take 3).map (FixedName.defect env.get docs))) (f.applyEnv env) := by
  unfold NetConfig.applyEnv
  refine exact_cons (k := FixedName.scalar .netRetry) (exact_ifSome (reads_u32 env _) (fun _ => u32_why (by simp [u32Vars]) (by fixed_name)) _)
    fun _ => ?_
  refine exact_cons (k := FixedName.scalar .netGitFetchWithCli)
    (exact_ifSome (reads_bool env _) (fun _ => bool_why (by simp [boolVars]) (by fixed_name)) _) fun _ => ?_
  refine exact_cons (k := FixedName.scalar .netOffline)
    (exact_ifSome (reads_bool env _) (fun _ => bool_why (by simp [boolVars]) (by fixed_name)) _) fun _ => ?_
  exact exact_ok _ _

theorem exact_registry (f : RegistryConfig) :
    Exact env.get (firstSome (((fixedNames.drop 24).take 2).map (FixedName.defect env.get docs))) (f.applyEnv env) := by
  unfold RegistryConfig.applyEnv
  refine exact_cons (k := FixedName.scalar .registryDefault) (exact_ifSome (reads_text env _) (fun _ => var_why (by fixed_name)) _) fun _ => ?_
  refine exact_cons (k := FixedName.scalar .registryToken) (exact_ifSome (reads_textRedacted env _) (fun _ => varRedacted_why (.inl rfl)) _)
    fun _ => ?_
  exact exact_ok _ _

theorem exact_progress (f : TermProgress) :
    Exact env.get (firstSome ((fixedNames.drop 29).map (FixedName.defect env.get docs))) (f.applyEnv env) := by
  unfold TermProgress.applyEnv
  refine exact_cons (k := FixedName.scalar .termProgressWhen) (exact_ifSome (reads_when env _) (fun _ => when_why) _) fun _ => ?_
  refine exact_cons (k := FixedName.scalar .termProgressWidth)
    (exact_ifSome (reads_u32 env _) (fun _ => u32_why (by simp [u32Vars]) (by fixed_name)) _) fun _ => ?_
  exact exact_ok _ _

theorem exact_term (f : TermConfig) :
    Exact env.get (firstSome ((fixedNames.drop 26).map (FixedName.defect env.get docs))) (f.applyEnv env) := by
  unfold TermConfig.applyEnv
  refine exact_cons (k := FixedName.scalar .termQuiet) (exact_ifSome (reads_bool env _) (fun _ => bool_why (by simp [boolVars]) (by fixed_name)) _)
    fun _ => ?_
  refine exact_cons (k := FixedName.scalar .termVerbose)
    (exact_ifSome (reads_bool env _) (fun _ => bool_why (by simp [boolVars]) (by fixed_name)) _) fun _ => ?_
  refine exact_cons (k := FixedName.scalar .termColor) (exact_ifSome (reads_color env _) (fun _ => color_why) _) fun _ => ?_
  exact exact_append (b := []) (exact_progress env docs _) (fun _ => exact_ok _ _)

theorem exact_doc (d : DocConfig) (hb : d.browser = none ↔ ∀ f t, (f, t) ∈ docs → t.at ["doc".toList, "browser".toList] = none) :
    Exact env.get (FixedName.browser.defect env.get docs) (d.applyEnv env) := by
  unfold FixedName.defect DocConfig.applyEnv
  cases hd : d.browser with
  | some x =>
    have : ¬ (docs.all fun x => (x.2.at ["doc".toList, "browser".toList]).isNone) = true := by
      intro h
      rw [hd] at hb
      simp only [reduceCtorEq, false_iff] at hb
      refine hb fun f t hm => ?_
      have := List.all_eq_true.1 h (f, t) hm
      exact Option.isNone_iff_eq_none.1 this
    rw [if_neg this]
    exact exact_ok _ _
  | none =>
    have : (docs.all fun x => (x.2.at ["doc".toList, "browser".toList]).isNone) = true :=
      List.all_eq_true.2 fun x hx => Option.isNone_iff_eq_none.2 (hb.1 hd x.1 x.2 hx)
    rw [if_pos this]
    dsimp only
    unfold Env.var
    cases hv : Env.get env "BROWSER".toList with
    | none => exact exact_ok _ _
    | some w =>
      cases w with
      | invalid b =>
        have := namesWhy_notUnicode (n := "BROWSER".toList) hv (by fixed_name)
        exact ⟨_, rfl, this.1, this.explained⟩
      | unicode s =>
        dsimp only [OsStr.toStr?, Res.ok_bind]
        rw [wordsIn_eq]
        unfold PathAndArgs.fromString
        cases hw : splitSpaceSeparated s with
        | nil =>
          refine ⟨_, rfl, fun sh => ?_, fun n hn => ?_⟩
          · rw [display_context, fill_plain _ (by decide +kernel)]
          · exfalso
            have := hn ⟨fun _ => [], fun _ => [], fun _ => [], fun _ => [], fun _ => []⟩
            rw [display_context, fill_plain _ (by decide +kernel)] at this
            have := congrArg List.head? this
            cases this
        | cons w ws => exact exact_ok _ _

/-- The variables with fixed names. -/
theorem exact_fixed {c c1 : Config} (hc : c.applyVars env = .ok c1)
    (hb : c1.doc.browser = none ↔ ∀ f t, (f, t) ∈ docs → t.at ["doc".toList, "browser".toList] = none) :
    Exact env.get (firstSome (fixedNames.map (FixedName.defect env.get docs))) (c.applyEnv env) := by
  unfold Config.applyEnv
  rw [hc, Res.ok_bind]
  refine exact_append (a := fixedNames.take 11) (b := fixedNames.drop 11) (exact_build env docs _) fun _ => ?_
  refine exact_cons (k := FixedName.browser) (l := fixedNames.drop 12) (exact_doc env docs _ hb) fun _ => ?_
  refine exact_append (a := (fixedNames.drop 12).take 1) (b := fixedNames.drop 13) (exact_frequency env docs _) fun _ => ?_
  refine exact_append (a := (fixedNames.drop 13).take 8) (b := fixedNames.drop 21) (exact_http env docs _) fun _ => ?_
  refine exact_append (a := (fixedNames.drop 21).take 3) (b := fixedNames.drop 24) (exact_net env docs _) fun _ => ?_
  refine exact_append (a := (fixedNames.drop 24).take 2) (b := fixedNames.drop 26) (exact_registry env docs _) fun _ => ?_
  exact exact_append (b := []) (exact_term env docs _) (fun _ => exact_ok _ _)
end

/-! ### the variables with free names -/

theorem alias_not_token (k : Str) : ¬ TokenVar (aliasVar k) := by
  rintro (h | ⟨j, h⟩)
  · have := congrArg (startsWith "CARGO_ALIAS_".toList) h
    unfold aliasVar at this
    rw [startsWith, stripPrefix_eq_some.2 rfl, Option.isSome_some] at this
    exact absurd this (by decide +kernel)
  · exact alias_ne_token k j h

theorem index_not_token (k : Str) : ¬ TokenVar (indexVar k) := by
  rintro (h | ⟨j, h⟩)
  · have := congrArg (startsWith "CARGO_REGISTRIES_".toList) h
    rw [indexVar_eq, startsWith, stripPrefix_eq_some.2 rfl, Option.isSome_some] at this
    exact absurd this (by decide +kernel)
  · exact index_ne_token k j h

theorem proto_not_token : ¬ TokenVar protoVar := by
  rintro (h | ⟨j, h⟩)
  · exact absurd h (by decide +kernel)
  · exact token_ne_proto j h.symm

/-- The error is about a variable with a free name. -/
def FreeErr (look : Str → Option OsStr) (e : Err) : Prop := (∃ m, FreeDefect look m ∧ ∀ sh, e.display sh = m) ∧ Explained look e

theorem NamesWhy.free {look : Str → Option OsStr} {n : Str} {e : Err} {b : List Nat} (h : NamesWhy look n e) (hn : FreeName n)
    (hv : look n = some (.invalid b)) : FreeErr look e :=
  ⟨⟨_, .notText n b hn hv, h.1⟩, h.explained⟩

theorem applyVar_free {env : Env} {c : Config} {n : Str} {v : OsStr} {e : Err} (hv : env.get n = some v)
    (h : c.applyVar n v = .err e) : FreeErr env.get e := by
  have hr := applyVar_round n
  generalize hf : (fun (c : Config) (v : OsStr) => c.applyVar n v) = f at hr
  have h : f c v = .err e := by rw [← hf]; exact h
  clear hf
  cases hr with
  | alias k hk =>
    cases hs : v.toStr? with
    | some s => simp only [hs] at h; cases h
    | none =>
      simp only [hs] at h
      cases h
      obtain ⟨b, rfl⟩ := toStr_none hs
      subst hk
      exact (namesWhy_notUnicode hv (alias_not_token k)).free (.alias k) hv
  | index k hk =>
    cases hs : v.toStr? with
    | some s => simp only [hs] at h; cases h
    | none =>
      simp only [hs] at h
      cases h
      obtain ⟨b, rfl⟩ := toStr_none hs
      subst hk
      exact (namesWhy_notUnicode hv (index_not_token k)).free (.index k) hv
  | token k hk =>
    cases hs : v.toStr? with
    | some s => simp only [hs] at h; cases h
    | none =>
      simp only [hs] at h
      cases h
      obtain ⟨b, rfl⟩ := toStr_none hs
      subst hk
      exact (namesWhy_redacted hv (.inr ⟨k, rfl⟩)).free (.token k) hv
  | proto hk =>
    subst hk
    cases hs : v.toStr? with
    | some s =>
      simp only [hs] at h
      cases toStr_some hs
      rcases Res.bind_eq_err.1 h with h | ⟨_, _, h⟩
      · rcases Res.bind_eq_err.1 h with h | ⟨_, _, h⟩
        · unfold Protocol.fromStr at h
          dsimp only at h
          split at h
          · cases h
          · rename_i h1
            split at h
            · cases h
            · rename_i h2
              cases h
              refine ⟨⟨_, .protocol s hv h1 h2, fun sh => by rw [display_other, fill_protocol]⟩, fun n hn => ?_⟩
              exfalso
              have := hn ⟨fun _ => [], fun _ => [], fun _ => [], fun _ => [], fun _ => []⟩
              rw [display_other, fill_protocol] at this
              have := congrArg List.head? this
              cases this
        · cases h
      · cases h
    | none =>
      simp only [hs] at h
      cases h
      obtain ⟨b, rfl⟩ := toStr_none hs
      exact (namesWhy_notUnicode hv proto_not_token).free .protocol hv
  | other _ _ _ _ => cases h

theorem applyVars_free {env l : Env} {c : Config} {e : Err} (hv : ∀ n v, (n, v) ∈ l → env.get n = some v)
    (h : c.applyVars l = .err e) : FreeErr env.get e := by
  induction l generalizing c with
  | nil => cases h
  | cons x l ih =>
    obtain ⟨n, v⟩ := x
    rcases Res.bind_eq_err.1 h with h | ⟨c', _, h⟩
    · exact applyVar_free (hv n v (by simp)) h
    · exact ih (fun n v hm => hv n v (by simp [hm])) h

theorem freeDefect_not_fine {env : Env} {m : Str} (h : FreeDefect env.get m) (hf : ∀ x ∈ env, LoopFine x.1 x.2) : False := by
  cases h with
  | notText n b hn hv =>
    have h := hf _ (Env.mem_of_get hv)
    cases hn with
    | alias k => obtain ⟨s, h⟩ := h.1 k (.inl rfl); cases h
    | index k => obtain ⟨s, h⟩ := h.1 k (.inr (.inl rfl)); cases h
    | token k => obtain ⟨s, h⟩ := h.1 k (.inr (.inr rfl)); cases h
    | protocol => obtain ⟨s, p, h, _⟩ := h.2 rfl; cases h
  | protocol s hv h1 h2 =>
    obtain ⟨s', p, h, h3⟩ := (hf _ (Env.mem_of_get hv)).2 rfl
    cases h
    unfold Protocol.fromStr at h3
    rw [if_neg h1, if_neg h2] at h3
    cases h3

/-- The variables with free names: either one of them is malformed and the error is about one, or all are well-formed. -/
theorem applyVars_free_or {env : Env} (hd : DistinctKeys env) (c : Config) :
    (∃ e, c.applyVars env = .err e ∧ FreeErr env.get e) ∨
      ((∀ m, ¬ FreeDefect env.get m) ∧ ∃ c1, c.applyVars env = .ok c1 ∧ c1.doc = c.doc) := by
  cases h : c.applyVars env with
  | ok c1 =>
    refine .inr ⟨fun m hm => freeDefect_not_fine hm ((applyVars_ok_iff env c).1 ⟨c1, h⟩), c1, rfl, ?_⟩
    rw [(applyVars_frame h).1]
  | err e => exact .inl ⟨e, rfl, applyVars_free (fun n v hm => Env.get_of_mem hd hm) h⟩
  | panic => exact absurd h (applyVars_ne_panic env c)

end CC
