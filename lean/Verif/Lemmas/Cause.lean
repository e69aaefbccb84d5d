import Verif.Spec.Cause
import Verif.Lemmas.DeErr
import Verif.Lemmas.Outcome
/-
Lemmas for C67: what the errors of `apply_env` and of loading the files say.
-/
namespace CC

/-! ### filling in templates -/

theorem fillGo_plain (a : Str) (ha : '{' ∉ a) (b : Str) (as : List Str) : fillGo false (a ++ b) as = a ++ fillGo false b as := by
  induction a with
  | nil => rfl
  | cons c a ih =>
    have hc : c ≠ '{' := fun h => ha (by simp [h])
    have ih := ih fun h => ha (List.mem_cons_of_mem _ h)
    rw [List.cons_append, List.cons_append, fillGo.eq_3 as c (a ++ b) (fun _ _ _ e => hc e), ih]

theorem fill_plain (a : Str) (ha : '{' ∉ a) (as : List Str) : fill a as = a := by
  have := fillGo_plain a ha [] as
  rw [List.append_nil, fillGo, List.append_nil] at this
  exact this

theorem fill_hole (a : Str) (ha : '{' ∉ a) (x b : Str) (as : List Str) :
    fill (a ++ '{' :: '}' :: b) (x :: as) = a ++ (x ++ fill b as) := by
  unfold fill
  rw [fillGo_plain a ha]
  rfl

theorem fill_quoted (a a' : Str) (b : Str) (x : Str) (as : List Str) (ha : a' = a ++ '`' :: '{' :: '}' :: '`' :: b)
    (h : '{' ∉ a := by decide +kernel) : fill a' (x :: as) = a ++ (quoted x ++ fill b as) := by
  have : a' = (a ++ ['`']) ++ '{' :: '}' :: '`' :: b := by rw [ha, List.append_assoc]; rfl
  have hb : fill ('`' :: b) as = '`' :: fill b as := by cases as <;> rfl
  rw [this, fill_hole _ (by simp [h]), hb, quoted, List.append_assoc, List.cons_append, List.nil_append, List.cons_append,
    List.append_assoc, List.cons_append, List.nil_append]

theorem fill_nil (as : List Str) : fill [] as = [] := by cases as <;> rfl

theorem fill_var (n : Str) : fill "failed to parse environment variable `{}`".toList [n] = varMessage n := by
  have h := fill_quoted "failed to parse environment variable ".toList "failed to parse environment variable `{}`".toList [] n []
    (by decide +kernel) (by decide +kernel)
  rw [fill_nil, List.append_nil] at h
  unfold varMessage
  exact h

theorem fill_read (f : Str) : fill "failed to read `{}`".toList [f] = "failed to read ".toList ++ quoted f := by
  rw [fill_quoted "failed to read ".toList _ [] f [] (by decide +kernel), fill_nil, List.append_nil]

theorem fill_parse (f : Str) : fill "failed to parse `{}` as cargo configuration".toList [f] =
    "failed to parse ".toList ++ quoted f ++ " as cargo configuration".toList := by
  rw [fill_quoted "failed to parse ".toList _ " as cargo configuration".toList f [] (by decide +kernel), fill_plain _ (by decide +kernel),
    List.append_assoc]

theorem fill_merge (f g : Str) : fill "failed to merge config from `{}` into `{}`".toList [f, g] =
    "failed to merge config from ".toList ++ quoted f ++ " into ".toList ++ quoted g := by
  rw [fill_quoted "failed to merge config from ".toList _ " into `{}`".toList f [g] (by decide +kernel),
    fill_quoted " into ".toList _ [] g [] (by decide +kernel), fill_nil, List.append_nil, List.append_assoc, List.append_assoc]

theorem fill_protocol (s : Str) : fill "must be git or sparse, but found `{}`".toList [s] =
    "must be git or sparse, but found ".toList ++ quoted s := by
  rw [fill_quoted "must be git or sparse, but found ".toList _ [] s [] (by decide +kernel), fill_nil, List.append_nil]

theorem display_other (m : Str) (as : List Str) (sh : Shown) : (Err.other m as).display sh = fill m as := rfl

theorem display_context (m : Str) (as : List Str) (src : Option Err) (sh : Shown) :
    (Err.context m as [] src).display sh = fill m as := by
  show fill m (as ++ []) = fill m as
  rw [List.append_nil]

theorem wordsIn_nil {s : Str} (h : wordsIn s = []) : Blank s := by
  rw [wordsIn_eq] at h
  exact wordsOf_nil (wordsOf_split s) h

/-! ### variables -/

/-- The error is about the variable `n`. -/
def NamesVar (n : Str) (e : Err) : Prop := ∃ src, e.source = some src ∧ ¬ src.Foreign ∧ ∀ sh, e.display sh = varMessage n

theorem namesVar_context (n : Str) (src : Err) (hs : ¬ src.Foreign) :
    NamesVar n (.context "failed to parse environment variable `{}`".toList [n] [] (some src)) :=
  ⟨src, rfl, hs, fun sh => (display_context _ _ _ sh).trans (fill_var n)⟩

theorem namesVar_notUnicode (n : Str) (v : OsStr) : NamesVar n (.envNotUnicode n v) := by
  unfold Err.envNotUnicode; exact namesVar_context n _ (by rintro (⟨_, h⟩ | ⟨_, h⟩) <;> cases h)

theorem namesVar_redacted (n : Str) : NamesVar n (.envNotUnicodeRedacted n) := by
  unfold Err.envNotUnicodeRedacted; exact namesVar_context n _ (by rintro (⟨_, h⟩ | ⟨_, h⟩) <;> cases h)

theorem var_names {env : Env} {n : Str} {e : Err} (h : env.var n = .err e) : NamesVar n e := by
  unfold Env.var at h
  split at h
  · cases h
  · split at h
    · cases h
    · cases h; exact namesVar_notUnicode n _

theorem varRedacted_names {env : Env} {n : Str} {e : Err} (h : env.varRedacted n = .err e) : NamesVar n e := by
  unfold Env.varRedacted at h
  split at h
  · cases h
  · split at h
    · cases h
    · cases h; exact namesVar_redacted n

/-- If this fails, the error is not one of the operating system or of the TOML library. -/
def OwnErr {α : Type} (r : Res α) : Prop := ∀ e, r = .err e → ¬ e.Foreign

theorem ownErr_ok {α : Type} (a : α) : OwnErr (Res.ok a) := nofun
theorem ownErr_other {α : Type} (m : Str) (as : List Str) : OwnErr (α := α) (.err (.other m as)) := by
  intro e h; cases h; rintro (⟨_, h⟩ | ⟨_, h⟩) <;> cases h
theorem ownErr_std {α : Type} (m : Str) : OwnErr (α := α) (.err (.std m)) := by
  intro e h; cases h; rintro (⟨_, h⟩ | ⟨_, h⟩) <;> cases h
theorem ownErr_context {α : Type} (r : Res α) (m : Str) (as : List Str) (ds : List Dbg) : OwnErr (r.withContext m as ds) := by
  intro e h
  cases r with
  | ok a => cases h
  | err e' => cases h; rintro (⟨_, h⟩ | ⟨_, h⟩) <;> cases h
  | panic => cases h
theorem ownErr_bind {α β : Type} {x : Res α} {g : α → Res β} (hx : OwnErr x) (hg : ∀ a, OwnErr (g a)) : OwnErr (x >>= g) := by
  intro e h
  rcases Res.bind_eq_err.1 h with h | ⟨a, _, h⟩
  · exact hx e h
  · exact hg a e h

/-- Closes the goals at the leaves. -/
macro "own_err" : tactic => `(tactic| first | exact ownErr_ok _ | exact ownErr_other _ _ | exact ownErr_std _)

theorem boolFromStr_own (s : Str) : OwnErr (boolFromStr s) := by
  unfold boolFromStr; split <;> own_err
theorem u32FromStr_own (s : Str) : OwnErr (u32FromStr s) := by
  unfold u32FromStr; split <;> own_err
theorem i32FromStr_own (s : Str) : OwnErr (i32FromStr s) := by
  unfold i32FromStr; split <;> own_err
theorem Frequency.fromStr_own (s : Str) : OwnErr (Frequency.fromStr s) := by
  unfold Frequency.fromStr; repeat' split
  all_goals own_err
theorem Color.fromStr_own (s : Str) : OwnErr (Color.fromStr s) := by
  unfold Color.fromStr; repeat' split
  all_goals own_err
theorem When.fromStr_own (s : Str) : OwnErr (When.fromStr s) := by
  unfold When.fromStr; repeat' split
  all_goals own_err

theorem parse_names {α : Type} {fromStr : Str → Res α} (ho : ∀ s, OwnErr (fromStr s)) {env : Env} {n : Str} {e : Err}
    (h : env.parse fromStr n = .err e) : NamesVar n e := by
  unfold Env.parse at h
  rcases Res.bind_eq_err.1 h with h | ⟨o, _, h⟩
  · exact var_names h
  · cases o with
    | none => cases h
    | some v =>
      rcases Res.bind_eq_err.1 h with h | ⟨o, _, h⟩
      · cases hv : v.parse fromStr with
        | ok a => rw [hv] at h; cases h
        | err e' =>
          rw [hv] at h
          cases h
          exact namesVar_context n _ (ownErr_bind (ho v.val) (fun a => ownErr_ok _) e' hv)
        | panic => rw [hv] at h; cases h
      · cases h

/-- If this fails, the error names the first of the variables that is set, and it is malformed. -/
def Blames {δ φ : Type} (env : Env) (srcs : List (Source δ)) (r : Res φ) : Prop :=
  ∀ e, r = .err e → ∃ n, malformedVar env.get srcs = some n ∧ NamesVar n e

section
variable {α α' δ κ φ : Type} {env : Env} {src src' : Source δ} {srcs : List (Source δ)} {mk : Str → δ → κ} {view : φ → κ} {f : α → φ}
  {r : Res (Option α)}

theorem Reads.blamed (h : Reads env src mk view f r) (hn : ∀ e, r = .err e → NamesVar src.1 e) {e : Err} (he : r = .err e)
    (srcs : List (Source δ)) : ∃ n, malformedVar env.get (src :: srcs) = some n ∧ NamesVar n e := by
  refine ⟨src.1, ?_, hn e he⟩
  obtain ⟨n, rd⟩ := src
  rw [he] at h
  unfold Reads at h
  simp only [readEnv] at h
  simp only [malformedVar]
  cases hv : env.get n with
  | none => rw [hv] at h; cases h
  | some v =>
    rw [hv] at h
    cases v with
    | invalid b => rfl
    | unicode s =>
      dsimp only at h ⊢
      cases hr : rd s with
      | none => rfl
      | some a => rw [hr] at h; obtain ⟨v, h, _⟩ := h; cases h

theorem Reads.unset (h : Reads env src mk view f r) (he : r = .ok none) (srcs : List (Source δ)) :
    malformedVar env.get (src :: srcs) = malformedVar env.get srcs := by
  obtain ⟨n, rd⟩ := src
  rw [he] at h
  unfold Reads at h
  simp only [readEnv] at h
  simp only [malformedVar]
  cases hv : env.get n with
  | none => rfl
  | some v =>
    rw [hv] at h
    cases v with
    | invalid b => obtain ⟨e, h⟩ := h; cases h
    | unicode s =>
      dsimp only at h
      cases hr : rd s with
      | none => rw [hr] at h; obtain ⟨e, h⟩ := h; cases h
      | some a => rw [hr] at h; obtain ⟨v, h, _⟩ := h; cases h

theorem Blames.ifSome (h : Reads env src mk view f r) (hn : ∀ e, r = .err e → NamesVar src.1 e) (old : φ) :
    Blames env [src] (r.ifSome old f) := by
  intro e he
  rcases Res.bind_eq_err.1 he with he | ⟨o, _, he⟩
  · exact h.blamed hn he []
  · cases o <;> cases he

theorem Blames.orElse (h : Reads env src mk view f r) (hn : ∀ e, r = .err e → NamesVar src.1 e) {s : Res φ} (hs : Blames env srcs s)
    {g : Option α → Res φ} (hg : g none = s) (hg' : ∀ v, g (some v) = .ok (f v)) : Blames env (src :: srcs) (r >>= g) := by
  intro e he
  rcases Res.bind_eq_err.1 he with he | ⟨o, ho, he⟩
  · exact h.blamed hn he srcs
  · cases o with
    | some v => rw [hg'] at he; cases he
    | none =>
      rw [hg] at he
      rw [h.unset ho]
      exact hs e he

theorem Blames.ifSomeElse {s : Res (Option α')} {g : α' → φ} (h : Reads env src mk view f r)
    (hn : ∀ e, r = .err e → NamesVar src.1 e) (h' : Reads env src' mk view g s) (hn' : ∀ e, s = .err e → NamesVar src'.1 e) (old : φ) :
    Blames env [src, src'] (Res.ifSomeElse r f s old g) :=
  Blames.orElse h hn (Blames.ifSome h' hn' old) rfl fun _ => rfl
end

theorem blames_rustflags (env : Env) (e p b : Str) (old : Option Flags) :
    Blames env [asEncoded e, asWords p, asWords b] (rustflagsFromEnv env e p b old) := by
  have h1 : Reads env (asEncoded e) mkList (fun x : Option Flags × Bool => viewFlags x.1)
      (fun v => (some (Flags.fromEncoded v), true)) (env.var e) :=
    reads_var fun s => ⟨_, rfl, by simp [viewFlags, mkList, listFromVar, Flags.fromEncoded, splitEncoded, unitSep, piecesAt_eq]⟩
  have h2 : ∀ n o, Reads env (asWords n) mkList (fun x : Option Flags × Bool => viewFlags x.1)
      (fun v => (some (Flags.fromSpaceSeparated v.val v.defn), o)) (env.var n) := fun n o =>
    reads_var fun s => ⟨_, rfl, by simp [viewFlags, mkList, listFromVar, Flags.fromSpaceSeparated, wordsIn_eq]⟩
  exact Blames.orElse h1 (fun _ => var_names) (Blames.ifSomeElse (h2 p true) (fun _ => var_names) (h2 b false) (fun _ => var_names) (old, false))
    rfl fun _ => rfl

/-- What the error of `apply_env` is about; `unset` tells which commands the config does not have. -/
inductive EnvBlame (env : Env) (unset : ProgKey → Prop) (e : Err) : Prop where
  | scalar (k : ScalarKey) (n : Str) : malformedVar env.get k.consulted = some n → NamesVar n e → EnvBlame env unset e
  | list (k : ListKey) (n : Str) : malformedVar env.get k.sources = some n → NamesVar n e → EnvBlame env unset e
  | command (k : ProgKey) (n : Str) : unset k → malformedVar env.get k.sources = some n → NamesVar n e → EnvBlame env unset e
  | protocol (s : Str) : env.get "CARGO_REGISTRIES_CRATES_IO_PROTOCOL".toList = some (.unicode s) → s ≠ "git".toList → s ≠ "sparse".toList →
      e = .other "must be git or sparse, but found `{}`".toList [s] → EnvBlame env unset e
  | browser (s : Str) : env.get "BROWSER".toList = some (.unicode s) → wordsIn s = [] → unset .docBrowser →
      e = .context "invalid length 0, expected at least one element".toList [] [] none → EnvBlame env unset e

theorem blame_scalar {φ : Type} {env : Env} {unset : ProgKey → Prop} {r : Res φ} (k : ScalarKey) (h : Blames env k.consulted r) {e : Err}
    (he : r = .err e) : EnvBlame env unset e := by
  obtain ⟨n, h1, h2⟩ := h e he
  exact .scalar k n h1 h2

theorem blame_list {φ : Type} {env : Env} {unset : ProgKey → Prop} {r : Res φ} (k : ListKey) (h : Blames env k.sources r) {e : Err}
    (he : r = .err e) : EnvBlame env unset e := by
  obtain ⟨n, h1, h2⟩ := h e he
  exact .list k n h1 h2

theorem toStr_none {v : OsStr} (h : v.toStr? = none) : ∃ b, v = .invalid b := by
  cases v with
  | unicode s => cases h
  | invalid b => exact ⟨b, rfl⟩

theorem toStr_some {v : OsStr} {s : Str} (h : v.toStr? = some s) : v = .unicode s := by
  cases v with
  | unicode s => cases h; rfl
  | invalid b => cases h

theorem malformed_protocol {env : Env} {b : List Nat} (hv : env.get "CARGO_REGISTRIES_CRATES_IO_PROTOCOL".toList = some (.invalid b)) :
    malformedVar env.get (ScalarKey.registriesProtocol "crates-io".toList).consulted =
      some "CARGO_REGISTRIES_CRATES_IO_PROTOCOL".toList := by
  have h : (ScalarKey.registriesProtocol "crates-io".toList).consulted =
      [asWord "CARGO_REGISTRIES_CRATES_IO_PROTOCOL" [("git", .protocol .git), ("sparse", .protocol .sparse)]] := by
    rw [ScalarKey.consulted, if_neg (by intro h; cases h), ScalarKey.sources, if_pos rfl]
  rw [h, asWord, malformedVar, hv]

theorem applyVar_blame {env : Env} {unset : ProgKey → Prop} {c : Config} {n : Str} {v : OsStr} {e : Err} (hv : env.get n = some v)
    (h : c.applyVar n v = .err e) : EnvBlame env unset e := by
  have hr := applyVar_round n
  generalize hf : (fun (c : Config) (v : OsStr) => c.applyVar n v) = f at hr
  have h : f c v = .err e := by rw [← hf]; exact h
  clear hf
  cases hr with
  | alias k hk =>
    cases hs : v.toStr? with
    | some s => simp only [hs] at h; cases h
    | none =>
      simp only [hs] at h
      cases h
      obtain ⟨b, rfl⟩ := toStr_none hs
      unfold aliasVar at hk
      subst hk
      refine .list (.alias k) _ ?_ (namesVar_notUnicode _ _)
      simp only [ListKey.sources, asWords, malformedVar]
      rw [hv]
  | index k hk =>
    cases hs : v.toStr? with
    | some s => simp only [hs] at h; cases h
    | none =>
      simp only [hs] at h
      cases h
      obtain ⟨b, rfl⟩ := toStr_none hs
      unfold indexVar at hk
      subst hk
      refine .scalar (.registriesIndex k) _ ?_ (namesVar_notUnicode _ _)
      simp only [ScalarKey.consulted, reduceCtorEq, if_false, ScalarKey.sources, malformedVar]
      rw [hv]
  | token k hk =>
    cases hs : v.toStr? with
    | some s => simp only [hs] at h; cases h
    | none =>
      simp only [hs] at h
      cases h
      obtain ⟨b, rfl⟩ := toStr_none hs
      unfold tokenVar at hk
      subst hk
      refine .scalar (.registriesToken k) _ ?_ (namesVar_redacted _)
      simp only [ScalarKey.consulted, reduceCtorEq, if_false, ScalarKey.sources, malformedVar]
      rw [hv]
  | proto hk =>
    unfold protoVar at hk
    subst hk
    cases hs : v.toStr? with
    | some s =>
      simp only [hs] at h
      cases toStr_some hs
      rcases Res.bind_eq_err.1 h with h | ⟨_, _, h⟩
      · rcases Res.bind_eq_err.1 h with h | ⟨_, _, h⟩
        · unfold Protocol.fromStr at h
          dsimp only at h
          split at h
          · cases h
          · rename_i h1
            split at h
            · cases h
            · rename_i h2
              cases h
              exact .protocol s hv h1 h2 rfl
        · cases h
      · cases h
    | none =>
      simp only [hs] at h
      cases h
      obtain ⟨b, rfl⟩ := toStr_none hs
      refine .scalar (.registriesProtocol "crates-io".toList) _ ?_ (namesVar_notUnicode _ _)
      exact malformed_protocol hv
  | other _ _ _ _ => cases h

theorem applyVars_blame {env l : Env} {unset : ProgKey → Prop} {c : Config} {e : Err} (hv : ∀ n v, (n, v) ∈ l → env.get n = some v)
    (h : c.applyVars l = .err e) : EnvBlame env unset e := by
  induction l generalizing c with
  | nil => cases h
  | cons x l ih =>
    obtain ⟨n, v⟩ := x
    rcases Res.bind_eq_err.1 h with h | ⟨c', _, h⟩
    · exact applyVar_blame (hv n v (by simp)) h
    · exact ih (fun n v hm => hv n v (by simp [hm])) h

theorem applyEnv_blame {env : Env} (hd : DistinctKeys env) {c : Config} {e : Err} (h : c.applyEnv env = .err e) :
    EnvBlame env (fun k => k.get c = none) e := by
  unfold Config.applyEnv BuildConfig.applyEnv FutureIncompatReportConfig.applyEnv HttpConfig.applyEnv NetConfig.applyEnv
    RegistryConfig.applyEnv TermConfig.applyEnv TermProgress.applyEnv at h
  rcases Res.bind_eq_err.1 h with h | ⟨c1, hc1, h⟩
  · exact applyVars_blame (fun n v hm => Env.get_of_mem hd hm) h
  have hdoc : c1.doc = c.doc := by rw [(applyVars_frame hc1).1]
  clear hc1
  rcases Res.bind_eq_err.1 h with h | ⟨_, _, h⟩
  · rcases Res.bind_eq_err.1 h with h | ⟨_, _, h⟩
    · exact blame_scalar .buildJobs (Blames.ifSome (reads_i32 env _) (fun _ => parse_names i32FromStr_own) _) h
    rcases Res.bind_eq_err.1 h with h | ⟨_, _, h⟩
    · exact blame_scalar .buildRustc (Blames.ifSomeElse (reads_text env _) (fun _ => var_names) (reads_text env _) (fun _ => var_names) _) h
    rcases Res.bind_eq_err.1 h with h | ⟨_, _, h⟩
    · exact blame_scalar .buildRustcWrapper
        (Blames.ifSomeElse (reads_wrapper env _) (fun _ => var_names) (reads_wrapper env _) (fun _ => var_names) _) h
    rcases Res.bind_eq_err.1 h with h | ⟨_, _, h⟩
    · exact blame_scalar .buildRustcWorkspaceWrapper
        (Blames.ifSomeElse (reads_wrapper env _) (fun _ => var_names) (reads_wrapper env _) (fun _ => var_names) _) h
    rcases Res.bind_eq_err.1 h with h | ⟨_, _, h⟩
    · exact blame_scalar .buildRustdoc
        (Blames.ifSomeElse (reads_text env _) (fun _ => var_names) (reads_text env _) (fun _ => var_names) _) h
    rcases Res.bind_eq_err.1 h with h | ⟨_, _, h⟩
    · exact blame_list .buildTarget (Blames.ifSome (reads_target env _) (fun _ => var_names) _) h
    rcases Res.bind_eq_err.1 h with h | ⟨_, _, h⟩
    · exact blame_scalar .buildTargetDir
        (Blames.ifSomeElse (reads_text env _) (fun _ => var_names) (reads_text env _) (fun _ => var_names) _) h
    rcases Res.bind_eq_err.1 h with h | ⟨⟨_, _⟩, _, h⟩
    · exact blame_list .buildRustflags (blames_rustflags env _ _ _ _) h
    rcases Res.bind_eq_err.1 h with h | ⟨⟨_, _⟩, _, h⟩
    · exact blame_list .buildRustdocflags (blames_rustflags env _ _ _ _) h
    rcases Res.bind_eq_err.1 h with h | ⟨_, _, h⟩
    · exact blame_scalar .buildIncremental
        (Blames.ifSomeElse (reads_incremental env _) (fun _ => var_names) (reads_bool env _) (fun _ => parse_names boolFromStr_own) _) h
    rcases Res.bind_eq_err.1 h with h | ⟨_, _, h⟩
    · exact blame_scalar .buildDepInfoBasedir (Blames.ifSome (reads_text env _) (fun _ => var_names) _) h
    cases h
  rcases Res.bind_eq_err.1 h with h | ⟨_, _, h⟩
  · have h : DocConfig.applyEnv env c1.doc = .err e := h
    rw [hdoc] at h
    cases hb : c.doc.browser with
    | some x => rw [DocConfig.applyEnv_some hb] at h; cases h
    | none =>
      have hu : ProgKey.docBrowser.get c = none := by
        rw [ProgKey.get, hb]; rfl
      unfold DocConfig.applyEnv at h
      rw [hb] at h
      dsimp only at h
      rcases Res.bind_eq_err.1 h with h | ⟨o, ho, h⟩
      · refine .command .docBrowser "BROWSER".toList hu ?_ (var_names h)
        unfold Env.var at h
        simp only [ProgKey.sources, malformedVar]
        cases hv : Env.get env "BROWSER".toList with
        | none => rw [hv] at h; cases h
        | some v =>
          rw [hv] at h
          cases v with
          | unicode s => cases h
          | invalid b => rfl
      · cases o with
        | none => cases h
        | some v =>
          dsimp only at h
          have hv : Env.get env "BROWSER".toList = some (.unicode v.val) := by
            unfold Env.var at ho
            cases hv : Env.get env "BROWSER".toList with
            | none => rw [hv] at ho; cases ho
            | some w =>
              rw [hv] at ho
              cases w with
              | unicode s => cases ho; rfl
              | invalid b => cases ho
          cases hx : PathAndArgs.fromString v.val v.defn with
          | some x => rw [hx] at h; cases h
          | none =>
            rw [hx] at h
            cases h
            refine .browser v.val hv ?_ hu rfl
            rw [wordsIn_eq]
            unfold PathAndArgs.fromString at hx
            cases hw : splitSpaceSeparated v.val with
            | nil => rfl
            | cons w ws => rw [hw] at hx; cases hx
  rcases Res.bind_eq_err.1 h with h | ⟨_, _, h⟩
  · rcases Res.bind_eq_err.1 h with h | ⟨_, _, h⟩
    · exact blame_scalar .futureIncompatReportFrequency (Blames.ifSome (reads_frequency env _) (fun _ => parse_names Frequency.fromStr_own) _) h
    cases h
  rcases Res.bind_eq_err.1 h with h | ⟨_, _, h⟩
  · rcases Res.bind_eq_err.1 h with h | ⟨_, _, h⟩
    · exact blame_scalar .httpDebug (Blames.ifSome (reads_bool env _) (fun _ => parse_names boolFromStr_own) _) h
    rcases Res.bind_eq_err.1 h with h | ⟨_, _, h⟩
    · exact blame_scalar .httpProxy (Blames.ifSome (reads_text env _) (fun _ => var_names) _) h
    rcases Res.bind_eq_err.1 h with h | ⟨_, _, h⟩
    · exact blame_scalar .httpTimeout (Blames.ifSome (reads_u32 env _) (fun _ => parse_names u32FromStr_own) _) h
    rcases Res.bind_eq_err.1 h with h | ⟨_, _, h⟩
    · exact blame_scalar .httpCainfo (Blames.ifSome (reads_text env _) (fun _ => var_names) _) h
    rcases Res.bind_eq_err.1 h with h | ⟨_, _, h⟩
    · exact blame_scalar .httpCheckRevoke (Blames.ifSome (reads_bool env _) (fun _ => parse_names boolFromStr_own) _) h
    rcases Res.bind_eq_err.1 h with h | ⟨_, _, h⟩
    · exact blame_scalar .httpLowSpeedLimit (Blames.ifSome (reads_u32 env _) (fun _ => parse_names u32FromStr_own) _) h
    rcases Res.bind_eq_err.1 h with h | ⟨_, _, h⟩
    · exact blame_scalar .httpMultiplexing (Blames.ifSome (reads_bool env _) (fun _ => parse_names boolFromStr_own) _) h
    rcases Res.bind_eq_err.1 h with h | ⟨_, _, h⟩
    · exact blame_scalar .httpUserAgent (Blames.ifSome (reads_text env _) (fun _ => var_names) _) h
    cases h
  rcases Res.bind_eq_err.1 h with h | ⟨_, _, h⟩
  · rcases Res.bind_eq_err.1 h with h | ⟨_, _, h⟩
    · exact blame_scalar .netRetry (Blames.ifSome (reads_u32 env _) (fun _ => parse_names u32FromStr_own) _) h
    rcases Res.bind_eq_err.1 h with h | ⟨_, _, h⟩
    · exact blame_scalar .netGitFetchWithCli (Blames.ifSome (reads_bool env _) (fun _ => parse_names boolFromStr_own) _) h
    rcases Res.bind_eq_err.1 h with h | ⟨_, _, h⟩
    · exact blame_scalar .netOffline (Blames.ifSome (reads_bool env _) (fun _ => parse_names boolFromStr_own) _) h
    cases h
  rcases Res.bind_eq_err.1 h with h | ⟨_, _, h⟩
  · rcases Res.bind_eq_err.1 h with h | ⟨_, _, h⟩
    · exact blame_scalar .registryDefault (Blames.ifSome (reads_text env _) (fun _ => var_names) _) h
    rcases Res.bind_eq_err.1 h with h | ⟨_, _, h⟩
    · exact blame_scalar .registryToken (Blames.ifSome (reads_textRedacted env _) (fun _ => varRedacted_names) _) h
    cases h
  rcases Res.bind_eq_err.1 h with h | ⟨_, _, h⟩
  · rcases Res.bind_eq_err.1 h with h | ⟨_, _, h⟩
    · exact blame_scalar .termQuiet (Blames.ifSome (reads_bool env _) (fun _ => parse_names boolFromStr_own) _) h
    rcases Res.bind_eq_err.1 h with h | ⟨_, _, h⟩
    · exact blame_scalar .termVerbose (Blames.ifSome (reads_bool env _) (fun _ => parse_names boolFromStr_own) _) h
    rcases Res.bind_eq_err.1 h with h | ⟨_, _, h⟩
    · exact blame_scalar .termColor (Blames.ifSome (reads_color env _) (fun _ => parse_names Color.fromStr_own) _) h
    rcases Res.bind_eq_err.1 h with h | ⟨_, _, h⟩
    · rcases Res.bind_eq_err.1 h with h | ⟨_, _, h⟩
      · exact blame_scalar .termProgressWhen (Blames.ifSome (reads_when env _) (fun _ => parse_names When.fromStr_own) _) h
      rcases Res.bind_eq_err.1 h with h | ⟨_, _, h⟩
      · exact blame_scalar .termProgressWidth (Blames.ifSome (reads_u32 env _) (fun _ => parse_names u32FromStr_own) _) h
      cases h
    cases h
  cases h

/-! ### files -/

variable {fs : Fs} {toml : Str → Res Toml} {cwd : Path} {home : Option Path}

theorem withContext_eq_err {α : Type} {x : Res α} {m : Str} {as : List Str} {e : Err} (h : x.withContext m as [] = .err e) :
    ∃ src, x = .err src ∧ e = .context m as [] (some src) := by
  cases x with
  | ok a => cases h
  | err src => cases h; exact ⟨src, rfl, rfl⟩
  | panic => cases h

/-- What has been read so far, in terms of documents. -/
theorem contents_of_read (ht : ∀ s t, toml s = .ok t → t.DistinctKeys) {files : List Path} {raws : List (Path × Config)}
    (h : FilesRead fs.read (fun s => toml s >>= Config.de) files raws) :
    ∃ docs : List (Path × Toml), docs.map Prod.fst = files ∧
      (∀ f t, (f, t) ∈ docs → ∃ text, fs.read f = .ok text ∧ toml text = .ok t) ∧ ListRel ReadAs raws docs := by
  obtain ⟨docs, e, hd⟩ := docs_of_raws raws h.2
  exact ⟨docs, by rw [e, h.1], hd, readAs_of_same e.symm h.2 hd ht⟩

theorem docsGood_of {files : List Path} {raws : List (Path × Config)} {docs : List (Path × Toml)} {b : Config}
    (h : FilesRead fs.read (fun s => toml s >>= Config.de) files raws) (hr : ListRel ReadAs raws docs)
    (hm : mergeList (located raws) = .ok b) : DocsGood docs := by
  refine ⟨?_, ?_⟩
  · intro f t hm
    obtain ⟨x, _, hx⟩ := (listRel_mem hr).2 _ hm
    exact (C62_accepted_iff t hx.2.2).1 ⟨_, hx.2.1⟩
  · have := (mergeList_ok_iff (located_wf (fun s c => toml_wf s c) h)).1 ⟨b, hm⟩
    rw [located, List.pairwise_map] at this
    simp only [shapeConflict_setPath] at this
    exact (pairwise_apart hr).1 this

theorem mergeAll_append (b : Config) (xs ys : List Config) : mergeAll b (xs ++ ys) = mergeAll b xs >>= fun m => mergeAll m ys := by
  induction xs generalizing b with
  | nil => rfl
  | cons x xs ih =>
    rw [List.cons_append, mergeAll, mergeAll]
    cases mergeConfig b x false with
    | ok m => rw [Res.ok_bind, Res.ok_bind, ih]
    | err e => rfl
    | panic => rfl

/-! ### errors of merging -/

theorem ownErr_opt {α : Type} {m : Merger α} (h : ∀ a b f, OwnErr (m a b f)) (a b : Option α) (f : Bool) : OwnErr (mergeOpt m a b f) := by
  cases b with
  | none => cases a <;> exact ownErr_ok _
  | some b =>
    cases a with
    | none => exact ownErr_ok _
    | some a => exact ownErr_bind (h a b f) fun _ => ownErr_ok _

theorem ownErr_scalar {α : Type} (a b : α) (f : Bool) : OwnErr (mergeScalar a b f) := ownErr_ok _

theorem ownErr_map {V : Type} (dbg : V → V → Bool → List Dbg) {m : Merger V} (a b : BMap V) (f : Bool) : OwnErr (mergeMap dbg m a b f) := by
  induction b generalizing a with
  | nil => exact ownErr_ok _
  | cons x b ih =>
    obtain ⟨k, v⟩ := x
    unfold mergeMap
    split
    · exact ownErr_bind (ownErr_context _ _ _ _) fun _ => ih _
    · exact ih _

theorem ownErr_stringOrArray (a b : StringOrArray) (f : Bool) : OwnErr (mergeStringOrArray a b f) := by
  unfold mergeStringOrArray mixErr; split <;> own_err

theorem ownErr_flags (a b : Flags) (f : Bool) : OwnErr (mergeFlags a b f) := by
  unfold mergeFlags mixErr; split <;> own_err

theorem ownErr_prog (a b : PathAndArgs) (f : Bool) : OwnErr (mergePathAndArgs a b f) := by
  unfold mergePathAndArgs mixErr; split <;> own_err

theorem mergeConfig_own (a b : Config) (f : Bool) : OwnErr (mergeConfig a b f) := by
  unfold mergeConfig mergeBuild mergeDoc mergeFutureIncompatReport mergeCargoNew mergeHttp mergeNet mergeRegistry mergeTerm
    mergeTermProgress
  repeat' first
    | refine ownErr_bind ?_ fun _ => ?_
    | exact ownErr_ok _
    | exact ownErr_map _ _ _ _
    | exact ownErr_opt ownErr_scalar _ _ _
    | exact ownErr_opt ownErr_flags _ _ _
    | exact ownErr_opt ownErr_prog _ _ _
    | exact ownErr_opt ownErr_stringOrArray _ _ _

end CC
