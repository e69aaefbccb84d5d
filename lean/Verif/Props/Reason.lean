import Verif.Lemmas.Reason
import Verif.Props.Cause
/-
Which variable the error of a failed load is about, and why (C83).

As in C66, `toml` stands for the TOML parser.
-/
namespace CC

variable {p : ProcEnv} {fs : Fs} {toml : Str → Res Toml} {cwd : Path} {o : Options} {look : Str → Option OsStr} {home : Option Path}
  {docs : List (Path × Toml)}

/-- The outcome of `apply_env` if the files are in order. -/
theorem load_vars (ht : ∀ s t, toml s = .ok t → t.DistinctKeys) (hm : ∀ e, o.env = some e → DistinctKeys e)
    (hh : HomeOf p o cwd home) (he : EnvOf p o look) (hdocs : DocumentsOf fs toml cwd home docs) (hg : DocsGood docs) :
    (∃ e, EConfig.loadWithOptions p fs (fun s => toml s >>= Config.de) cwd o = .err e ∧ FreeErr look e) ∨
      (∀ m, ¬ FreeDefect look m) ∧
        match firstSome (fixedNames.map (FixedName.defect look docs)) with
        | some m => ∃ e, EConfig.loadWithOptions p fs (fun s => toml s >>= Config.de) cwd o = .err e ∧ (∀ sh, e.display sh = m) ∧
            Explained look e
        | none => ∀ e, EConfig.loadWithOptions p fs (fun s => toml s >>= Config.de) cwd o ≠ .err e := by
  obtain ⟨de, hl⟩ := load_of_docs ht hdocs hg
  obtain ⟨docs', raws, h1, _, hf, hr⟩ := load_unpack ht hl
  cases documents_unique h1 hdocs
  have hd := env_distinct (p := p) (cwd := cwd) hm
  have hlook : Env.get (o.intoContext p cwd).1.env = look := env_unique he rfl
  have hu := progUnset_iff hl hf hr .docBrowser
  have hsteps := load_steps (fs := fs) hh (fun s => toml s >>= Config.de)
  rw [hl, Res.ok_bind] at hsteps
  rw [← hlook]
  rcases applyVars_free_or hd de with ⟨e, h, hfree⟩ | ⟨hno, c1, h, hdoc⟩
  · left
    refine ⟨e, ?_, hfree⟩
    rw [hsteps]
    unfold EConfig.fromUnresolved Config.applyEnv
    rw [h]
    rfl
  · right
    refine ⟨hno, ?_⟩
    have hx := exact_fixed (o.intoContext p cwd).1.env docs h (by
      rw [hdoc, ← (show ProgKey.docBrowser.path = ["doc".toList, "browser".toList] from rfl), ← hu]
      cases hb : de.doc.browser <;> simp [ProgKey.get, hb])
    cases hm : firstSome (fixedNames.map (FixedName.defect (o.intoContext p cwd).1.env.get docs)) with
    | some m =>
      rw [hm] at hx
      obtain ⟨e, h1, h2, h3⟩ := hx
      refine ⟨e, ?_, h2, h3⟩
      rw [hsteps]
      unfold EConfig.fromUnresolved
      rw [h1]
      rfl
    | none =>
      rw [hm] at hx
      obtain ⟨de', h2⟩ := hx
      intro e h
      rw [hsteps] at h
      rcases Res.bind_eq_err.1 h with h | ⟨_, _, h⟩
      · have hs : de'.env.Sorted := by
          rw [(C25_local h2).1]
          exact (load_wf (fun s c => toml_wf s c) hl).env
        have hloc : ∀ r l, ListKey.buildTarget.get de' = some (r, l) → ∀ v ∈ l, v.defn ≠ none :=
          listSource_located (source_list hl hf hr hd h2 .buildTarget)
        rcases decides_resolved h2 hs hloc with ⟨_, a, h4⟩ | ⟨_, h4⟩ <;> rw [h4] at h <;> cases h
      · cases h

theorem free_message {e : Err} (h : FreeErr look e) : ∃ m, FreeDefect look m ∧ ∀ sh, e.display sh = m := h.1

/-- C83: if the files are in order and a variable with a free name is malformed, the error is about such a variable. -/
theorem C83_free (ht : ∀ s t, toml s = .ok t → t.DistinctKeys) (hm : ∀ e, o.env = some e → DistinctKeys e)
    (hh : HomeOf p o cwd home) (he : EnvOf p o look) (hdocs : DocumentsOf fs toml cwd home docs) (hg : DocsGood docs) {m : Str}
    (hf : FreeDefect look m) :
    ∃ e m', EConfig.loadWithOptions p fs (fun s => toml s >>= Config.de) cwd o = .err e ∧ FreeDefect look m' ∧ ∀ sh, e.display sh = m' := by
  rcases load_vars ht hm hh he hdocs hg with ⟨e, h, h1⟩ | ⟨h, _⟩
  · obtain ⟨m', h2, h3⟩ := free_message h1
    exact ⟨e, m', h, h2, h3⟩
  · exact absurd hf (h m)

/-- C83: otherwise it is about the first setting whose variables are malformed; if there is none, loading is not an error. -/
theorem C83_first (ht : ∀ s t, toml s = .ok t → t.DistinctKeys) (hm : ∀ e, o.env = some e → DistinctKeys e)
    (hh : HomeOf p o cwd home) (he : EnvOf p o look) (hdocs : DocumentsOf fs toml cwd home docs) (hg : DocsGood docs)
    (hf : ∀ m, ¬ FreeDefect look m) :
    match firstSome (fixedNames.map (FixedName.defect look docs)) with
    | some m => ∃ e, EConfig.loadWithOptions p fs (fun s => toml s >>= Config.de) cwd o = .err e ∧ ∀ sh, e.display sh = m
    | none => ∀ e, EConfig.loadWithOptions p fs (fun s => toml s >>= Config.de) cwd o ≠ .err e := by
  rcases load_vars ht hm hh he hdocs hg with ⟨e, h, h1⟩ | ⟨_, h⟩
  · obtain ⟨m, h2, _⟩ := free_message h1
    exact absurd h2 (hf m)
  · split at h
    · obtain ⟨e, h1, h2, _⟩ := h
      exact ⟨e, h1, h2⟩
    · exact h

/-- C83: an error about a variable tells why. -/
theorem C83_reason (ht : ∀ s t, toml s = .ok t → t.DistinctKeys) (hm : ∀ e, o.env = some e → DistinctKeys e)
    (hh : HomeOf p o cwd home) (he : EnvOf p o look) {e : Err}
    (h : EConfig.loadWithOptions p fs (fun s => toml s >>= Config.de) cwd o = .err e) {n : Str} (hn : ∀ sh, e.display sh = varMessage n) :
    ∃ src, e.source = some src ∧ VarReason look n src := by
  rcases C67_cause_partial ht hm hh he h ⟨fun _ => [], fun _ => [], fun _ => [], fun _ => [], fun _ => []⟩ with
    ⟨files, hf, hb⟩ | ⟨docs, hdocs, hg, _⟩
  · exfalso
    rw [hn] at hb
    generalize hx : varMessage n = x at hb
    generalize e.source = y at hb
    unfold varMessage at hx
    cases hb with
    | read docs f src =>
      have := congrArg (fun s => s[10]?) hx
      simp at this
    | syntactic docs f text src =>
      have := congrArg (fun s => s[16]?) hx
      simp [quoted] at this
    | config docs f text t what =>
      have := congrArg (fun s => s[16]?) hx
      simp [quoted] at this
    | merge nearest u docs f text t src =>
      have := congrArg (fun s => s[10]?) hx
      simp at this
  · rcases load_vars ht hm hh he hdocs hg with ⟨e', h', h1⟩ | ⟨_, h1⟩
    · rw [h] at h'
      cases h'
      exact h1.2 n hn
    · split at h1
      · obtain ⟨e', h', _, h2⟩ := h1
        rw [h] at h'
        cases h'
        exact h2 n hn
      · exact absurd h (h1 e)

/-! ### samples -/

/-- Three malformed variables, in another order than that of the settings. -/
def malformedVars : Env :=
  [("CARGO_TERM_COLOR".toList, .unicode "purple".toList), ("CARGO_HTTP_TIMEOUT".toList, .unicode "soon".toList),
   ("CARGO_BUILD_TARGET_DIR".toList, .invalid [255])]

/-- What `C83_first` and `C83_reason` say of them. -/
example : firstSome (fixedNames.map (FixedName.defect malformedVars.get [])) =
    some "failed to parse environment variable `CARGO_BUILD_TARGET_DIR`".toList := by decide +kernel
example : ∃ e, EConfig.loadWithOptions {} emptyFs (fun _ => .panic) "/w".toList { env := some malformedVars } = .err e ∧
    (∀ sh, e.display sh = "failed to parse environment variable `CARGO_BUILD_TARGET_DIR`".toList) ∧
    e.source = some (.notUnicode (.invalid [255])) :=
  ⟨_, rfl, fun _ => (display_context _ _ _ _).trans (by decide +kernel), rfl⟩
example : VarReason malformedVars.get "CARGO_BUILD_TARGET_DIR".toList (.notUnicode (.invalid [255])) :=
  .notText [255] rfl (by fixed_name)
example : VarReason malformedVars.get "CARGO_TERM_COLOR".toList
    (.other "must be auto, always, or never, but found `{}`".toList ["purple".toList]) :=
  .word "CARGO_TERM_COLOR" ["auto", "always", "never"] "must be auto, always, or never, but found " "purple".toList _ (by simp [wordVars]) rfl
    rfl (by decide) fun sh => by rw [display_other]; exact fill_found _ _ _ (by decide +kernel) (by decide +kernel)
example : VarReason malformedVars.get "CARGO_HTTP_TIMEOUT".toList (.std "ParseIntError".toList) :=
  .unsigned "CARGO_HTTP_TIMEOUT" "soon".toList (by simp [u32Vars]) rfl rfl rfl

/-- A variable with a free name is looked at before them: what `C83_free` says. -/
example : FreeDefect (Env.get (malformedVars ++ [("CARGO_REGISTRIES_A_TOKEN".toList, .invalid [254])]))
    "failed to parse environment variable `CARGO_REGISTRIES_A_TOKEN`".toList :=
  .notText _ [254] (.token "A".toList) rfl
example : ∃ e, EConfig.loadWithOptions {} emptyFs (fun _ => .panic) "/w".toList
      { env := some (malformedVars ++ [("CARGO_REGISTRIES_A_TOKEN".toList, .invalid [254])]) } = .err e ∧
    (∀ sh, e.display sh = "failed to parse environment variable `CARGO_REGISTRIES_A_TOKEN`".toList) ∧ e.source = some .redacted :=
  ⟨_, rfl, fun _ => (display_context _ _ _ _).trans (by decide +kernel), rfl⟩

/-- With `doc.browser` in a file, the variable `BROWSER` does not count. -/
example : FixedName.defect (Env.get [("BROWSER".toList, .unicode " ".toList)])
    [("/.cargo/config".toList, .tbl [("doc".toList, .tbl [("browser".toList, .str "b".toList)])])] .browser = none := by decide +kernel
example : FixedName.defect (Env.get [("BROWSER".toList, .unicode " ".toList)])
    [("/.cargo/config".toList, .tbl [("doc".toList, .tbl [])])] .browser = some "invalid length 0, expected at least one element".toList := by
  decide +kernel

end CC
