import Verif.Spec.Anchored
import Verif.Props.EasySerde
import Verif.Props.Rustc
import Verif.Props.Settings
/-
Resolved paths do not depend on the working directory: C88.
-/
namespace CC

variable {p : ProcEnv} {fs : Fs} {toml : Str → Res Toml} {cwd : Path} {o : Options} {c : EConfig} {s : Cells}
  {look : Str → Option OsStr} {home : Option Path} {docs : List (Path × Toml)} {w : World}

/-- C88: the programs of `[build]`. -/
theorem C88_programs (h : Loads p fs toml cwd o look home docs c s) (hc : Absolute cwd) (hh : HomeAbsolute home) (k : ScalarKey) {y : Path}
    (hy : k.program c = some (some y)) : Anchored y := (loads_portable h hc hh).programs k y hy

/-- C88: the browser of `[doc]`. -/
theorem C88_browser (h : Loads p fs toml cwd o look home docs c s) (hc : Absolute cwd) (hh : HomeAbsolute home) {b : EPathAndArgs}
    (hb : c.doc.browser = some b) : Anchored b.path := (loads_portable h hc hh).browser b hb

/-- C88: the directories of `[build]`, which are never looked up anywhere. -/
theorem C88_directories (h : Loads p fs toml cwd o look home docs c s) (hc : Absolute cwd) (hh : HomeAbsolute home) (k : ScalarKey)
    {y : Path} (hy : k.directory c = some (some y)) : Absolute y := (loads_portable h hc hh).directories k y hy

/-- C88: the spec files named by `build.target`. -/
theorem C88_spec_files (h : Loads p fs toml cwd o look home docs c s) (hc : Absolute cwd) (hh : HomeAbsolute home)
    {l : List TargetTriple} (hl : c.build.target = some l) {t : TargetTriple} (ht : t ∈ l) {f : Path} (hf : t.specPath = some f) :
    Absolute f := ((loads_portable h hc hh).targets l hl t ht).2 f hf

/-- C88: the entries of `[env]` that were said to be relative; no entry is left to be joined by the caller. -/
theorem C88_env (h : Loads p fs toml cwd o look home docs c s) (hc : Absolute cwd) (hh : HomeAbsolute home) {k : Str} {e : EEnvValue}
    (he : BMap.get c.env k = some e) : e.relative = false ∧
      ((∃ d, (ScalarKey.envRelative k).source look docs = some (.bool true, d)) → Absolute e.value) := by
  have h1 := C57_env h k
  rw [he] at h1
  generalize hx : (ScalarKey.envValue k).source look docs = x at h1
  cases h1 with
  | some h2 =>
    obtain ⟨t, -, h3, -, -, h4⟩ := h2
    refine ⟨h3, fun hr => ?_⟩
    obtain ⟨base, hb, hv⟩ := h4 hr
    rw [hv]
    exact absolute_join (located_abs h.docs hc hh (source_located hx) base hb)

theorem targets_anchored (h : Loads p fs toml cwd o look home docs c s) (hc : Absolute cwd) (hh : HomeAbsolute home) (w : World)
    (qs : List Query) (s : Cells) (hs : ∀ k e, s.target.get k = some e → e.Portable c.build) :
    ∀ k e, (afterAll c w qs s).target.get k = some e → e.Portable c.build := by
  induction qs generalizing s with
  | nil => exact hs
  | cons q qs ih =>
    refine ih (c.ask q w s).2 fun k e hk => ?_
    rcases (target_step c w q s k e).1 hk with h1 | ⟨hn, t, -, h2, h3⟩
    · exact hs k e h1
    · refine loads_target_portable h hc hh (s1 := s) (s2 := (c.target t w s).2) ?_ (by rw [← h3])
      rw [cliTarget_text, h2]
      exact hn

/-- C88: the linker and the runner of any target, whatever was asked before. -/
theorem C88_target (h : Loads p fs toml cwd o look home docs c s) (hc : Absolute cwd) (hh : HomeAbsolute home) (w : World)
    (qs : List Query) {t : TargetTriple} {e : ETarget} (ht : (c.target t w (afterAll c w qs s)).1 = .ok e) :
    (∀ y, e.linker = some y → Anchored y) ∧ ∀ r, e.runner = some r → Anchored r.path := by
  have hf := (C33_loaded h.loaded).1
  have hp : e.Portable c.build := by
    cases hg : (afterAll c w qs s).target.get t.cliTarget with
    | some e' =>
      rw [target_cached hg] at ht
      cases Res.ok.inj ht
      exact targets_anchored h hc hh w qs s (fun k e hk => by rw [hf] at hk; cases hk) _ _ hg
    | none => exact loads_target_portable h hc hh hg (s2 := (c.target t w (afterAll c w qs s)).2) (by rw [← ht])
  exact ⟨hp.linker, hp.runner⟩

theorem sibling_anchored {q : Path} (h : Absolute q ∨ q = "cargo".toList) : Anchored (Path.join (Path.pop q) "rustc".toList) := by
  rcases h with h | rfl
  · refine .inl (absolute_join ?_)
    unfold Path.pop
    cases hp : Path.parent q with
    | none => exact h
    | some r =>
      refine ancestors_absolute h (a := r) ?_
      rw [Path.ancestors_eq, hp]
      refine List.mem_cons_of_mem _ ?_
      show r ∈ Path.ancestors r
      rw [Path.ancestors_eq]
      cases Path.parent r <;> exact List.mem_cons_self
  · right; decide +kernel

theorem isRustc_anchored (h : Loads p fs toml cwd o look home docs c s) (hc : Absolute cwd) (hh : HomeAbsolute home)
    (hg : Absolute c.cargo.path ∨ c.cargo = .unicode "cargo".toList) {exist : Path → Bool} {q : Path} (hq : IsRustc c exist q) :
    Anchored q := by
  have hg' : Absolute c.cx.cargo.path ∨ c.cx.cargo.path = "cargo".toList := by
    rcases hg with h | h
    · exact .inl h
    · right
      unfold EConfig.cargo at h
      rw [h]; rfl
  cases hq with
  | given p hp => exact C88_programs h hc hh .buildRustc (by show some c.build.rustc = _; rw [hp])
  | sibling _ _ => exact sibling_anchored hg'
  | plain _ _ => right; decide +kernel

theorem line_anchored (h : Loads p fs toml cwd o look home docs c s) (hc : Absolute cwd) (hh : HomeAbsolute home) {q x : Path}
    (hq : Anchored q) (hx : x ∈ c.build.rustcWrapper.toList ++ c.build.rustcWorkspaceWrapper.toList ++ [q]) : Anchored x := by
  rw [List.mem_append, List.mem_append, List.mem_singleton, Option.mem_toList, Option.mem_toList] at hx
  rcases hx with (h1 | h1) | h1
  · exact C88_programs h hc hh .buildRustcWrapper (by show some c.build.rustcWrapper = _; rw [h1])
  · exact C88_programs h hc hh .buildRustcWorkspaceWrapper (by show some c.build.rustcWorkspaceWrapper = _; rw [h1])
  · rw [h1]; exact hq

theorem rustc_anchored (h : Loads p fs toml cwd o look home docs c s) (hc : Absolute cwd) (hh : HomeAbsolute home)
    (hg : Absolute c.cargo.path ∨ c.cargo = .unicode "cargo".toList) (w : World) (s : Cells)
    (hs : ∀ r, s.rustc = some r → ∀ x ∈ r.line, Anchored x) :
    ∀ r, (c.rustc w s).1 = .ok r → ∀ x ∈ r.line, Anchored x := by
  intro r hr
  cases hx : s.rustc with
  | some r' =>
    rw [show c.rustc w s = (.ok r', s) from queryRustc_set hx] at hr
    cases Res.ok.inj hr
    exact hs r hx
  | none =>
    obtain ⟨r', q, h1, h2, h3, -⟩ := C47_line c w hx
    cases Res.ok.inj (h1.symm.trans hr)
    intro x hm
    unfold EPathAndArgs.line at hm
    rw [h3] at hm
    exact line_anchored h hc hh (isRustc_anchored h hc hh hg h2) hm

theorem rustc_cell_anchored (h : Loads p fs toml cwd o look home docs c s) (hc : Absolute cwd) (hh : HomeAbsolute home)
    (hg : Absolute c.cargo.path ∨ c.cargo = .unicode "cargo".toList) (w : World) (qs : List Query) (s : Cells)
    (hs : ∀ r, s.rustc = some r → ∀ x ∈ r.line, Anchored x) :
    ∀ r, (afterAll c w qs s).rustc = some r → ∀ x ∈ r.line, Anchored x := by
  induction qs generalizing s with
  | nil => exact hs
  | cons q qs ih =>
    refine ih (c.ask q w s).2 fun r hr => ?_
    rcases ask_rustc c q w s with h1 | h1
    · rw [h1] at hr
      exact hs r hr
    · rw [h1] at hr
      refine rustc_anchored h hc hh hg w s hs r ?_
      rw [← Option.some.inj hr]
      exact queryRustc_eq c.cx c.build w s

/-- C88: the compiler and its wrappers, whatever was asked before, if no compiler was given as an option, and cargo is either given by
its absolute path (as it does for the programs it starts) or not at all. -/
theorem C88_compiler (h : Loads p fs toml cwd o look home docs c s) (hc : Absolute cwd) (hh : HomeAbsolute home) (ho : o.rustc = none)
    (hg : Absolute c.cargo.path ∨ c.cargo = .unicode "cargo".toList) (w : World) (qs : List Query) {r : EPathAndArgs}
    (hr : (c.rustc w (afterAll c w qs s)).1 = .ok r) : ∀ x ∈ r.line, Anchored x := by
  refine rustc_anchored h hc hh hg w _ (rustc_cell_anchored h hc hh hg w qs s ?_) r hr
  intro r hr
  have hs : s.rustc = o.rustc := by
    rw [(load_context h.loaded).2]
    have h1 : (o.intoContext p cwd).2.rustc = o.rustc := by
      unfold Options.intoContext
      dsimp only
      split <;> rfl
    rw [← h1]
    unfold Cells.cargoHomeOf
    split <;> rfl
  rw [hs, ho] at hr
  cases hr

/-! ### a sample -/

section sample

/-- A call in `/w/p`, with a relative compiler, spec file and entry of `[env]` in its files. -/
example : ∃ look docs c s, Loads sampleProc sampleFs sampleToml "/w/p".toList { cargoHome := some none } look none docs c s ∧
    (∃ y, ScalarKey.buildRustc.program c = some (some y) ∧ Anchored y) ∧
    (∃ l, c.build.target = some l ∧ ∃ t ∈ l, ∃ f, t.specPath = some f ∧ Absolute f) ∧
    (∃ e, BMap.get c.env "E".toList = some e ∧ e.relative = false) := by
  obtain ⟨look, c, s, h⟩ := sample_load sampleToml_distinct (if_pos rfl) ((if_neg (by decide)).trans (if_pos rfl)) (by decide +kernel)
  have hc : Absolute "/w/p".toList := ⟨_, rfl⟩
  have hh : HomeAbsolute none := fun _ e => (by cases e)
  have get : ∀ {α : Type} (g : EConfig → α), (EConfig.loadWithOptions sampleProc sampleFs (fun s => sampleToml s >>= Config.de)
      "/w/p".toList { cargoHome := some none }).toOption.map (fun r => g r.1) = some (g c) := by
    intro α g
    rw [h.loaded]; rfl
  have h1 : c.build.rustc = some "/w/bin/rustc".toList := Option.some.inj ((get fun c => c.build.rustc).symm.trans (by decide +kernel))
  have h2 : c.build.target = some [⟨"a".toList, some "/w/spec/a.json".toList⟩] :=
    Option.some.inj ((get fun c => c.build.target).symm.trans (by decide +kernel))
  have h3 : BMap.get c.env "E".toList = some ⟨"/w/p/x".toList, false, false⟩ :=
    Option.some.inj ((get fun c => BMap.get c.env "E".toList).symm.trans (by decide +kernel))
  have hp : ScalarKey.buildRustc.program c = some (some "/w/bin/rustc".toList) := congrArg some h1
  exact ⟨look, _, c, s, h, ⟨_, hp, C88_programs h hc hh .buildRustc hp⟩,
    ⟨_, h2, _, List.mem_cons_self, _, rfl, C88_spec_files h hc hh h2 List.mem_cons_self rfl⟩,
    ⟨_, h3, (C88_env h hc hh h3).1⟩⟩

/-- A document with relative paths. -/
def anchorDoc : Toml := .tbl [
  ("build".toList, .tbl [("rustdoc".toList, .str "rustdoc".toList), ("target-dir".toList, .str "out".toList)]),
  ("doc".toList, .tbl [("browser".toList, .str "./browse -x".toList)]),
  ("env".toList, .tbl [("A".toList, .tbl [("value".toList, .str "a".toList), ("relative".toList, .bool true)])]),
  ("target".toList, .tbl [("x-y".toList, .tbl [("linker".toList, .str "bin/ld".toList), ("runner".toList, .str "./run -q".toList)])])]

/-- Loading it in a directory and asking for a target and the compiler: all paths. -/
def anchorPaths (cwd : Path) (env : Env) : Option (List (Option Path)) :=
  (EConfig.loadWithOptions { vars := [], home := none } { oneFs with ex := fun p => p = Path.join cwd ".cargo/config".toList }
      (fun _ => .ok anchorDoc >>= Config.de) cwd { env := some env }).toOption.map fun (c, s) =>
    [c.build.rustdoc, c.build.targetDir, c.doc.browser.map (·.path), (BMap.get c.env "A".toList).map (·.value),
      (c.target ⟨"x-y".toList, none⟩ sampleWorld s).1.toOption.bind (·.linker),
      (c.target ⟨"x-y".toList, none⟩ sampleWorld s).1.toOption.bind fun e => e.runner.map (·.path),
      (c.rustc { sampleWorld with exist := fun _ _ => true } s).1.toOption.map (·.path)]

example : anchorPaths "/w".toList [("CARGO".toList, .unicode "/tc/bin/cargo".toList)] =
    some (["rustdoc", "/w/out", "/w/./browse", "/w/a", "/w/bin/ld", "/w/./run", "/tc/bin/rustc"].map fun x => some x.toList) := by
  decide +kernel

/-- Without cargo the compiler is called by its name. -/
example : anchorPaths "/w".toList [] =
    some (["rustdoc", "/w/out", "/w/./browse", "/w/a", "/w/bin/ld", "/w/./run", "rustc"].map fun x => some x.toList) := by decide +kernel

/-- The conditions on the directory given to `load_with_cwd` and on cargo are needed. -/
theorem C88_conditions_needed : anchorPaths "w".toList [("CARGO".toList, .unicode "bin/cargo".toList)] =
    some (["rustdoc", "w/out", "w/./browse", "w/a", "w/bin/ld", "w/./run", "bin/rustc"].map fun x => some x.toList) := by decide +kernel

end sample

end CC
