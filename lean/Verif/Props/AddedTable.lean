import Verif.Props.Matching
/-
What a further cfg table that is true for a target changes: C100.

As in C87 two loads are compared, here with one more table in the second.
-/
namespace CC

variable {p : ProcEnv} {fs fs' : Fs} {toml toml' : Str → Res Toml} {cwd : Path} {o : Options} {c c' : EConfig} {s s' s1 s1' : Cells}
  {look look' : Str → Option OsStr} {home home' : Option Path} {docs docs' : List (Path × Toml)} {w w' : World} {t : TargetTriple}

/-! ### lemmas -/

/-- The two answers, with one more table in the second. -/
theorem added_unpack (h : Loads p fs toml cwd o look home docs c s) (h' : Loads p fs' toml' cwd o look' home' docs' c' s')
    (hb : saidAt ["build".toList] docs = saidAt ["build".toList] docs')
    (ht : saidAt ["target".toList, t.triple] docs = saidAt ["target".toList, t.triple] docs')
    {e e' : ETarget} (hq : c.target t w s = (.ok e, s1)) (hq' : c'.target t w' s' = (.ok e', s1')) {a b : List Str} {k : Str}
    (hk : CfgTables w.checks docs (s1.cfg.get t.cliTarget) (a ++ b))
    (hk' : CfgTables w'.checks docs' (s1'.cfg.get t.cliTarget) (a ++ k :: b))
    (hs : ∀ x ∈ a ++ b, saidAt ["target".toList, x] docs = saidAt ["target".toList, x] docs') :
    ∃ a0 A B v, BMap.get c'.deTarget k = some v ∧ c.build = c'.build ∧
      ETarget.fromUnresolved c.cx.currentDir ((((A ++ B).foldl TargetAcc.addCfg a0).finish c.build.overrideTargetRustflags
        c.build.deRustflags c.build.overrideTargetRustdocflags c.build.deRustdocflags).getD {}) = .ok e ∧
      ETarget.fromUnresolved c.cx.currentDir ((((A ++ v :: B).foldl TargetAcc.addCfg a0).finish c.build.overrideTargetRustflags
        c.build.deRustflags c.build.overrideTargetRustdocflags c.build.deRustdocflags).getD {}) = .ok e' := by
  have hl : look = look' := (env_unique h.env (cwd := cwd) rfl).symm.trans (env_unique h'.env (cwd := cwd) rfl)
  subst hl
  obtain ⟨de, d⟩ := h.behind
  obtain ⟨de', d'⟩ := h'.behind
  have hc : c.cx = c'.cx := (load_context h.loaded).1.trans (load_context h'.loaded).1.symm
  have hbuild := d.build_same d' hb
  have hown := h.entry_same h' ht
  have f1 : s.target.get t.cliTarget = none := by rw [(C33_loaded h.loaded).1]; rfl
  have f2 : s'.target.get t.cliTarget = none := by rw [(C33_loaded h'.loaded).1]; rfl
  obtain ⟨_, a0, a1, sr, q1, q2, he, rfl⟩ := target_unpack f1 hq
  obtain ⟨_, a0', a1', sr', q1', q2', he', rfl⟩ := target_unpack f2 hq'
  rw [hown, hc, q1'] at q1
  cases q1
  obtain ⟨holds, m1, rfl⟩ := cfgTables_ok q2
  obtain ⟨holds', m1', rfl⟩ := cfgTables_ok q2'
  have k1 := matching_keys h m1 hk
  have k2 := matching_keys h' m1' hk'
  have same : ∀ l : List Str, (∀ x ∈ l, x ∈ a ++ b) → l.map (BMap.get c.deTarget) = l.map (BMap.get c'.deTarget) := by
    intro l hl
    exact List.map_congr_left fun x hx => h.entry_same h' (hs x (hl x hx))
  rw [List.map_append, same a (fun x hx => List.mem_append_left _ hx), same b (fun x hx => List.mem_append_right _ hx)] at k1
  rw [List.map_append, List.map_cons] at k2
  obtain ⟨A, B, e1, e2, e3⟩ := List.map_eq_append_iff.1 k1
  obtain ⟨A', B', g1, g2, g3⟩ := List.map_eq_append_iff.1 k2
  obtain rfl : A = A' := some_map_inj (e2.trans g2.symm)
  cases B' with
  | nil => cases g3
  | cons v B' =>
    rw [List.map_cons, List.cons.injEq] at g3
    obtain rfl : B = B' := some_map_inj (e3.trans g3.2.symm)
    rw [e1] at he
    rw [g1, ← hbuild, ← hc] at he'
    exact ⟨a0, A, B, v, g3.1.symm, hbuild, he, he'⟩

/-- The parts of an answer. -/
theorem finish_parts {a : TargetAcc} {o1 o2 : Bool} {b1 b2 : Option Flags} {e : ETarget}
    (h : ETarget.fromUnresolved cwd ((a.finish o1 b1 o2 b2).getD {}) = .ok e) :
    Res.mapOpt (fun v : Val Str => v.resolveAsProgramPath cwd) a.linker = .ok e.linker ∧
    Res.mapOpt (EPathAndArgs.fromUnresolved cwd) a.runner = .ok e.runner ∧
    e.rustflags = (chooseFlags o1 a.rustflags b1).map EFlags.fromUnresolved ∧
    e.rustdocflags = (chooseFlags o2 a.rustdocflags b2).map EFlags.fromUnresolved := by
  simp only [TargetAcc.finish, Option.getD_some, ETarget.fromUnresolved, Res.bind_eq_ok, Res.pure_eq] at h
  obtain ⟨x, h1, y, h2, h3⟩ := h
  have h3 := Res.ok.inj h3
  subst h3
  exact ⟨h1, h2, rfl, rfl⟩

theorem mapOpt_isSome {α β : Type} {f : α → Res β} {x : Option α} {y : Option β} (h : Res.mapOpt f x = .ok y) : x.isSome = y.isSome := by
  cases x with
  | none => cases h; rfl
  | some a =>
    simp only [Res.mapOpt, Res.bind_eq_ok] at h
    obtain ⟨b, _, h⟩ := h
    cases h
    rfl

theorem firstSome_isSome {α : Type} (l : List (Option α)) : (firstSome l).isSome = l.any Option.isSome := by
  induction l with
  | nil => rfl
  | cons x l ih => cases x with
    | none => simpa [firstSome] using ih
    | some x => rfl

theorem firstSome_skip {α : Type} (l m : List (Option α)) : firstSome (l ++ none :: m) = firstSome (l ++ m) := by
  induction l with
  | nil => rfl
  | cons x l ih => cases x with
    | none => exact ih
    | some x => rfl

/-- What the table does not state. -/
theorem added_unstated (h : Loads p fs toml cwd o look home docs c s) (h' : Loads p fs' toml' cwd o look' home' docs' c' s') {k : Str}
    {v : TargetConfig} (hv : BMap.get c'.deTarget k = some v) (hn : saidAt ["target".toList, k] docs = []) :
    (saidAt ["target".toList, k, "linker".toList] docs' = [] → v.linker = none) ∧
    (saidAt ["target".toList, k, "runner".toList] docs' = [] → v.runner = none) ∧
    (saidAt ["target".toList, k, "rustflags".toList] docs' = [] → v.rustflags = none) := by
  obtain ⟨de, d⟩ := h.behind
  obtain ⟨de', d'⟩ := h'.behind
  have r2 : c'.deTarget = de'.target := by rw [d'.rest]
  have hv : de'.target.get k = some v := by rw [← r2]; exact hv
  have hg : de.target.get k = none := by
    have r1 : c.deTarget = de.target := by rw [d.rest]
    rw [← r1]
    have := h.target_entry (k := k)
    rw [hn] at this
    cases hx : BMap.get c.deTarget k with
    | none => rfl
    | some x =>
      rw [hx] at this
      obtain ⟨_, _, hm⟩ := this.1 rfl
      cases hm
  have below : ∀ x, saidAt ["target".toList, k, x] docs = [] := by
    intro x
    have e := saidAt_below (p := ["target".toList, k]) (q := ["target".toList, k]) (docs := docs) (docs' := []) hn [x]
    exact e
  refine ⟨fun e => ?_, fun e => ?_, fun e => ?_⟩
  · have := d.scalar_same d' (.targetLinker k) (fun n hn => by cases hn) ((below _).trans e.symm)
    simp only [ScalarKey.get, hg, hv, Option.bind_none, Option.bind_some, Option.map_none] at this
    exact Option.map_eq_none_iff.1 this.symm
  · have := d.prog_same d' (.targetRunner k) (fun n hn => by cases hn) ((below _).trans e.symm)
    simp only [ProgKey.get, hg, hv, Option.bind_none, Option.bind_some, Option.map_none] at this
    exact Option.map_eq_none_iff.1 this.symm
  · have := d.list_same d' (.targetRustflags k) (fun n hn => by cases hn) ((below _).trans e.symm)
    simp only [ListKey.get, hg, hv, Option.bind_none, Option.bind_some, Option.map_none] at this
    exact Option.map_eq_none_iff.1 this.symm

theorem fold_skip {A B : List TargetConfig} {v : TargetConfig} (hv : v.rustflags = none) (a0 : TargetAcc) :
    ((A ++ v :: B).foldl TargetAcc.addCfg a0).rustflags = ((A ++ B).foldl TargetAcc.addCfg a0).rustflags := by
  have key : ∀ (l : List TargetConfig) (x y : TargetAcc), x.rustflags = y.rustflags →
      (l.foldl TargetAcc.addCfg x).rustflags = (l.foldl TargetAcc.addCfg y).rustflags := by
    intro l
    induction l with
    | nil => exact fun _ _ h => h
    | cons u l ih =>
      intro x y hxy
      refine ih _ _ ?_
      rw [addCfg_rustflags, addCfg_rustflags, hxy]
  rw [List.foldl_append, List.foldl_append, List.foldl_cons]
  refine key B _ _ ?_
  rw [addCfg_rustflags, hv]

theorem joined_added {α : Type} {l m : List (Option (List α))} (x : Option (List α)) {y : List α} (h : joined (l ++ m) = some y) :
    ∃ z, joined (l ++ x :: m) = some z ∧ y.Sublist z := by
  unfold joined at h ⊢
  split at h
  · cases h
  · rename_i hn
    rw [if_neg]
    · refine ⟨_, rfl, ?_⟩
      cases h
      simp only [List.flatMap_append, List.flatMap_cons]
      exact List.Sublist.append (List.Sublist.refl _) (List.sublist_append_right _ _)
    · intro hx
      refine hn ?_
      rw [List.all_eq_true] at hx ⊢
      intro z hz
      rcases List.mem_append.1 hz with hz | hz
      · exact hx z (List.mem_append_left _ hz)
      · exact hx z (List.mem_append_right _ (List.mem_cons_of_mem _ hz))

/-! ### the properties -/

/-- C100: the rustdocflags of a target do not depend on cfg tables. -/
theorem C100_rustdocflags (h : Loads p fs toml cwd o look home docs c s) (h' : Loads p fs' toml' cwd o look' home' docs' c' s')
    (hb : saidAt ["build".toList] docs = saidAt ["build".toList] docs')
    (ht : saidAt ["target".toList, t.triple] docs = saidAt ["target".toList, t.triple] docs')
    {e e' : ETarget} (hq : c.target t w s = (.ok e, s1)) (hq' : c'.target t w' s' = (.ok e', s1')) :
    e'.rustdocflags = e.rustdocflags := by
  have hl : look = look' := (env_unique h.env (cwd := cwd) rfl).symm.trans (env_unique h'.env (cwd := cwd) rfl)
  subst hl
  obtain ⟨de, d⟩ := h.behind
  obtain ⟨de', d'⟩ := h'.behind
  have hc : c.cx = c'.cx := (load_context h.loaded).1.trans (load_context h'.loaded).1.symm
  have hbuild := d.build_same d' hb
  have hown := h.entry_same h' ht
  have f1 : s.target.get t.cliTarget = none := by rw [(C33_loaded h.loaded).1]; rfl
  have f2 : s'.target.get t.cliTarget = none := by rw [(C33_loaded h'.loaded).1]; rfl
  obtain ⟨_, a0, a1, sr, q1, q2, he, rfl⟩ := target_unpack f1 hq
  obtain ⟨_, a0', a1', sr', q1', q2', he', rfl⟩ := target_unpack f2 hq'
  rw [hown, hc, q1'] at q1
  cases q1
  obtain ⟨holds, m1, rfl⟩ := cfgTables_ok q2
  obtain ⟨holds', m1', rfl⟩ := cfgTables_ok q2'
  rw [(finish_parts he).2.2.2, (finish_parts he').2.2.2, fold_rustdocflags, fold_rustdocflags, hbuild]

/-- C100: with a further cfg table that is true a target keeps having a linker and a runner. -/
theorem C100_kept (h : Loads p fs toml cwd o look home docs c s) (h' : Loads p fs' toml' cwd o look' home' docs' c' s')
    (hb : saidAt ["build".toList] docs = saidAt ["build".toList] docs')
    (ht : saidAt ["target".toList, t.triple] docs = saidAt ["target".toList, t.triple] docs')
    {e e' : ETarget} (hq : c.target t w s = (.ok e, s1)) (hq' : c'.target t w' s' = (.ok e', s1')) {a b : List Str} {k : Str}
    (hk : CfgTables w.checks docs (s1.cfg.get t.cliTarget) (a ++ b))
    (hk' : CfgTables w'.checks docs' (s1'.cfg.get t.cliTarget) (a ++ k :: b))
    (hs : ∀ x ∈ a ++ b, saidAt ["target".toList, x] docs = saidAt ["target".toList, x] docs') :
    (e.linker.isSome = true → e'.linker.isSome = true) ∧ (e.runner.isSome = true → e'.runner.isSome = true) := by
  obtain ⟨a0, A, B, v, _, _, he, he'⟩ := added_unpack h h' hb ht hq hq' hk hk' hs
  obtain ⟨h1, h2, _⟩ := finish_parts he
  obtain ⟨g1, g2, _⟩ := finish_parts he'
  have key : ∀ {α : Type} (f : TargetConfig → Option α) (x : Option α), (firstSome (x :: (A ++ B).map f)).isSome = true →
      (firstSome (x :: (A ++ v :: B).map f)).isSome = true := by
    intro α f x
    rw [firstSome_isSome, firstSome_isSome]
    simp only [List.map_append, List.map_cons, List.any_cons, List.any_append, Bool.or_eq_true]
    rintro (h | h | h)
    · exact .inl h
    · exact .inr (.inl h)
    · exact .inr (.inr (.inr h))
  rw [fold_linker] at h1 g1
  rw [fold_runner] at h2 g2
  rw [← mapOpt_isSome h1, ← mapOpt_isSome g1, ← mapOpt_isSome h2, ← mapOpt_isSome g2]
  exact ⟨key _ _, key _ _⟩

/-- C100: it keeps its rustflags, in their order; only flags of `[build]` (or of the variables for them), which count if there are no
others, may be replaced. -/
theorem C100_rustflags (h : Loads p fs toml cwd o look home docs c s) (h' : Loads p fs' toml' cwd o look' home' docs' c' s')
    (hb : saidAt ["build".toList] docs = saidAt ["build".toList] docs')
    (ht : saidAt ["target".toList, t.triple] docs = saidAt ["target".toList, t.triple] docs')
    {e e' : ETarget} (hq : c.target t w s = (.ok e, s1)) (hq' : c'.target t w' s' = (.ok e', s1')) {a b : List Str} {k : Str}
    (hk : CfgTables w.checks docs (s1.cfg.get t.cliTarget) (a ++ b))
    (hk' : CfgTables w'.checks docs' (s1'.cfg.get t.cliTarget) (a ++ k :: b))
    (hs : ∀ x ∈ a ++ b, saidAt ["target".toList, x] docs = saidAt ["target".toList, x] docs') :
    e.rustflags = c.build.rustflags ∨
    ∃ x y, e.rustflags = some x ∧ e'.rustflags = some y ∧ x.flags.Sublist y.flags := by
  obtain ⟨a0, A, B, v, _, _, he, he'⟩ := added_unpack h h' hb ht hq hq' hk hk' hs
  obtain ⟨de, d⟩ := h.behind
  have hbf : c.build.rustflags = c.build.deRustflags.map EFlags.fromUnresolved := by
    have hb := d.build
    simp only [EBuild.fromUnresolved, Res.bind_eq_ok, Res.pure_eq] at hb
    obtain ⟨x1, _, x2, _, x3, _, x4, _, x5, _, x6, _, x7, _, e1⟩ := hb
    rw [← Res.ok.inj e1]
  have h3 := (finish_parts he).2.2.1
  have g3 := (finish_parts he').2.2.1
  have f1 := fold_rustflags (A ++ B) a0
  have f2 := fold_rustflags (A ++ v :: B) a0
  rw [hbf]
  generalize ((A ++ B).foldl TargetAcc.addCfg a0).rustflags = r at h3 f1
  generalize ((A ++ v :: B).foldl TargetAcc.addCfg a0).rustflags = r' at g3 f2
  cases ho : c.build.overrideTargetRustflags with
  | true =>
    rw [ho] at h3
    exact .inl h3
  | false =>
    cases r with
    | none =>
      rw [ho] at h3
      exact .inl h3
    | some r =>
      rw [ho] at h3 g3
      simp only [List.map_append, List.map_cons] at f1 f2
      rw [← List.cons_append] at f1 f2
      obtain ⟨z, z1, z2⟩ := joined_added (v.rustflags.map Flags.texts) f1.symm
      rw [← f2] at z1
      cases r' with
      | none => cases z1
      | some r' =>
        cases z1
        exact .inr ⟨_, _, h3, g3, z2⟩

/-- C100: what the new table does not state stays as it was. -/
theorem C100_unstated (h : Loads p fs toml cwd o look home docs c s) (h' : Loads p fs' toml' cwd o look' home' docs' c' s')
    (hb : saidAt ["build".toList] docs = saidAt ["build".toList] docs')
    (ht : saidAt ["target".toList, t.triple] docs = saidAt ["target".toList, t.triple] docs')
    {e e' : ETarget} (hq : c.target t w s = (.ok e, s1)) (hq' : c'.target t w' s' = (.ok e', s1')) {a b : List Str} {k : Str}
    (hk : CfgTables w.checks docs (s1.cfg.get t.cliTarget) (a ++ b))
    (hk' : CfgTables w'.checks docs' (s1'.cfg.get t.cliTarget) (a ++ k :: b))
    (hs : ∀ x ∈ a ++ b, saidAt ["target".toList, x] docs = saidAt ["target".toList, x] docs')
    (hn : saidAt ["target".toList, k] docs = []) :
    (saidAt ["target".toList, k, "linker".toList] docs' = [] → e'.linker = e.linker) ∧
    (saidAt ["target".toList, k, "runner".toList] docs' = [] → e'.runner = e.runner) ∧
    (saidAt ["target".toList, k, "rustflags".toList] docs' = [] → e'.rustflags = e.rustflags) := by
  obtain ⟨a0, A, B, v, hv, _, he, he'⟩ := added_unpack h h' hb ht hq hq' hk hk' hs
  obtain ⟨h1, h2, h3, _⟩ := finish_parts he
  obtain ⟨g1, g2, g3, _⟩ := finish_parts he'
  obtain ⟨v1, v2, v3⟩ := added_unstated h h' hv hn
  refine ⟨fun e => ?_, fun e => ?_, fun e => ?_⟩
  · rw [fold_linker] at h1 g1
    rw [List.map_append, List.map_cons, v1 e, ← List.cons_append, firstSome_skip, List.cons_append, ← List.map_append, h1] at g1
    exact (Res.ok.inj g1).symm
  · rw [fold_runner] at h2 g2
    rw [List.map_append, List.map_cons, v2 e, ← List.cons_append, firstSome_skip, List.cons_append, ← List.map_append, h2] at g2
    exact (Res.ok.inj g2).symm
  · rw [g3, h3, fold_skip (v3 e)]

/-! ### samples -/

section sample

def addedDoc : Toml := .tbl [("target".toList, .tbl [
  ("cfg(not(windows))".toList, .tbl [("rustflags".toList, .arr [.str "-c".toList])]),
  ("cfg(unix)".toList, .tbl [("rustflags".toList, .arr [.str "-a".toList])])])]

theorem sampleAdded_before : CfgTables sampleWorld.checks
    [("/w/p/.cargo/config".toList, matchingSecond), ("/w/.cargo/config.toml".toList, .tbl [])]
    (some matchingCfg) ([] ++ ["cfg(unix)".toList]) := by
  have e1 : KeyValue sampleWorld.checks matchingCfg "cfg(unix)".toList true := ⟨_, rfl, by decide +kernel⟩
  refine ⟨by simp, fun k => ⟨fun hk => ?_, ?_⟩, fun k _ hk => ?_⟩
  · simp only [List.nil_append, List.mem_cons, List.not_mem_nil, or_false] at hk
    subst hk
    exact ⟨rfl, ⟨_, _, List.mem_cons_self, fun e => (by cases e)⟩, _, rfl, e1⟩
  · rintro ⟨_, hk, _⟩
    exact sampleMatching_has hk
  · have hk := sampleMatching_has hk
    simp only [List.map_cons, List.map_nil, List.mem_cons, List.not_mem_nil, or_false] at hk
    subst hk
    exact ⟨_, _, rfl, e1⟩

theorem sampleAdded_after : CfgTables sampleWorld.checks
    [("/w/p/.cargo/config".toList, addedDoc), ("/w/.cargo/config.toml".toList, .tbl [])]
    (some matchingCfg) ([] ++ "cfg(not(windows))".toList :: ["cfg(unix)".toList]) := by
  have e1 : KeyValue sampleWorld.checks matchingCfg "cfg(unix)".toList true := ⟨_, rfl, by decide +kernel⟩
  have e2 : KeyValue sampleWorld.checks matchingCfg "cfg(not(windows))".toList true := ⟨_, rfl, by decide +kernel⟩
  refine ⟨?_, fun k => ⟨fun hk => ?_, ?_⟩, fun k _ hk => ?_⟩
  · refine List.Pairwise.cons (fun x hx => ?_) (by simp)
    simp only [List.mem_cons, List.not_mem_nil, or_false] at hx
    subst hx
    exact .inr ⟨"cfg(".toList, 'n', 'u', "ot(windows))".toList, "nix)".toList, rfl, rfl, by decide⟩
  · simp only [List.nil_append, List.mem_cons, List.not_mem_nil, or_false] at hk
    rcases hk with rfl | rfl
    · exact ⟨rfl, ⟨_, _, List.mem_cons_self, fun e => (by cases e)⟩, _, rfl, e2⟩
    · exact ⟨rfl, ⟨_, _, List.mem_cons_self, fun e => (by cases e)⟩, _, rfl, e1⟩
  · rintro ⟨_, hk, _⟩
    exact sampleMatching_has hk
  · have hk := sampleMatching_has hk
    simp only [List.map_cons, List.map_nil, List.mem_cons, List.not_mem_nil, or_false] at hk
    rcases hk with rfl | rfl
    · exact ⟨_, _, rfl, e2⟩
    · exact ⟨_, _, rfl, e1⟩

/-- The hypotheses of `C100_kept`, `C100_rustflags`, `C100_unstated` and `C100_rustdocflags` are met, and the second case of
`C100_rustflags` occurs. -/
example : ∃ look look' c c' s s' e e' s1 s1', Loads sampleProc sampleFs (matchingToml matchingSecond) "/w/p".toList
      { cargoHome := some none } look none
      [("/w/p/.cargo/config".toList, matchingSecond), ("/w/.cargo/config.toml".toList, .tbl [])] c s ∧
    Loads sampleProc sampleFs (matchingToml addedDoc) "/w/p".toList { cargoHome := some none } look' none
      [("/w/p/.cargo/config".toList, addedDoc), ("/w/.cargo/config.toml".toList, .tbl [])] c' s' ∧
    c.target sampleTriple sampleWorld s = (.ok e, s1) ∧ c'.target sampleTriple sampleWorld s' = (.ok e', s1') ∧
    e'.linker = e.linker ∧ e'.runner = e.runner ∧ e'.rustdocflags = e.rustdocflags ∧
    (e.rustflags = c.build.rustflags ∨ ∃ x y, e.rustflags = some x ∧ e'.rustflags = some y ∧ x.flags.Sublist y.flags) := by
  obtain ⟨look, c, s, h⟩ := sampleMatching_load (near := matchingSecond)
    (sampleMatching_tables (by decide) fun x hx => by
      simp only [List.mem_cons, List.not_mem_nil, or_false] at hx
      subst hx
      exact ⟨_, rfl⟩) (by decide +kernel)
  obtain ⟨look', c', s', h'⟩ := sampleMatching_load (near := addedDoc)
    (sampleMatching_tables (by decide) fun x hx => by
      simp only [List.mem_cons, List.not_mem_nil, or_false] at hx
      rcases hx with rfl | rfl <;> exact ⟨_, rfl⟩) (by decide +kernel)
  obtain ⟨e, s1, _, hq, _, hcs⟩ := sampleMatching_query h (by decide +kernel)
  obtain ⟨e', s1', _, hq', _, hcs'⟩ := sampleMatching_query h' (by decide +kernel)
  have k1 := sampleAdded_before
  have k2 := sampleAdded_after
  rw [← hcs] at k1
  rw [← hcs'] at k2
  have hs : ∀ x ∈ [] ++ ["cfg(unix)".toList], saidAt ["target".toList, x]
        [("/w/p/.cargo/config".toList, matchingSecond), ("/w/.cargo/config.toml".toList, .tbl [])] =
      saidAt ["target".toList, x] [("/w/p/.cargo/config".toList, addedDoc), ("/w/.cargo/config.toml".toList, .tbl [])] := by
    intro x hx
    simp only [List.nil_append, List.mem_cons, List.not_mem_nil, or_false] at hx
    subst hx
    rfl
  obtain ⟨u1, u2, _⟩ := C100_unstated h h' rfl rfl hq hq' k1 k2 hs rfl
  exact ⟨look, look', c, c', s, s', e, e', s1, s1', h, h', hq, hq', u1 rfl, u2 rfl, C100_rustdocflags h h' rfl rfl hq hq',
    C100_rustflags h h' rfl rfl hq hq' k1 k2 hs⟩

/-- The flags before and after. -/
example : ([matchingSecond, addedDoc].map fun d =>
    (EConfig.loadWithOptions sampleProc sampleFs (fun s => matchingToml d s >>= Config.de) "/w/p".toList
      { cargoHome := some none }).toOption.bind fun r => (r.1.target sampleTriple sampleWorld r.2).1.toOption.bind fun e =>
        e.rustflags.map (·.flags)) = [some ["-a".toList], some ["-c".toList, "-a".toList]] := by
  decide +kernel

/-- The first case of `C100_rustflags` occurs too: flags of `[build]` are replaced by those of the new table. -/
example : ([[], [("target".toList, .tbl [("cfg(unix)".toList, .tbl [("rustflags".toList, .arr [.str "-a".toList])])])]].map fun l =>
    (EConfig.loadWithOptions sampleProc sampleFs (fun s => matchingToml
      (.tbl (("build".toList, .tbl [("rustflags".toList, .arr [.str "-d".toList])]) :: l)) s >>= Config.de) "/w/p".toList
      { cargoHome := some none }).toOption.bind fun r => (r.1.target sampleTriple sampleWorld r.2).1.toOption.bind fun e =>
        e.rustflags.map (·.flags)) = [some ["-d".toList], some ["-a".toList]] := by
  decide +kernel

end sample

end CC
