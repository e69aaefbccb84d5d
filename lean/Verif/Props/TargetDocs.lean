import Verif.Lemmas.TargetOutcome
/-
From the file system and the environment to the settings of a target: C63, C64.

The statements are about the first query after loading; what it returns is also what later queries return (C33).
-/
namespace CC

variable {p : ProcEnv} {fs : Fs} {toml : Str → Res Toml} {cwd : Path} {o : Options} {c : EConfig} {s s' : Cells}
  {look : Str → Option OsStr} {home : Option Path} {docs : List (Path × Toml)} {w : World} {t : TargetTriple} {e : ETarget}
  {ks : List Str}

/-- C63: for a query that succeeds, the tables `[target.'cfg(..)']` that apply are well defined, by the cfg set printed by the compiler
for this target. -/
theorem C63_tables (h : Loads p fs toml cwd o look home docs c s) (hq : c.target t w s = (.ok e, s')) :
    isCfgKey t.triple = false ∧
    (∃ ks, CfgTables w.checks docs (s'.cfg.get t.cliTarget) ks ∧
      ∀ ks', CfgTables w.checks docs (s'.cfg.get t.cliTarget) ks' → ks' = ks) ∧
    ∀ k, isCfgKey k = true → HasTable docs k →
      ∃ r cs, (c.rustc w s).1 = .ok r ∧ PrintedCfg w r t cs ∧ s'.cfg.get t.cliTarget = some cs := by
  have hf := C33_loaded h.loaded
  have hs : s.target.get t.cliTarget = none := by rw [hf.1]; rfl
  have hc : s.cfg.get t.cliTarget = none := by rw [hf.2]; rfl
  obtain ⟨hk, a, holds, -, h2, -⟩ := target_ok hs hq
  refine ⟨hk, ⟨_, cfgTables_matching h h2, fun ks' hks => cfgTables_unique hks (cfgTables_matching h h2)⟩, fun k hk hd => ?_⟩
  obtain ⟨v, hv⟩ := (loads_table h k).2 hd
  obtain ⟨r, n, text, ends, cs, h1, h2, h3, h4, h5⟩ := C27_asked hs hc hq hv hk
  refine ⟨r, cs, h1, ?_, h5⟩
  exact ⟨n, _, ends, h2, h3, h4⟩

/-- C63, the linker: `CARGO_TARGET_<TRIPLE>_LINKER`, else that of the nearest document with `target.<triple>.linker`, else likewise for
the keys `cfg(..)` that apply, in order. -/
theorem C63_linker (h : Loads p fs toml cwd o look home docs c s) (hq : c.target t w s = (.ok e, s'))
    (hk : CfgTables w.checks docs (s'.cfg.get t.cliTarget) ks) :
    OptionRel (fun x y => ∃ text, x.1 = .str text ∧ ProgramPath cwd ⟨text, some x.2⟩ y)
      (firstSome ((textOf look (targetEnvName t.triple "LINKER")).map
          (fun text => (Toml.str text, .environment (targetEnvName t.triple "LINKER"))) ::
        (t.triple :: ks).map fun k => (ScalarKey.targetLinker k).source look docs)) e.linker := by
  have hs : s.target.get t.cliTarget = none := by rw [(C33_loaded h.loaded).1]; rfl
  obtain ⟨holds, h1, h2⟩ := C27_linker hs hq
  obtain ⟨c1, c2⟩ := loads_cx h
  cases cfgTables_unique hk (cfgTables_matching h h1)
  unfold theLinker at h2
  rw [c1, envText_eq c2, matching_map (loads_sorted h)] at h2
  have key : ∀ (x : Option (Val Str)) (z : Option (Toml × Definition)) (y : Option Path),
      x.map (fun v => (Toml.str v.val, v.defn)) = z.map (fun z => (z.1, some z.2)) →
      OptionRel (ProgramPath cwd) x y →
      OptionRel (fun x y => ∃ text, x.1 = .str text ∧ ProgramPath cwd ⟨text, some x.2⟩ y) z y := by
    intro x z y hx hr
    cases hr with
    | none =>
      cases z with
      | none => exact .none
      | some z => cases hx
    | @some a b hr =>
      cases z with
      | none => cases hx
      | some z =>
        obtain ⟨u, d⟩ := z
        obtain ⟨v, d'⟩ := a
        simp only [Option.map_some, Option.some.injEq, Prod.mk.injEq] at hx
        obtain ⟨rfl, rfl⟩ := hx
        exact .some ⟨v, rfl, hr⟩
  refine key _ _ _ ?_ h2
  rw [firstSome_map, firstSome_map]
  congr 1
  simp only [List.map_cons, Option.map_map, List.map_map]
  refine congr (congrArg _ ?_) (congr (congrArg _ ?_) ?_)
  · rfl
  · exact (C57_target_tables h t.triple).1
  · exact List.map_congr_left fun k _ => (C57_target_tables h k).1

/-- C63, the runner: the words of `CARGO_TARGET_<TRIPLE>_RUNNER`, else that of `target.<triple>.runner` in the documents, else likewise
for the keys `cfg(..)` that apply, in order. -/
theorem C63_runner (h : Loads p fs toml cwd o look home docs c s) (hq : c.target t w s = (.ok e, s'))
    (hk : CfgTables w.checks docs (s'.cfg.get t.cliTarget) ks) :
    ∃ ys, ListRel (fun k y => ProgKey.Source look docs (.targetRunner k) y) (t.triple :: ks) ys ∧
      OptionRel (fun ws y => ∃ v args, ws = v :: args ∧ ProgramPath cwd v y.path ∧ y.args = args.map Val.val)
        (firstSome ((textOf look (targetEnvName t.triple "RUNNER")).map
            (fun text => (wordsIn text).map fun w => ⟨w, some (.environment (targetEnvName t.triple "RUNNER"))⟩) ::
          ys.map (Option.map Prod.snd))) e.runner := by
  have hs : s.target.get t.cliTarget = none := by rw [(C33_loaded h.loaded).1]; rfl
  obtain ⟨holds, h1, h2⟩ := C28_runner hs hq
  obtain ⟨c1, c2⟩ := loads_cx h
  cases cfgTables_unique hk (cfgTables_matching h h1)
  unfold theRunner at h2
  rw [c1, envText_eq c2, matching_map (loads_sorted h)] at h2
  refine ⟨_, listRel_map_of (fun k => (C57_target_tables h k).2.2.2) _, ?_⟩
  have e1 : ∀ k, Option.map Prod.snd (((BMap.get c.deTarget k).bind (·.runner)).map fun x => (x.repr, x.path :: x.args)) =
      (BMap.get c.deTarget k).bind (·.runner.map PathAndArgs.words) := by
    intro k
    cases BMap.get c.deTarget k with
    | none => rfl
    | some x =>
      simp only [Option.bind_some, Option.map_map]
      rfl
  simp only [List.map_cons, List.map_map, Function.comp_def, e1]
  exact h2

/-- C63, the rustflags: with `CARGO_ENCODED_RUSTFLAGS` or `RUSTFLAGS` those of `build.rustflags` (which prefers these variables);
otherwise those of `target.<triple>.rustflags`, of `CARGO_TARGET_<TRIPLE>_RUSTFLAGS` and of the keys `cfg(..)` that apply, joined in
this order; if there are none at all, those of `build.rustflags`. -/
theorem C63_rustflags (h : Loads p fs toml cwd o look home docs c s) (hq : c.target t w s = (.ok e, s'))
    (hk : CfgTables w.checks docs (s'.cfg.get t.cliTarget) ks) :
    ∃ build own ys, ListKey.Source look docs .buildRustflags build ∧ ListKey.Source look docs (.targetRustflags t.triple) own ∧
      ListRel (fun k y => ListKey.Source look docs (.targetRustflags k) y) ks ys ∧
      e.rustflags.map (·.flags) =
        if look "CARGO_ENCODED_RUSTFLAGS".toList ≠ none ∨ look "RUSTFLAGS".toList ≠ none then textsOf build
        else (joined (textsOf own :: (textOf look (targetEnvName t.triple "RUSTFLAGS")).map wordsIn :: ys.map textsOf)).or
          (textsOf build) := by
  have hs : s.target.get t.cliTarget = none := by rw [(C33_loaded h.loaded).1]; rfl
  obtain ⟨de, cx, raws, g1, g2, g3, g4, g5, g6, g7⟩ := loaded_unpack h.tables h.map h.loaded h.env h.home h.docs
  obtain ⟨l1, l2, l3, -⟩ := loaded_build g2 g4
  obtain ⟨holds, h1, h2⟩ := C29_rustflags g2 g4 hs hq
  rw [← l2] at h1 h2
  cases cfgTables_unique hk (cfgTables_matching h h1)
  obtain ⟨build, b1, b2⟩ := C57_lists h .buildRustflags _ rfl
  have b3 : buildRustflags cx.env de = textsOf build := by
    rw [← l3]
    unfold textsOf
    rw [← b2, loads_rustflags g4]
  refine ⟨build, _, _, b1, (C57_target_tables h t.triple).2.1, listRel_map_of (fun k => (C57_target_tables h k).2.1) _, ?_⟩
  rw [h2, b3, g3]
  unfold rustflagsSources
  rw [matching_map (loads_sorted h), envText_eq g3]
  have e1 : ∀ k, textsOf (((BMap.get c.deTarget k).bind (·.rustflags)).map fun l => (l.repr, l.flags)) =
      (BMap.get c.deTarget k).bind (·.rustflags.map Flags.texts) := by
    intro k
    cases BMap.get c.deTarget k with
    | none => rfl
    | some x =>
      simp only [textsOf, Option.bind_some, Option.map_map]
      rfl
  simp only [List.map_map, Function.comp_def, e1]

/-- C63, the rustdocflags: likewise, without the keys `cfg(..)`. -/
theorem C63_rustdocflags (h : Loads p fs toml cwd o look home docs c s) (hq : c.target t w s = (.ok e, s')) :
    ∃ build own, ListKey.Source look docs .buildRustdocflags build ∧ ListKey.Source look docs (.targetRustdocflags t.triple) own ∧
      e.rustdocflags.map (·.flags) =
        if look "CARGO_ENCODED_RUSTDOCFLAGS".toList ≠ none ∨ look "RUSTDOCFLAGS".toList ≠ none then textsOf build
        else (joined [textsOf own, (textOf look (targetEnvName t.triple "RUSTDOCFLAGS")).map wordsIn]).or (textsOf build) := by
  have hs : s.target.get t.cliTarget = none := by rw [(C33_loaded h.loaded).1]; rfl
  obtain ⟨de, cx, raws, g1, g2, g3, g4, g5, g6, g7⟩ := loaded_unpack h.tables h.map h.loaded h.env h.home h.docs
  obtain ⟨l1, l2, -, l3, -⟩ := loaded_build g2 g4
  have h2 := C30_rustdocflags g2 g4 hs hq
  rw [← l2] at h2
  obtain ⟨build, b1, b2⟩ := C57_lists h .buildRustdocflags _ rfl
  have b3 : buildRustdocflags cx.env de = textsOf build := by
    rw [← l3]
    unfold textsOf
    rw [← b2, loads_rustdocflags g4]
  refine ⟨build, _, b1, (C57_target_tables h t.triple).2.2.1, ?_⟩
  rw [h2, b3, g3]
  unfold rustdocflagsSources
  rw [envText_eq g3]
  have e1 : ∀ k, textsOf (((BMap.get c.deTarget k).bind (·.rustdocflags)).map fun l => (l.repr, l.flags)) =
      (BMap.get c.deTarget k).bind (·.rustdocflags.map Flags.texts) := by
    intro k
    cases BMap.get c.deTarget k with
    | none => rfl
    | some x =>
      simp only [textsOf, Option.bind_some, Option.map_map]
      rfl
  simp only [e1]

/-! ### C64 -/

theorem resolveTarget_start (hk : isCfgKey t.triple = false) {a : TargetAcc}
    (ha : (TargetAcc.start (c.deTarget.get t.triple)).applyEnv c.cx.env t.triple = .ok a) (o1 o2 : Bool) (b1 b2 : Option Flags) :
    resolveTarget c.cx c.deTarget o1 b1 o2 b2 t c.build w s =
      match cfgTables c.cx c.build t c.deTarget a w s with
      | (.ok a', s1) => (.ok (a'.finish o1 b1 o2 b2), s1)
      | (.err e, s1) => (.err e, s1)
      | (.panic, s1) => (.panic, s1) := by
  unfold resolveTarget
  rw [startsWith_cfg, hk, if_neg (by decide), Act.lift_bind, ha]
  dsimp only
  rw [Act.bind_def]
  cases cfgTables c.cx c.build t c.deTarget a w s with
  | mk r s1 => cases r <;> rfl

/-- What a first query does. -/
theorem target_outcome (h : Loads p fs toml cwd o look home docs c s)
    (hh : ∀ h, home = some h → Path.components h ≠ [] ∧ Path.components h ≠ [.root]) :
    ((c.target t w s).1 = .panic → ∃ k v, (k, v) ∈ c.deTarget ∧ isCfgKey k = true ∧ Expression.parse w.checks k = .panic) ∧
    ((∃ e, (c.target t w s).1 = .ok e) ↔ isCfgKey t.triple = false ∧
      (∃ a, (TargetAcc.start (c.deTarget.get t.triple)).applyEnv c.cx.env t.triple = .ok a) ∧
      (∀ k v, (k, v) ∈ c.deTarget → isCfgKey k = true → ∃ e, Expression.parse w.checks k = .ok e) ∧
      ((∃ k v, (k, v) ∈ c.deTarget ∧ isCfgKey k = true) → Answers c.cx c.build t w s)) := by
  have hf := C33_loaded h.loaded
  have hs : s.target.get t.cliTarget = none := by rw [hf.1]; rfl
  have hc : s.cfg.get t.cliTarget = none := by rw [hf.2]; rfl
  rw [target_fresh hs]
  cases hk : isCfgKey t.triple with
  | true =>
    have : ∀ o1 o2 b1 b2, ∃ y, resolveTarget c.cx c.deTarget o1 b1 o2 b2 t c.build w s = (.err y, s) := by
      intro o1 o2 b1 b2
      unfold resolveTarget
      rw [startsWith_cfg, hk, if_pos rfl]
      exact ⟨_, rfl⟩
    obtain ⟨y, hy⟩ := this c.build.overrideTargetRustflags c.build.overrideTargetRustdocflags c.build.deRustflags
      c.build.deRustdocflags
    rw [hy]
    exact ⟨(by intro h; cases h), fun ⟨_, h⟩ => (by cases h), fun h => (by cases h.1)⟩
  | false =>
    cases ha : (TargetAcc.start (c.deTarget.get t.triple)).applyEnv c.cx.env t.triple with
    | panic => exact absurd ha targetEnv_ne_panic
    | err x =>
      obtain ⟨y, hy⟩ := resolveTarget_env_err (o1 := c.build.overrideTargetRustflags) (o2 := c.build.overrideTargetRustdocflags)
        (b1 := c.build.deRustflags) (b2 := c.build.deRustdocflags) (b := c.build) (w := w) (s := s) ha
      rw [hy]
      exact ⟨(by intro h; cases h), fun ⟨_, h⟩ => (by cases h), fun ⟨_, ⟨_, h⟩, _⟩ => (by cases h)⟩
    | ok a =>
      rw [resolveTarget_start hk ha]
      obtain ⟨g1, g2⟩ := cfgTables_outcome (cx := c.cx) (b := c.build) (w := w) hc c.deTarget a
      have g3 := fun a' s1 (hx : cfgTables c.cx c.build t c.deTarget a w s = (.ok a', s1)) => cfgTables_ok hx
      simp only [true_and, Res.ok.injEq, exists_eq', g2.symm]
      generalize cfgTables c.cx c.build t c.deTarget a w s = x at *
      obtain ⟨r, s1⟩ := x
      cases r with
      | panic => exact ⟨fun _ => g1 rfl, fun ⟨_, h⟩ => (by cases h), fun ⟨_, h⟩ => (by cases h)⟩
      | err e => exact ⟨fun h => (by cases h), fun ⟨_, h⟩ => (by cases h), fun ⟨_, h⟩ => (by cases h)⟩
      | ok a' =>
        obtain ⟨holds, _, rfl⟩ := g3 _ _ rfl
        obtain ⟨r1, r2⟩ := acc_hasRoot h hh ha holds
        have : ∀ x : TargetConfig, x.linker = ((matching c.deTarget holds).foldl TargetAcc.addCfg a).linker →
            x.runner = ((matching c.deTarget holds).foldl TargetAcc.addCfg a).runner →
            ∃ e, ETarget.fromUnresolved c.cx.currentDir x = .ok e := by
          intro x hx1 hx2
          unfold ETarget.fromUnresolved
          rw [hx1, hx2]
          obtain ⟨y1, hy1⟩ := mapOpt_noPanic (f := fun v : Val Str => v.resolveAsProgramPath c.cx.currentDir)
            (fun v hv => resolveAsProgramPath_noPanic (r1 v hv) c.cx.currentDir)
          obtain ⟨y2, hy2⟩ := mapOpt_noPanic (f := EPathAndArgs.fromUnresolved c.cx.currentDir)
            (fun v hv => prog_noPanic (r2 v hv) c.cx.currentDir)
          rw [hy1, Res.ok_bind, hy2, Res.ok_bind]
          exact ⟨_, rfl⟩
        obtain ⟨e, he⟩ := this (Option.getD (TargetAcc.finish _ c.build.overrideTargetRustflags c.build.deRustflags
          c.build.overrideTargetRustdocflags c.build.deRustdocflags) {}) rfl rfl
        dsimp only
        rw [he]
        exact ⟨fun h => (by cases h), fun _ => ⟨_, rfl⟩, fun _ => ⟨_, rfl⟩⟩

theorem targetVars_iff {env : Env} (he : Env.get env = look) {a : TargetAcc} :
    (∃ a', a.applyEnv env t.triple = .ok a') ↔ TargetVars look t.triple := by
  rw [targetEnv_ok_iff, he]
  unfold TargetVars
  refine and_congr Iff.rfl (forall_congr' fun text => imp_congr Iff.rfl (not_congr ?_))
  rw [wordsIn_eq]
  exact split_nil_iff text

/-- C64: a first query for a target succeeds exactly if the target does not look like a cfg expression, its variables are text and the
runner's is not blank, all keys `cfg(..)` of the documents are accepted, and, if there is such a key, the compiler answers.  Missing:
`CARGO_HOME` must not be the root directory or the empty path (see C14). -/
theorem C64_succeeds_iff_partial (h : Loads p fs toml cwd o look home docs c s)
    (hh : ∀ h, home = some h → Path.components h ≠ [] ∧ Path.components h ≠ [.root]) :
    (∃ e, (c.target t w s).1 = .ok e) ↔ isCfgKey t.triple = false ∧ TargetVars look t.triple ∧
      (∀ k, isCfgKey k = true → HasTable docs k → ∃ e, Expression.parse w.checks k = .ok e) ∧
      ((∃ k, isCfgKey k = true ∧ HasTable docs k) → ∃ r s1 out, c.rustc w s = (.ok r, s1) ∧
        w.run s1.clock ⟨r.path, r.args ++ ["--print".toList, "cfg".toList, "--target".toList, t.cliTarget]⟩ =
          .succeeded (.unicode out)) := by
  rw [(target_outcome h hh).2, targetVars_iff (loads_cx h).2]
  refine and_congr Iff.rfl (and_congr Iff.rfl (and_congr ?_ (imp_congr ?_ Iff.rfl)))
  · constructor
    · intro hx k h1 h2
      obtain ⟨v, hv⟩ := (loads_table h k).2 h2
      exact hx k v hv h1
    · intro hx k v h1 h2
      exact hx k h2 ((loads_table h k).1 ⟨v, h1⟩)
  · constructor
    · rintro ⟨k, v, h1, h2⟩
      exact ⟨k, h2, (loads_table h k).1 ⟨v, h1⟩⟩
    · rintro ⟨k, h1, h2⟩
      obtain ⟨v, hv⟩ := (loads_table h k).2 h2
      exact ⟨k, v, hv, h1⟩

/-- C64: otherwise it gives an error; it panics only if the parser panics on a key `cfg(..)` (C37).  Missing: as above. -/
theorem C64_no_panic_partial (h : Loads p fs toml cwd o look home docs c s)
    (hh : ∀ h, home = some h → Path.components h ≠ [] ∧ Path.components h ≠ [.root]) (hp : (c.target t w s).1 = .panic) :
    ∃ k, isCfgKey k = true ∧ HasTable docs k ∧ Expression.parse w.checks k = .panic := by
  obtain ⟨k, v, h1, h2, h3⟩ := (target_outcome h hh).1 hp
  exact ⟨k, h2, (loads_table h k).1 ⟨v, h1⟩, h3⟩

/-- The missing case panics: with `CARGO_HOME=/` and `target.x-y.linker = "bin/ld"` in `/config`, loading succeeds but the query
panics. -/
theorem C64_home_fails : ((EConfig.loadWithOptions { vars := [(.unicode "CARGO_HOME".toList, .unicode "/".toList)] }
    (oneFile "/config".toList)
    (fun _ => Config.de (.tbl [("target".toList, .tbl [("x-y".toList, .tbl [("linker".toList, .str "bin/ld".toList)])])]))
    "/w".toList {}).toOption.map fun r => (r.1.target sampleTriple sampleWorld r.2).1.isPanic) = some true := by
  decide +kernel

/-! ### a sample -/

section sample

/-- The contents of `/w/p/.cargo/config` and `/w/.cargo/config.toml`. -/
def targetNearDoc : Toml := .tbl [("target".toList, .tbl [
    ("x-y".toList, .tbl [("rustflags".toList, .arr [.str "-Ca".toList])]),
    ("cfg(unix)".toList, .tbl [("linker".toList, .str "bin/ld".toList), ("rustflags".toList, .arr [.str "-Cb".toList])])])]

def targetFarDoc : Toml := .tbl [("target".toList, .tbl [
    ("x-y".toList, .tbl [("rustflags".toList, .arr [.str "-Cc".toList]), ("runner".toList, .str "qemu -x".toList)]),
    ("cfg(any(unix, windows))".toList, .tbl [("linker".toList, .str "cc".toList), ("rustflags".toList, .str "-Cd -Ce".toList)]),
    ("cfg(windows)".toList, .tbl [("rustflags".toList, .str "-Cf".toList)])])]

def targetToml (s : Str) : Res Toml :=
  if s = "near".toList then .ok targetNearDoc else if s = "far".toList then .ok targetFarDoc else .err (.toml [])

def targetProc : ProcEnv :=
  { vars := [(.unicode "CARGO_TARGET_X_Y_RUSTFLAGS".toList, .unicode "-Cg".toList)], home := none }

/-- Loading succeeds, and the query for `x-y`: the linker is from the first key in order that is true. -/
example : ((EConfig.loadWithOptions targetProc sampleFs (fun s => targetToml s >>= Config.de) "/w/p".toList {}).toOption.bind
      fun r => (r.1.target sampleTriple sampleWorld r.2).1.toOption) =
    some { linker := some "cc".toList, runner := some ⟨"qemu".toList, ["-x".toList]⟩,
           rustflags := some ⟨["-Cc".toList, "-Ca".toList, "-Cg".toList, "-Cd".toList, "-Ce".toList, "-Cb".toList]⟩,
           rustdocflags := none } := by decide +kernel

/-- The keys that apply. -/
example : Precedes "cfg(any(unix, windows))".toList "cfg(unix)".toList := by
  exact .inr ⟨"cfg(".toList, 'a', 'u', _, _, rfl, rfl, by decide⟩
example : KeyValue true ((CfgSet.parse "unix".toList).getD {}) "cfg(any(unix, windows))".toList true ∧
    KeyValue true ((CfgSet.parse "unix".toList).getD {}) "cfg(windows)".toList false :=
  ⟨⟨_, rfl, by decide +kernel⟩, ⟨_, rfl, by decide +kernel⟩⟩
example : HasTable [("/w/p/.cargo/config".toList, targetNearDoc)] "cfg(unix)".toList :=
  ⟨_, _, List.mem_cons_self, by decide⟩
example : TargetVars (fun n => if n = "CARGO_TARGET_X_Y_RUNNER".toList then some (.unicode "a".toList) else none) "x-y".toList := by
  refine ⟨fun key hk bs => ?_, fun text ht hb => ?_⟩
  · dsimp only; split <;> simp
  · dsimp only at ht
    split at ht
    · cases ht; exact absurd (hb 'a' (by simp)) (by decide)
    · cases ht

end sample

end CC
