import Verif.Lemmas.TargetQuery
import Verif.Lemmas.Lists
import Verif.Props.Resolve
/-
The target-specific settings: C27, C28, C29, C30, C31.
-/
namespace CC

variable {w : World} {s s' : Cells} {c : EConfig} {t : TargetTriple}

/-- A first query for a target: the loaded tables and the environment determine the answer. -/
theorem target_ok {e : ETarget} (hs : s.target.get t.cliTarget = none) (h : c.target t w s = (.ok e, s')) :
    isCfgKey t.triple = false ∧ ∃ a holds, (TargetAcc.start (c.deTarget.get t.triple)).applyEnv c.cx.env t.triple = .ok a ∧
      Evaluated w.checks c.deTarget (s'.cfg.get t.cliTarget) holds ∧
      ∃ r, ((matching c.deTarget holds).foldl TargetAcc.addCfg a).finish c.build.overrideTargetRustflags c.build.deRustflags
        c.build.overrideTargetRustdocflags c.build.deRustdocflags = some r ∧
      ETarget.fromUnresolved c.cx.currentDir r = .ok e := by
  unfold EConfig.target EConfig.targetEntry EConfig.initTarget at h
  rw [Act.bind_ok] at h
  obtain ⟨u, s1, h1, h2⟩ := h
  rw [Act.cells_bind, Act.lift_ok] at h2
  rw [Act.cells_bind, hs] at h1
  simp only [Act.bind_ok] at h1
  obtain ⟨r, s2, h1, e', s3, h3, h4⟩ := h1
  rw [Act.lift_ok] at h3
  obtain ⟨h3, rfl⟩ := h3
  rw [Act.modify_ok] at h4
  subst h4
  obtain ⟨h2, rfl⟩ := h2
  dsimp only at h2
  rw [BMap.get_insert, if_pos rfl] at h2
  cases h2
  obtain ⟨hk, a, a', h5, h6, rfl⟩ := resolveTarget_ok h1
  obtain ⟨holds, h7, rfl⟩ := cfgTables_ok h6
  exact ⟨hk, a, holds, h5, h7, _, rfl, h3⟩

/-! ### C27, C28 -/

/-- C27: the linker of a target is that of the environment, of the table of the triple, or of the first matching cfg table that has
one, in this order; it is resolved as a program. -/
theorem C27_linker {e : ETarget} (hs : s.target.get t.cliTarget = none) (h : c.target t w s = (.ok e, s')) :
    ∃ holds, Evaluated w.checks c.deTarget (s'.cfg.get t.cliTarget) holds ∧
      OptionRel (ProgramPath c.cx.currentDir) (theLinker c.cx.env c.deTarget holds t.triple) e.linker := by
  obtain ⟨-, a, holds, h1, h2, r, h3, h4⟩ := target_ok hs h
  refine ⟨holds, h2, ?_⟩
  have h5 := (C13_target h4).1
  cases h3
  have e1 : theLinker c.cx.env c.deTarget holds t.triple =
      ((matching c.deTarget holds).foldl TargetAcc.addCfg a).linker := by
    rw [fold_linker, (targetEnv_ok h1).1]
    exact firstSome_cons_cons _ _ _
  rw [e1]
  exact h5

/-- C28: the runner of a target is that of the environment, of the table of the triple, or of the first matching cfg table that has
one, in this order; its first word is resolved as a program. -/
theorem C28_runner {e : ETarget} (hs : s.target.get t.cliTarget = none) (h : c.target t w s = (.ok e, s')) :
    ∃ holds, Evaluated w.checks c.deTarget (s'.cfg.get t.cliTarget) holds ∧
      OptionRel (fun ws y => ∃ p args, ws = p :: args ∧ ProgramPath c.cx.currentDir p y.path ∧ y.args = args.map Val.val)
        (theRunner c.cx.env c.deTarget holds t.triple) e.runner := by
  obtain ⟨-, a, holds, h1, h2, r, h3, h4⟩ := target_ok hs h
  refine ⟨holds, h2, ?_⟩
  have h5 := (C13_target h4).2
  cases h3
  have e1 : theRunner c.cx.env c.deTarget holds t.triple =
      ((matching c.deTarget holds).foldl TargetAcc.addCfg a).runner.map PathAndArgs.words := by
    have hm : ∀ l : List (Option PathAndArgs), (firstSome l).map PathAndArgs.words =
        firstSome (l.map (·.map PathAndArgs.words)) := by
      intro l
      induction l with
      | nil => rfl
      | cons x l ih =>
        cases x with
        | none => exact ih
        | some y => rfl
    rw [fold_runner, hm, List.map_cons, (targetEnv_ok h1).2.1, List.map_map]
    have hb : ((TargetAcc.start (c.deTarget.get t.triple)).runner.map PathAndArgs.words) =
        (c.deTarget.get t.triple).bind (·.runner.map PathAndArgs.words) := by
      unfold TargetAcc.start
      cases BMap.get c.deTarget t.triple <;> rfl
    rw [hb]
    exact firstSome_cons_cons _ _ _
  rw [e1]
  dsimp only [TargetAcc.finish] at h5
  generalize ((matching c.deTarget holds).foldl TargetAcc.addCfg a).runner = x at h5
  generalize e.runner = y at h5
  cases h5 with
  | none => exact .none
  | some h => exact .some ⟨_, _, rfl, h⟩

/-- C28: a blank variable for the runner is an error, whatever the files say. -/
theorem C28_blank (hs : s.target.get t.cliTarget = none) (text : Str)
    (he : c.cx.env.get (targetEnvName t.triple "RUNNER") = some (.unicode text)) (hb : Blank text) :
    (c.target t w s).1.isErr = true := by
  have hw : wordsIn text = [] := by rw [wordsIn_eq]; exact (split_nil_iff text).2 hb
  have hbad : ∃ x, (TargetAcc.start (c.deTarget.get t.triple)).applyEnv c.cx.env t.triple = .err x := by
    refine Res.exists_err_of_not targetEnv_ne_panic fun a ha => ?_
    exact (targetEnv_ok_iff.1 ⟨a, ha⟩).2 text he hw
  obtain ⟨x, hx⟩ := hbad
  obtain ⟨y, hy⟩ := resolveTarget_env_err (targets := c.deTarget) (o1 := c.build.overrideTargetRustflags)
    (o2 := c.build.overrideTargetRustdocflags) (b1 := c.build.deRustflags) (b2 := c.build.deRustdocflags) (b := c.build)
    (w := w) (s := s) hx
  rw [target_fresh hs, hy]
  rfl

/-! ### C29, C30 -/

/-- `build.rustflags` after the environment was applied to the config `de` of the files. -/
def buildRustflags (env : Env) (de : Config) : Option (List Str) :=
  (ListKey.buildRustflags.withEnv env.get (ListKey.buildRustflags.get de)).map fun x => x.2.map Val.val

/-- `build.rustdocflags` after the environment was applied to the config `de` of the files. -/
def buildRustdocflags (env : Env) (de : Config) : Option (List Str) :=
  (ListKey.buildRustdocflags.withEnv env.get (ListKey.buildRustdocflags.get de)).map fun x => x.2.map Val.val

theorem flags_getD (o : Bool) (a b : Option Flags) : (chooseFlags o a b).map (fun f => (EFlags.fromUnresolved f).flags) =
    if o = true then b.map Flags.texts else (a.map Flags.texts).or (b.map Flags.texts) := by
  cases o <;> cases a <;> cases b <;> rfl

theorem loaded_build {de : Config} {cx : Ctx} (hd : DistinctKeys cx.env) (hl : EConfig.fromUnresolved de cx = .ok c) :
    c.cx = cx ∧ c.deTarget = de.target ∧ c.build.deRustflags.map Flags.texts = buildRustflags cx.env de ∧
    c.build.deRustdocflags.map Flags.texts = buildRustdocflags cx.env de ∧
    (c.build.overrideTargetRustflags = true ↔
      cx.env.get "CARGO_ENCODED_RUSTFLAGS".toList ≠ none ∨ cx.env.get "RUSTFLAGS".toList ≠ none) ∧
    (c.build.overrideTargetRustdocflags = true ↔
      cx.env.get "CARGO_ENCODED_RUSTDOCFLAGS".toList ≠ none ∨ cx.env.get "RUSTDOCFLAGS".toList ≠ none) := by
  simp only [EConfig.fromUnresolved, EBuild.fromUnresolved, EDoc.fromUnresolved, Res.bind_eq_ok, Res.pure_eq] at hl
  obtain ⟨de', h0, b, ⟨x1, h1, x2, h2, x3, h3, x4, h4, x5, h5, x6, h6, x7, h7, e1⟩, d, ⟨x8, h8, e2⟩, en, h9, e3⟩ := hl
  cases e1
  cases e2
  cases e3
  have hs := C22_suppressed h0
  refine ⟨rfl, (C25_local h0).2, ?_, ?_, hs.1, hs.2⟩
  · unfold buildRustflags
    rw [← C20_list hd h0 .buildRustflags]
    simp only [ListKey.get]
    cases de'.build.rustflags <;> rfl
  · unfold buildRustdocflags
    rw [← C20_list hd h0 .buildRustdocflags]
    simp only [ListKey.get]
    cases de'.build.rustdocflags <;> rfl

/-- C29: the rustflags of a target.  With CARGO_ENCODED_RUSTFLAGS or RUSTFLAGS they are those of the environment, which
`buildRustflags` prefers (see `C29_env`); otherwise all sources for the target are joined; without any, build.rustflags applies. -/
theorem C29_rustflags {de : Config} {cx : Ctx} (hd : DistinctKeys cx.env) (hl : EConfig.fromUnresolved de cx = .ok c)
    {e : ETarget} (hs : s.target.get t.cliTarget = none) (h : c.target t w s = (.ok e, s')) :
    ∃ holds, Evaluated w.checks de.target (s'.cfg.get t.cliTarget) holds ∧
      e.rustflags.map (·.flags) =
        if cx.env.get "CARGO_ENCODED_RUSTFLAGS".toList ≠ none ∨ cx.env.get "RUSTFLAGS".toList ≠ none then buildRustflags cx.env de
        else (joined (rustflagsSources cx.env de.target holds t.triple)).or (buildRustflags cx.env de) := by
  obtain ⟨l1, l2, l3, -, l4, -⟩ := loaded_build hd hl
  obtain ⟨-, a, holds, h1, h2, r, h3, h4⟩ := target_ok hs h
  rw [l1, l2] at h1
  rw [l2] at h2 h3
  refine ⟨holds, h2, ?_⟩
  cases h3
  simp only [ETarget.fromUnresolved, Res.bind_eq_ok, Res.pure_eq] at h4
  obtain ⟨x1, -, x2, -, e1⟩ := h4
  cases e1
  rw [Option.map_map, Function.comp_def]
  have hj : (((matching de.target holds).foldl TargetAcc.addCfg a).rustflags.map Flags.texts) =
      joined (rustflagsSources cx.env de.target holds t.triple) := by
    rw [fold_rustflags, (targetEnv_ok h1).2.2.1]
    have hb : ((TargetAcc.start (de.target.get t.triple)).rustflags.map Flags.texts) =
        (de.target.get t.triple).bind (·.rustflags.map Flags.texts) := by
      unfold TargetAcc.start
      cases BMap.get de.target t.triple <;> rfl
    rw [hb]
    exact (joined_cons_cons _ _ _).symm
  rw [← l3, ← hj]
  refine (flags_getD _ _ _).trans ?_
  simp only [l4]

/-- C29: the two variables in plain words. -/
theorem C29_env {de : Config} {cx : Ctx} (hd : DistinctKeys cx.env) (hl : EConfig.fromUnresolved de cx = .ok c)
    {e : ETarget} (hs : s.target.get t.cliTarget = none) (h : c.target t w s = (.ok e, s')) (text : Str) :
    (cx.env.get "CARGO_ENCODED_RUSTFLAGS".toList = some (.unicode text) →
      e.rustflags.map (·.flags) = some (piecesAt (Char.ofNat 0x1f) text)) ∧
    (cx.env.get "CARGO_ENCODED_RUSTFLAGS".toList = none → cx.env.get "RUSTFLAGS".toList = some (.unicode text) →
      e.rustflags.map (·.flags) = some (wordsIn text)) := by
  obtain ⟨holds, -, h1⟩ := C29_rustflags hd hl hs h
  constructor
  · intro he
    rw [h1, if_pos (Or.inl (by rw [he]; simp))]
    simp only [buildRustflags, ListKey.withEnv, ListKey.sources, asEncoded, readEnv, he, listFromVar, Option.map_some, List.map_map, Function.comp_def, List.map_id']
  · intro he hf
    rw [h1, if_pos (Or.inr (by rw [hf]; simp))]
    simp only [buildRustflags, ListKey.withEnv, ListKey.sources, asEncoded, asWords, readEnv, he, hf, listFromVar, Option.map_some, List.map_map, Function.comp_def, List.map_id']

/-- C30: the rustdocflags of a target; the cfg tables contribute nothing. -/
theorem C30_rustdocflags {de : Config} {cx : Ctx} (hd : DistinctKeys cx.env) (hl : EConfig.fromUnresolved de cx = .ok c)
    {e : ETarget} (hs : s.target.get t.cliTarget = none) (h : c.target t w s = (.ok e, s')) :
    e.rustdocflags.map (·.flags) =
      if cx.env.get "CARGO_ENCODED_RUSTDOCFLAGS".toList ≠ none ∨ cx.env.get "RUSTDOCFLAGS".toList ≠ none then
        buildRustdocflags cx.env de
      else (joined (rustdocflagsSources cx.env de.target t.triple)).or (buildRustdocflags cx.env de) := by
  obtain ⟨l1, l2, -, l3, -, l4⟩ := loaded_build hd hl
  obtain ⟨-, a, holds, h1, h2, r, h3, h4⟩ := target_ok hs h
  rw [l1, l2] at h1
  rw [l2] at h2 h3
  cases h3
  simp only [ETarget.fromUnresolved, Res.bind_eq_ok, Res.pure_eq] at h4
  obtain ⟨x1, -, x2, -, e1⟩ := h4
  cases e1
  rw [Option.map_map, Function.comp_def]
  have hj : (((matching de.target holds).foldl TargetAcc.addCfg a).rustdocflags.map Flags.texts) =
      joined (rustdocflagsSources cx.env de.target t.triple) := by
    rw [fold_rustdocflags, (targetEnv_ok h1).2.2.2]
    have hb : ((TargetAcc.start (de.target.get t.triple)).rustdocflags.map Flags.texts) =
        (de.target.get t.triple).bind (·.rustdocflags.map Flags.texts) := by
      unfold TargetAcc.start
      cases BMap.get de.target t.triple <;> rfl
    rw [hb]
    rfl
  rw [← l3, ← hj]
  refine (flags_getD _ _ _).trans ?_
  simp only [l4]

/-- C30: the two variables in plain words. -/
theorem C30_env {de : Config} {cx : Ctx} (hd : DistinctKeys cx.env) (hl : EConfig.fromUnresolved de cx = .ok c)
    {e : ETarget} (hs : s.target.get t.cliTarget = none) (h : c.target t w s = (.ok e, s')) (text : Str) :
    (cx.env.get "CARGO_ENCODED_RUSTDOCFLAGS".toList = some (.unicode text) →
      e.rustdocflags.map (·.flags) = some (piecesAt (Char.ofNat 0x1f) text)) ∧
    (cx.env.get "CARGO_ENCODED_RUSTDOCFLAGS".toList = none → cx.env.get "RUSTDOCFLAGS".toList = some (.unicode text) →
      e.rustdocflags.map (·.flags) = some (wordsIn text)) := by
  have h1 := C30_rustdocflags hd hl hs h
  constructor
  · intro he
    rw [h1, if_pos (Or.inl (by rw [he]; simp))]
    simp only [buildRustdocflags, ListKey.withEnv, ListKey.sources, asEncoded, readEnv, he, listFromVar, Option.map_some, List.map_map, Function.comp_def, List.map_id']
  · intro he hf
    rw [h1, if_pos (Or.inr (by rw [hf]; simp))]
    simp only [buildRustdocflags, ListKey.withEnv, ListKey.sources, asEncoded, asWords, readEnv, he, hf, listFromVar, Option.map_some, List.map_map, Function.comp_def, List.map_id']

/-- The truth value of a well-formed key: that of the formula it spells, on the flags and pairs printed by the compiler (C40). -/
theorem C27_matching (checks : Bool) (cs : CfgSet) (k : Str) (tree : CfgTree) (h : IsCfg k tree) (hn : tree.AllFns Narrow) (b : Bool) :
    KeyValue checks cs k b ↔ tree.value cs.holds = b := by
  constructor
  · rintro ⟨e, he, hv⟩
    rw [C36_value checks k tree e h hn he] at hv
    exact Option.some.inj hv
  · intro hv
    obtain ⟨e, he⟩ := C35_accepts checks k tree h fun _ => hn
    exact ⟨e, he, by rw [C36_value checks k tree e h hn he, hv]⟩

/-- The cfg set on which the keys are evaluated is the one printed by the compiler for `--target <target>`. -/
theorem C27_asked {e : ETarget} (hs : s.target.get t.cliTarget = none) (hc : s.cfg.get t.cliTarget = none)
    (h : c.target t w s = (.ok e, s')) {k : Str} {v : TargetConfig} (hk : (k, v) ∈ c.deTarget) (hk' : isCfgKey k = true) :
    ∃ r n text ends cs, (c.rustc w s).1 = .ok r ∧
      w.run n ⟨r.path, r.args ++ ["--print".toList, "cfg".toList, "--target".toList, t.cliTarget]⟩ =
        .succeeded (.unicode (text ++ ends)) ∧ (∀ c ∈ ends, c = '\n' ∨ c = '\r') ∧ CfgSet.parse text = some cs ∧ s'.cfg.get t.cliTarget = some cs := by
  have h' := h
  rw [target_fresh hs] at h'
  generalize hx : resolveTarget c.cx c.deTarget c.build.overrideTargetRustflags c.build.deRustflags
    c.build.overrideTargetRustdocflags c.build.deRustdocflags t c.build w s = x at h'
  obtain ⟨r, s1⟩ := x
  cases r with
  | err e => cases h'
  | panic => cases h'
  | ok r =>
    have hs' : s'.cfg = s1.cfg := by
      dsimp only at h'
      generalize ETarget.fromUnresolved c.cx.currentDir (r.getD {}) = y at h'
      cases y with
      | err e => cases h'
      | panic => cases h'
      | ok y => rw [← (Prod.mk.inj h').2]
    obtain ⟨-, a, a', -, h2, -⟩ := resolveTarget_ok hx
    rw [cfgTables_eq] at h2
    cases hf : firstCfgKey c.deTarget with
    | none => rw [firstCfgKey_none hf k v hk] at hk'; cases hk'
    | some k1 =>
      rw [hf] at h2
      dsimp only at h2
      generalize Expression.parse w.checks k1 = y at h2
      cases y with
      | err e => cases h2
      | panic => cases h2
      | ok y =>
        dsimp only at h2
        obtain ⟨r, n, h4, h5⟩ := cfgOf_fresh (cx := c.cx) (b := c.build) (w := w) hc
        rw [h5] at h2
        generalize hz : cfgAnswer (cfgCmd r t.cliTarget) (w.run n (cfgCmd r t.cliTarget)) = z at h2
        cases z with
        | err e => cases h2
        | panic => cases h2
        | ok cs =>
          dsimp only at h2
          unfold cfgAnswer at hz
          rw [Res.bind_eq_ok] at hz
          obtain ⟨text, h6, h7⟩ := hz
          obtain ⟨ends, h8, h9⟩ := procRead_text h6
          refine ⟨r, n, text, ends, cs, ?_, h8, h9, ?_, ?_⟩
          · show (queryRustc c.cx c.build w s).1 = .ok r
            rw [h4]
          · cases hp : CfgSet.parse text with
            | none => rw [hp] at h7; cases h7
            | some x => rw [hp] at h7; cases h7; rfl
          · rw [hs', ← (Prod.mk.inj h2).2]
            dsimp only
            rw [BMap.get_insert, if_pos rfl]

/-! ### A sample -/

/-- A file with a table for a target and two cfg tables, of which the first matches. -/
def sampleTables : BMap TargetConfig :=
  [("cfg(unix)".toList,
      { linker := some ⟨"cc".toList, none⟩, runner := some ⟨⟨"qemu".toList, none⟩, [⟨"-x".toList, none⟩], .string⟩,
        rustflags := some ⟨[⟨"-Ca".toList, none⟩], .string⟩ }),
   ("cfg(windows)".toList, { rustflags := some ⟨[⟨"-Cb".toList, none⟩], .string⟩ }),
   ("x-y".toList, { linker := some ⟨"bin/ld".toList, some (.path "/w/.cargo/config".toList)⟩,
                    rustflags := some ⟨[⟨"-Cc".toList, none⟩], .string⟩,
                    rustdocflags := some ⟨[⟨"-Cd".toList, none⟩], .string⟩ })]

/-- The environment adds flags for the target. -/
def sampleTargetEnv : Env :=
  [("CARGO_TARGET_X_Y_RUSTFLAGS".toList, .unicode "-Ce -Cf".toList)]

def sampleCtx : Ctx := { env := sampleTargetEnv, cargo := .unicode "cargo".toList, currentDir := "/w/x".toList }

/-- The resolved config. -/
def sampleEasy : EConfig := { deTarget := sampleTables, cx := sampleCtx }

/-- A Unix compiler. -/
def sampleWorld : World :=
  { checks := true
    run := fun _ _ => .succeeded (.unicode "unix\ntarget_os=\"linux\"\n".toList)
    exist := fun _ _ => false }

def sampleTriple : TargetTriple := ⟨"x-y".toList, none⟩

/-- The sample is the result of resolving the loaded config with these tables. -/
example : (EConfig.fromUnresolved { target := sampleTables } sampleCtx).toOption = some sampleEasy := by decide +kernel

/-- All of `C27_linker`, `C28_runner`, `C29_rustflags`, `C30_rustdocflags`, `C27_asked` apply to the sample. -/
theorem sampleEasy_target : (sampleEasy.target sampleTriple sampleWorld {}).1.toOption =
    some { linker := some "/w/bin/ld".toList, runner := some ⟨"qemu".toList, ["-x".toList]⟩,
           rustflags := some ⟨["-Cc".toList, "-Ce".toList, "-Cf".toList, "-Ca".toList]⟩,
           rustdocflags := some ⟨["-Cd".toList]⟩ } := by decide +kernel

example : (sampleEasy.target sampleTriple sampleWorld {}).2.trace =
    [⟨"rustc".toList, ["--print".toList, "cfg".toList, "--target".toList, "x-y".toList]⟩] := by decide +kernel
example : DistinctKeys sampleTargetEnv := by unfold sampleTargetEnv; decide +kernel

/-- With RUSTFLAGS only they apply. -/
example : ((EConfig.fromUnresolved { target := sampleTables }
      { sampleCtx with env := ("RUSTFLAGS".toList, .unicode "-Cz".toList) :: sampleTargetEnv }).toOption.bind fun c =>
    (c.target sampleTriple sampleWorld {}).1.toOption.bind fun e => e.rustflags) = some ⟨["-Cz".toList]⟩ := by decide +kernel

/-- A blank runner variable. -/
example : ({ sampleEasy with cx := { sampleCtx with env := [("CARGO_TARGET_X_Y_RUNNER".toList, .unicode " ".toList)] } }.target
    sampleTriple sampleWorld {}).1.isErr = true := by decide +kernel

end CC
