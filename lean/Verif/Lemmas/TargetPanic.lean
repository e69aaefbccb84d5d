import Verif.Spec.TargetOutcome
import Verif.Lemmas.QueryCause
import Verif.Props.TargetDocs
/-
Lemmas for C70: exactly when the query for a target succeeds and panics.
-/
namespace CC

variable {cx : Ctx} {b : EBuild} {t : TargetTriple} {w : World} {s s' : Cells}

/-! ### the loop over the keys -/

/-- An outcome that is not a success: an error or a panic. -/
def stopped {α : Type} : Option Err → Res α
  | none => .panic
  | some e => .err e

theorem stopped_ne_ok {α : Type} {x : Option Err} {a : α} : (stopped x : Res α) ≠ .ok a := by
  cases x <;> intro h <;> cases h

theorem stopped_inj {α : Type} {x y : Option Err} (h : (stopped x : Res α) = stopped y) : x = y := by
  cases x <;> cases y <;> cases h <;> rfl

theorem Res.ok_or_stopped {α : Type} (r : Res α) : (∃ a, r = .ok a) ∨ ∃ x, r = stopped x := by
  cases r with
  | ok a => exact .inl ⟨a, rfl⟩
  | err e => exact .inr ⟨some e, rfl⟩
  | panic => exact .inr ⟨none, rfl⟩

/-- A key on which the parser stops with `x`, after keys that are accepted. -/
def StopsAt (checks : Bool) (m pre : BMap TargetConfig) (x : Option Err) : Prop :=
  ∃ k v post, m = pre ++ (k, v) :: post ∧ isCfgKey k = true ∧ Expression.parse checks k = stopped x ∧
    ∀ y ∈ pre, isCfgKey y.1 = true → ∃ e, Expression.parse checks y.1 = .ok e

theorem stopsAt_cons_iff {checks : Bool} {y : Str × TargetConfig} {m : BMap TargetConfig} {x : Option Err}
    (hy : isCfgKey y.1 = true → ∃ e, Expression.parse checks y.1 = .ok e) :
    (∃ pre, StopsAt checks (y :: m) pre x) ↔ ∃ pre, StopsAt checks m pre x := by
  constructor
  · rintro ⟨pre, k, v, post, h1, h2, h3, h4⟩
    cases pre with
    | nil =>
      cases h1
      obtain ⟨e, he⟩ := hy h2
      exact absurd (h3.symm.trans he) stopped_ne_ok
    | cons z pre =>
      cases h1
      exact ⟨pre, k, v, post, rfl, h2, h3, fun z hz => h4 z (List.mem_cons_of_mem _ hz)⟩
  · rintro ⟨pre, k, v, post, h1, h2, h3, h4⟩
    refine ⟨y :: pre, k, v, post, by rw [h1]; rfl, h2, h3, fun z hz hk => ?_⟩
    rcases List.mem_cons.1 hz with rfl | hz
    · exact hy hk
    · exact h4 z hz hk

theorem evalTables_stop_iff {checks : Bool} {c : CfgSet} {m : BMap TargetConfig} {a : TargetAcc} {x : Option Err} :
    evalTables checks c m a = stopped x ↔ ∃ pre, StopsAt checks m pre x := by
  induction m generalizing a with
  | nil =>
    constructor
    · intro h; exact absurd h.symm stopped_ne_ok
    · rintro ⟨pre, k, v, post, h, _⟩
      cases pre <;> cases h
  | cons y m ih =>
    obtain ⟨k, v⟩ := y
    unfold evalTables
    split
    · rename_i hk
      rw [ih, stopsAt_cons_iff (fun h => by rw [hk] at h; cases h)]
    · rename_i hk
      have hk : isCfgKey k = true := by simpa using hk
      have key : ∀ z : Option Err, Expression.parse checks k = stopped z →
          ((stopped z : Res TargetAcc) = stopped x ↔ ∃ pre, StopsAt checks ((k, v) :: m) pre x) := by
        intro z hz
        constructor
        · intro h
          cases stopped_inj h
          exact ⟨[], k, v, m, rfl, hk, hz, fun _ h => by cases h⟩
        · rintro ⟨pre, k', v', post, h1, h2, h3, h4⟩
          cases pre with
          | nil => cases h1; rw [stopped_inj (hz.symm.trans h3)]
          | cons y pre =>
            cases h1
            obtain ⟨e', he⟩ := h4 _ List.mem_cons_self hk
            exact absurd (hz.symm.trans he) stopped_ne_ok
      cases hp : Expression.parse checks k with
      | ok e => dsimp only; rw [ih, stopsAt_cons_iff (fun _ => ⟨e, hp⟩)]
      | err e => exact key (some e) hp
      | panic => exact key none hp

/-- The question to the compiler fails with `x`. -/
def Unanswered (cx : Ctx) (b : EBuild) (t : TargetTriple) (w : World) (s : Cells) (e : Err) : Prop :=
  ∃ r s1, queryRustc cx b w s = (.ok r, s1) ∧ procRead (cfgCmd r t.cliTarget) (w.run s1.clock (cfgCmd r t.cliTarget)) = .err e

/-- The loop stops: at a key that is not accepted, or, after the first key, with the compiler. -/
theorem cfgTables_stop_iff (hc : s.cfg.get t.cliTarget = none) (m : BMap TargetConfig) (a : TargetAcc) (x : Option Err) :
    (cfgTables cx b t m a w s).1 = stopped x ↔
      (∃ pre, StopsAt w.checks m pre x ∧ ((∃ y ∈ pre, isCfgKey y.1 = true) → Answers cx b t w s)) ∨
      (∃ pre k v post e, m = pre ++ (k, v) :: post ∧ (∀ y ∈ pre, isCfgKey y.1 = false) ∧ isCfgKey k = true ∧
        Expression.parse w.checks k = .ok e ∧ ∃ er, x = some er ∧ Unanswered cx b t w s er) := by
  rw [cfgTables_eq]
  cases hf : firstCfgKey m with
  | none =>
    dsimp only
    have hn := firstCfgKey_none hf
    constructor
    · intro h; exact absurd h.symm stopped_ne_ok
    · rintro (⟨pre, ⟨k, v, post, h1, h2, _⟩, _⟩ | ⟨pre, k, v, post, e, h1, _, h2, _⟩)
      · rw [hn k v (by rw [h1]; simp)] at h2; cases h2
      · rw [hn k v (by rw [h1]; simp)] at h2; cases h2
  | some k1 =>
    -- the first key splits the table
    have hsplit : ∃ pre v post, m = pre ++ (k1, v) :: post ∧ isCfgKey k1 = true ∧ ∀ y ∈ pre, isCfgKey y.1 = false := by
      unfold firstCfgKey at hf
      cases hfind : m.find? fun e => isCfgKey e.1 with
      | none => rw [hfind] at hf; cases hf
      | some y =>
        rw [hfind] at hf
        cases hf
        rw [List.find?_eq_some_iff_append] at hfind
        obtain ⟨h1, pre, post, h2, h3⟩ := hfind
        exact ⟨pre, y.2, post, h2, h1, fun y hy => by simpa using h3 y hy⟩
    obtain ⟨pre1, v1, post1, hm, hk1, hpre1⟩ := hsplit
    dsimp only
    -- where another key is
    have place : ∀ {pre : BMap TargetConfig} {k v post}, m = pre ++ (k, v) :: post → isCfgKey k = true →
        (pre = pre1 ∧ k = k1) ∨ (k1, v1) ∈ pre := by
      intro pre k v post h1 h2
      rw [hm] at h1
      rcases List.append_eq_append_iff.1 h1 with ⟨as, h5, h6⟩ | ⟨bs, h5, h6⟩
      · cases as with
        | nil => cases h6; exact .inl ⟨by simpa using h5, rfl⟩
        | cons y as => cases h6; exact .inr (by rw [h5]; simp)
      · cases bs with
        | nil => cases h6; exact .inl ⟨by simpa using h5.symm, rfl⟩
        | cons y bs =>
          cases h6
          have := hpre1 (k, v) (by rw [h5]; simp)
          rw [h2] at this; cases this
    have bad : ∀ z : Option Err, Expression.parse w.checks k1 = stopped z →
        ((stopped z : Res TargetAcc) = stopped x ↔
          (∃ pre, StopsAt w.checks m pre x ∧ ((∃ y ∈ pre, isCfgKey y.1 = true) → Answers cx b t w s)) ∨
          (∃ pre k v post e, m = pre ++ (k, v) :: post ∧ (∀ y ∈ pre, isCfgKey y.1 = false) ∧ isCfgKey k = true ∧
            Expression.parse w.checks k = .ok e ∧ ∃ er, x = some er ∧ Unanswered cx b t w s er)) := by
      intro z hz
      constructor
      · intro h
        cases stopped_inj h
        refine .inl ⟨pre1, ⟨k1, v1, post1, hm, hk1, hz, fun y hy hk => ?_⟩, ?_⟩
        · rw [hpre1 y hy] at hk; cases hk
        · rintro ⟨y, hy, hk⟩
          rw [hpre1 y hy] at hk; cases hk
      · rintro (⟨pre, ⟨k, v, post, h1, h2, h3, h4⟩, _⟩ | ⟨pre, k, v, post, e, h1, h2, h3, h4, _⟩)
        · rcases place h1 h2 with ⟨_, rfl⟩ | h5
          · rw [stopped_inj (hz.symm.trans h3)]
          · obtain ⟨e, he⟩ := h4 _ h5 hk1
            exact absurd (hz.symm.trans he) stopped_ne_ok
        · rcases place h1 h3 with ⟨_, rfl⟩ | h5
          · exact absurd (hz.symm.trans h4) stopped_ne_ok
          · have := h2 _ h5
            rw [hk1] at this; cases this
    cases hp : Expression.parse w.checks k1 with
    | err e => exact bad (some e) hp
    | panic => exact bad none hp
    | ok e =>
      dsimp only
      obtain ⟨r, n, h1, h2⟩ := cfgOf_fresh (cx := cx) (b := b) (w := w) hc
      rw [h2]
      have hans : Answers cx b t w s ↔ ∃ out, w.run n (cfgCmd r t.cliTarget) = .succeeded (.unicode out) := by
        unfold Answers
        rw [h1]
        constructor
        · rintro ⟨r', s1, out, e, h⟩
          cases e
          exact ⟨out, h⟩
        · rintro ⟨out, h⟩
          exact ⟨_, _, out, rfl, h⟩
      have hun : ∀ er, Unanswered cx b t w s er ↔ procRead (cfgCmd r t.cliTarget) (w.run n (cfgCmd r t.cliTarget)) = .err er := by
        intro er
        unfold Unanswered
        rw [h1]
        constructor
        · rintro ⟨r', s1, e, h⟩
          cases e
          exact h
        · intro h
          exact ⟨_, _, rfl, h⟩
      -- only reached after `k1`
      have later : ∀ {pre : BMap TargetConfig}, StopsAt w.checks m pre x → ∃ y ∈ pre, isCfgKey y.1 = true := by
        rintro pre ⟨k, v, post, h1, h2, h3, h4⟩
        rcases place h1 h2 with ⟨_, rfl⟩ | h5
        · exact absurd (h3.symm.trans hp) stopped_ne_ok
        · exact ⟨_, h5, hk1⟩
      rcases procRead_cases (cfgCmd r t.cliTarget) (w.run n (cfgCmd r t.cliTarget)) with ⟨out, ho⟩ | ⟨⟨er, he⟩, hn⟩
      · obtain ⟨c, hcs⟩ : ∃ c, cfgAnswer (cfgCmd r t.cliTarget) (w.run n (cfgCmd r t.cliTarget)) = .ok c := by
          rw [(cfgAnswer_outcome _ _).2]; exact ⟨out, ho⟩
        rw [hcs]
        dsimp only
        rw [evalTables_stop_iff]
        constructor
        · rintro ⟨pre, h⟩
          exact .inl ⟨pre, h, fun _ => hans.2 ⟨out, ho⟩⟩
        · rintro (⟨pre, h, _⟩ | ⟨_, _, _, _, _, _, _, _, _, er, _, h⟩)
          · exact ⟨pre, h⟩
          · rw [hun, ho, procRead_unicode] at h
            cases h
      · have hcs : cfgAnswer (cfgCmd r t.cliTarget) (w.run n (cfgCmd r t.cliTarget)) = .err er := by
          unfold cfgAnswer; rw [he]; rfl
        rw [hcs]
        dsimp only
        constructor
        · intro h
          cases stopped_inj (x := some er) h
          exact .inr ⟨pre1, k1, v1, post1, e, hm, hpre1, hk1, hp, er, rfl, (hun er).2 he⟩
        · rintro (⟨pre, h, h3⟩ | ⟨_, _, _, _, _, _, _, _, _, er', rfl, h⟩)
          · obtain ⟨out, ho⟩ := hans.1 (h3 (later h))
            exact absurd ho (hn out)
          · rw [hun, he] at h
            cases h
            rfl

/-! ### the programs found -/

variable {p : ProcEnv} {fs : Fs} {toml : Str → Res Toml} {cwd : Path} {o : Options} {c : EConfig}
  {look : Str → Option OsStr} {home : Option Path} {docs : List (Path × Toml)} {ks : List Str}

theorem acc_linker {a : TargetAcc} (ha : (TargetAcc.start (c.deTarget.get t.triple)).applyEnv c.cx.env t.triple = .ok a)
    (holds : Str → Bool) :
    ((matching c.deTarget holds).foldl TargetAcc.addCfg a).linker = theLinker c.cx.env c.deTarget holds t.triple := by
  rw [fold_linker, (targetEnv_ok ha).1]
  exact (firstSome_cons_cons _ _ _).symm

theorem acc_runner {a : TargetAcc} (ha : (TargetAcc.start (c.deTarget.get t.triple)).applyEnv c.cx.env t.triple = .ok a)
    (holds : Str → Bool) :
    ((matching c.deTarget holds).foldl TargetAcc.addCfg a).runner.map PathAndArgs.words =
      theRunner c.cx.env c.deTarget holds t.triple := by
  rw [fold_runner, firstSome_map, List.map_cons, (targetEnv_ok ha).2.1, List.map_map]
  have hb : ((TargetAcc.start (c.deTarget.get t.triple)).runner.map PathAndArgs.words) =
      (c.deTarget.get t.triple).bind (·.runner.map PathAndArgs.words) := by
    unfold TargetAcc.start
    cases BMap.get c.deTarget t.triple <;> rfl
  rw [hb]
  exact (firstSome_cons_cons _ _ _).symm

theorem listRel_unique {α β : Type} {R : α → β → Prop} (hR : ∀ a b b', R a b → R a b' → b = b') {l : List α} {m m' : List β}
    (h : ListRel R l m) (h' : ListRel R l m') : m = m' := by
  induction h generalizing m' with
  | nil => cases h'; rfl
  | cons h1 _ ih =>
    cases h' with
    | cons h2 h3 => rw [hR _ _ _ h1 h2, ih h3]

/-- The programs found can be resolved exactly if they can be located. -/
theorem programs_placed (h : Loads p fs toml cwd o look home docs c s) {a : TargetAcc}
    (ha : (TargetAcc.start (c.deTarget.get t.triple)).applyEnv c.cx.env t.triple = .ok a) {checks : Bool} {cs : Option CfgSet}
    {holds : Str → Bool} (he : Evaluated checks c.deTarget cs holds) (hk : CfgTables checks docs cs ks) :
    ((∀ v, ((matching c.deTarget holds).foldl TargetAcc.addCfg a).linker = some v → WithPlace ProgramPlaced v) ∧
      (∀ x, ((matching c.deTarget holds).foldl TargetAcc.addCfg a).runner = some x → WithPlace ProgramPlaced x.path) ∧ True) ↔
    ProgramsPlaced look docs t ks := by
  obtain ⟨c1, c2⟩ := loads_cx h
  have hl := acc_linker ha holds
  have hr := acc_runner ha holds
  cases cfgTables_unique hk (cfgTables_matching h he)
  unfold theLinker at hl
  unfold theRunner at hr
  rw [envText_eq c2, matching_map (loads_sorted h)] at hl hr
  -- the linker
  have hl' : ((matching c.deTarget holds).foldl TargetAcc.addCfg a).linker.map (fun v => (Toml.str v.val, v.defn)) =
      (firstSome ((textOf look (targetEnvName t.triple "LINKER")).map
          (fun text => (Toml.str text, .environment (targetEnvName t.triple "LINKER"))) ::
        (t.triple :: matchingKeys c.deTarget holds).map fun k => (ScalarKey.targetLinker k).source look docs)).map
        (fun z => (z.1, some z.2)) := by
    rw [hl, firstSome_map, firstSome_map]
    congr 1
    simp only [List.map_cons, Option.map_map, List.map_map]
    refine congr (congrArg _ ?_) (congr (congrArg _ ?_) ?_)
    · rfl
    · exact (C57_target_tables h t.triple).1
    · exact List.map_congr_left fun k _ => (C57_target_tables h k).1
  -- the runner
  have hys : ListRel (fun k y => ProgKey.Source look docs (.targetRunner k) y) (t.triple :: matchingKeys c.deTarget holds)
      ((t.triple :: matchingKeys c.deTarget holds).map fun k =>
        ((BMap.get c.deTarget k).bind (·.runner)).map fun x => (x.repr, x.path :: x.args)) :=
    listRel_map_of (fun k => (C57_target_tables h k).2.2.2) _
  have e1 : ∀ k, Option.map Prod.snd (((BMap.get c.deTarget k).bind (·.runner)).map fun x => (x.repr, x.path :: x.args)) =
      (BMap.get c.deTarget k).bind (·.runner.map PathAndArgs.words) := by
    intro k
    cases BMap.get c.deTarget k with
    | none => rfl
    | some x =>
      simp only [Option.bind_some, Option.map_map]
      rfl
  have hr' : ((matching c.deTarget holds).foldl TargetAcc.addCfg a).runner.map PathAndArgs.words =
      firstSome ((textOf look (targetEnvName t.triple "RUNNER")).map
        (fun text => (wordsIn text).map fun w => ⟨w, some (.environment (targetEnvName t.triple "RUNNER"))⟩) ::
      ((t.triple :: matchingKeys c.deTarget holds).map fun k =>
        ((BMap.get c.deTarget k).bind (·.runner)).map fun x => (x.repr, x.path :: x.args)).map (Option.map Prod.snd)) := by
    simp only [List.map_cons, List.map_map, Function.comp_def, e1]
    exact hr
  generalize ((matching c.deTarget holds).foldl TargetAcc.addCfg a).linker = x at hl'
  generalize ((matching c.deTarget holds).foldl TargetAcc.addCfg a).runner = y at hr'
  constructor
  · rintro ⟨h1, h2, -⟩
    constructor
    · intro text d hz
      rw [hz] at hl'
      cases x with
      | none => cases hl'
      | some v =>
        have h3 := Prod.mk.inj (Option.some.inj hl')
        have h4 := h1 v rfl d h3.2
        rw [Toml.str.inj h3.1] at h4
        exact h4
    · intro ys hys' text d args hz
      cases listRel_unique (fun k _ _ h3 h4 => progSource_unique (k := .targetRunner k) h3 h4) hys hys'
      rw [hz] at hr'
      cases y with
      | none => cases hr'
      | some x =>
        have := Option.some.inj hr'
        unfold PathAndArgs.words at this
        have h3 := h2 x rfl
        rw [(List.cons.inj this).1] at h3
        exact h3 d rfl
  · rintro ⟨h1, h2⟩
    refine ⟨fun v hv d hd => ?_, fun z hz d hd => ?_, trivial⟩
    · subst hv
      obtain ⟨v, d'⟩ := v
      cases hd
      refine h1 v d ?_
      generalize firstSome _ = z at hl'
      cases z with
      | none => cases hl'
      | some z =>
        have h3 := Prod.mk.inj (Option.some.inj hl')
        exact congrArg some (Prod.ext h3.1.symm (Option.some.inj h3.2).symm)
    · subst hz
      refine h2 _ hys z.path.val d z.args ?_
      rw [← hr', ← hd]
      rfl

/-! ### the keys that apply -/

theorem answers_iff : Answers c.cx c.build t w s ↔ ∃ text, CompilerPrints c w s t text := by
  constructor
  · rintro ⟨r, s1, out, h1, h2⟩
    obtain ⟨text, b, h3, h4, h5, h6⟩ := C59_output_trimmed (cfgCmd r t.cliTarget) out
    exact ⟨text, r, s1, h1, b, by rw [← h4]; exact h2, h5, h6⟩
  · rintro ⟨text, r, s1, h1, b, h2, h3, h4⟩
    exact ⟨r, s1, _, h1, h2⟩

theorem compilerPrints_unique {x y : Str} (h : CompilerPrints c w s t x) (h' : CompilerPrints c w s t y) : x = y := by
  obtain ⟨r, s1, h1, h2⟩ := h
  obtain ⟨r', s1', h3, h4⟩ := h'
  rw [h1] at h3
  cases h3
  rw [printed_iff (cm := cfgCmd r t.cliTarget)] at h2 h4
  rw [h2] at h4
  exact Res.ok.inj h4

/-- The loop succeeds: the keys that apply. -/
theorem cfgTables_apply (h : Loads p fs toml cwd o look home docs c s) (hc : s.cfg.get t.cliTarget = none) {a a' : TargetAcc}
    (hq : cfgTables c.cx c.build t c.deTarget a w s = (.ok a', s')) (ks : List Str) :
    Apply docs c w s t ks ↔ CfgTables w.checks docs (s'.cfg.get t.cliTarget) ks := by
  have hev := cfgTables_ok hq
  rw [cfgTables_eq] at hq
  cases hf : firstCfgKey c.deTarget with
  | none =>
    rw [hf] at hq
    cases hq
    have hno : ∀ k, ¬ CfgKeyIn docs k := by
      rintro k ⟨h1, h2⟩
      obtain ⟨v, hv⟩ := (loads_table h k).2 h2
      rw [firstCfgKey_none hf k v hv] at h1; cases h1
    constructor
    · rintro (⟨_, rfl⟩ | ⟨text, cs, h1, h2, h3⟩)
      · exact ⟨List.Pairwise.nil, fun k => ⟨fun h => (by cases h), fun h => absurd ⟨h.1, h.2.1⟩ (hno k)⟩,
          fun k h1 h2 => absurd ⟨h1, h2⟩ (hno k)⟩
      · exact ⟨h3.ordered, fun k => ⟨fun h => absurd ⟨((h3.listed k).1 h).1, ((h3.listed k).1 h).2.1⟩ (hno k),
          fun h => absurd ⟨h.1, h.2.1⟩ (hno k)⟩, fun k h1 h2 => absurd ⟨h1, h2⟩ (hno k)⟩
    · intro h1
      refine .inl ⟨hno, ?_⟩
      cases ks with
      | nil => rfl
      | cons k ks =>
        have := (h1.listed k).1 List.mem_cons_self
        exact absurd ⟨this.1, this.2.1⟩ (hno k)
  | some k1 =>
    obtain ⟨hk1, v1, hm1⟩ := firstCfgKey_some hf
    have hin : CfgKeyIn docs k1 := ⟨hk1, (loads_table h k1).1 ⟨v1, hm1⟩⟩
    rw [hf] at hq
    dsimp only at hq
    cases hp : Expression.parse w.checks k1 with
    | err e => rw [hp] at hq; cases hq
    | panic => rw [hp] at hq; cases hq
    | ok e =>
      rw [hp] at hq
      dsimp only at hq
      obtain ⟨r, n, h1, h2⟩ := cfgOf_fresh (cx := c.cx) (b := c.build) (w := w) hc
      cases hg : cfgAnswer (cfgCmd r t.cliTarget) (w.run n (cfgCmd r t.cliTarget)) with
      | err e => rw [h2, hg] at hq; cases hq
      | panic => rw [h2, hg] at hq; cases hq
      | ok cs =>
        rw [h2, hg] at hq
        dsimp only at hq
        have hs' := (Prod.mk.inj hq).2
        have hget : s'.cfg.get t.cliTarget = some cs := by
          rw [← hs']
          show BMap.get (s.cfg.insert t.cliTarget cs) t.cliTarget = some cs
          rw [BMap.get_insert, if_pos rfl]
        rw [hget]
        unfold cfgAnswer at hg
        rw [Res.bind_eq_ok] at hg
        obtain ⟨text, hg1, hg2⟩ := hg
        have hpr : CompilerPrints c w s t text := ⟨r, _, h1, printed_iff.2 hg1⟩
        have hcs : CfgSet.parse text = some cs := by
          cases hx : CfgSet.parse text with
          | none => rw [hx] at hg2; cases hg2
          | some y => rw [hx] at hg2; cases hg2; rfl
        constructor
        · rintro (⟨hno, _⟩ | ⟨text', cs', h3, h4, h5⟩)
          · exact absurd hin (hno k1)
          · cases compilerPrints_unique hpr h3
            rw [hcs] at h4
            cases h4
            exact h5
        · intro h5
          exact .inr ⟨text, cs, hpr, hcs, h5⟩

theorem determined_iff (h : Loads p fs toml cwd o look home docs c s) : Determined look docs c w s t ↔
    isCfgKey t.triple = false ∧ (∃ a, (TargetAcc.start (c.deTarget.get t.triple)).applyEnv c.cx.env t.triple = .ok a) ∧
      (∀ k v, (k, v) ∈ c.deTarget → isCfgKey k = true → ∃ e, Expression.parse w.checks k = .ok e) ∧
      ((∃ k v, (k, v) ∈ c.deTarget ∧ isCfgKey k = true) → Answers c.cx c.build t w s) := by
  rw [targetVars_iff (loads_cx h).2, answers_iff]
  constructor
  · rintro ⟨h1, h2, h3, h4⟩
    refine ⟨h1, h2, fun k v hv hk => h3 k ⟨hk, (loads_table h k).1 ⟨v, hv⟩⟩, ?_⟩
    rintro ⟨k, v, hv, hk⟩
    exact h4 ⟨k, hk, (loads_table h k).1 ⟨v, hv⟩⟩
  · rintro ⟨h1, h2, h3, h4⟩
    refine ⟨h1, h2, ?_, ?_⟩
    · rintro k ⟨hk, hv⟩
      obtain ⟨v, hv⟩ := (loads_table h k).2 hv
      exact h3 k v hv hk
    · rintro ⟨k, hk, hv⟩
      obtain ⟨v, hv⟩ := (loads_table h k).2 hv
      exact h4 ⟨k, v, hv, hk⟩

/-- The keys before a key, in terms of the documents. -/
theorem before_iff (h : Loads p fs toml cwd o look home docs c s) {pre post : BMap TargetConfig} {k : Str} {v : TargetConfig}
    (he : c.deTarget = pre ++ (k, v) :: post) (k' : Str) :
    (∃ y ∈ pre, y.1 = k' ∧ isCfgKey y.1 = true) ↔ Precedes k' k ∧ CfgKeyIn docs k' := by
  have hs := loads_sorted h
  unfold BMap.Sorted at hs
  rw [he, List.pairwise_append, List.pairwise_cons] at hs
  constructor
  · rintro ⟨y, hy, rfl, hk⟩
    refine ⟨precedes_iff.1 (hs.2.2 y hy (k, v) List.mem_cons_self), hk, (loads_table h y.1).1 ⟨y.2, ?_⟩⟩
    rw [he]; exact List.mem_append_left _ hy
  · rintro ⟨h1, h2, h3⟩
    obtain ⟨v', hv⟩ := (loads_table h k').2 h3
    rw [he] at hv
    rw [← precedes_iff] at h1
    rcases List.mem_append.1 hv with hv | hv
    · exact ⟨_, hv, rfl, h2⟩
    · rcases List.mem_cons.1 hv with hv | hv
      · cases hv
        rw [strLt_irrefl] at h1; cases h1
      · have := hs.2.1.1 _ hv
        rw [strLt_asymm this] at h1; cases h1

/-- A key is the first offender, in terms of the documents. -/
theorem stopsAt_iff (h : Loads p fs toml cwd o look home docs c s) {x : Option Err} :
    (∃ pre, StopsAt w.checks c.deTarget pre x ∧ ((∃ y ∈ pre, isCfgKey y.1 = true) → Answers c.cx c.build t w s)) ↔
    ∃ k, Reached docs c w s t k ∧ Expression.parse w.checks k = stopped x := by
  rw [answers_iff]
  constructor
  · rintro ⟨pre, ⟨k, v, post, h1, h2, h3, h4⟩, h5⟩
    have hsp := before_iff h h1
    refine ⟨k, ⟨⟨h2, (loads_table h k).1 ⟨v, by rw [h1]; simp⟩⟩, fun k' hp hk => ?_, ?_⟩, h3⟩
    · obtain ⟨y, hy, rfl, hc⟩ := (hsp k').2 ⟨hp, hk⟩
      exact h4 y hy hc
    · rintro ⟨k', hk⟩
      obtain ⟨y, hy, rfl, hc⟩ := (hsp k').2 hk
      exact h5 ⟨y, hy, hc⟩
  · rintro ⟨k, ⟨⟨h1, h2⟩, h4, h5⟩, h3⟩
    obtain ⟨v, hv⟩ := (loads_table h k).2 h2
    obtain ⟨pre, post, he⟩ := List.append_of_mem hv
    have hsp := before_iff h he
    refine ⟨pre, ⟨k, v, post, he, h1, h3, fun y hy hk => ?_⟩, ?_⟩
    · obtain ⟨h6, h7⟩ := (hsp y.1).1 ⟨y, hy, rfl, hk⟩
      exact h4 y.1 h6 h7
    · rintro ⟨y, hy, hk⟩
      exact h5 ⟨y.1, (hsp y.1).1 ⟨y, hy, rfl, hk⟩⟩

/-- The first key, in terms of the documents. -/
theorem firstKey_iff (h : Loads p fs toml cwd o look home docs c s) {Q : Prop} :
    (∃ pre k v post e, c.deTarget = pre ++ (k, v) :: post ∧ (∀ y ∈ pre, isCfgKey y.1 = false) ∧ isCfgKey k = true ∧
        Expression.parse w.checks k = .ok e ∧ Q) ↔
    (∃ k, (CfgKeyIn docs k ∧ ∀ k', Precedes k' k → ¬ CfgKeyIn docs k') ∧ ∃ e, Expression.parse w.checks k = .ok e) ∧ Q := by
  constructor
  · rintro ⟨pre, k, v, post, e, h1, h2, h3, h4, h5⟩
    have hsp := before_iff h h1
    refine ⟨⟨k, ⟨⟨h3, (loads_table h k).1 ⟨v, by rw [h1]; simp⟩⟩, fun k' hp hk => ?_⟩, e, h4⟩, h5⟩
    obtain ⟨y, hy, rfl, hc⟩ := (hsp k').2 ⟨hp, hk⟩
    rw [h2 y hy] at hc; cases hc
  · rintro ⟨⟨k, ⟨⟨h1, h2⟩, h3⟩, e, h4⟩, h5⟩
    obtain ⟨v, hv⟩ := (loads_table h k).2 h2
    obtain ⟨pre, post, he⟩ := List.append_of_mem hv
    have hsp := before_iff h he
    refine ⟨pre, k, v, post, e, he, fun y hy => ?_, h1, h4, h5⟩
    cases hk : isCfgKey y.1 with
    | false => rfl
    | true =>
      obtain ⟨h6, h7⟩ := (hsp y.1).1 ⟨y, hy, rfl, hk⟩
      exact absurd h7 (h3 _ h6)

theorem unanswered_iff : (∃ e, Unanswered c.cx c.build t w s e) ↔ ¬ ∃ text, CompilerPrints c w s t text := by
  rw [← answers_iff]
  have hq : ∃ r s1, queryRustc c.cx c.build w s = (.ok r, s1) := by
    obtain ⟨r, n, h⟩ := queryRustc_total c.cx c.build w s
    exact ⟨r, _, h⟩
  obtain ⟨r, s1, hr⟩ := hq
  unfold Unanswered Answers
  rw [hr]
  rcases procRead_cases (cfgCmd r t.cliTarget) (w.run s1.clock (cfgCmd r t.cliTarget)) with ⟨out, ho⟩ | ⟨⟨er, he⟩, hn⟩
  · constructor
    · rintro ⟨e, r', s1', h1, h2⟩
      cases h1
      rw [ho, procRead_unicode] at h2
      cases h2
    · intro h
      exact absurd ⟨r, s1, out, rfl, ho⟩ h
  · constructor
    · rintro _ ⟨r', s1', out, h1, h2⟩
      cases h1
      exact hn out h2
    · intro _
      exact ⟨er, r, s1, rfl, he⟩

/-- What a first query does. -/
theorem target_exact (h : Loads p fs toml cwd o look home docs c s) :
    ((∃ e, (c.target t w s).1 = .ok e) ↔ Determined look docs c w s t ∧ ∀ ks, Apply docs c w s t ks → ProgramsPlaced look docs t ks) ∧
    ((c.target t w s).1 = .panic ↔ (Determined look docs c w s t ∧ ∃ ks, Apply docs c w s t ks ∧ ¬ ProgramsPlaced look docs t ks) ∨
      (isCfgKey t.triple = false ∧ TargetVars look t.triple ∧ ∃ k, Reached docs c w s t k ∧ Expression.parse w.checks k = .panic)) ∧
    ∀ e, isCfgKey t.triple = false → TargetVars look t.triple → ((c.target t w s).1 = .err e ↔
      (∃ k, Reached docs c w s t k ∧ Expression.parse w.checks k = .err e) ∨
      ((∃ k, (CfgKeyIn docs k ∧ ∀ k', Precedes k' k → ¬ CfgKeyIn docs k') ∧ ∃ e, Expression.parse w.checks k = .ok e) ∧
        Unanswered c.cx c.build t w s e)) := by
  have hf := C33_loaded h.loaded
  have hs : s.target.get t.cliTarget = none := by rw [hf.1]; rfl
  have hc : s.cfg.get t.cliTarget = none := by rw [hf.2]; rfl
  rw [determined_iff h, ← targetVars_iff (loads_cx h).2 (a := TargetAcc.start (c.deTarget.get t.triple)), target_fresh hs]
  cases hk : isCfgKey t.triple with
  | true =>
    have : ∀ o1 o2 b1 b2, ∃ y, resolveTarget c.cx c.deTarget o1 b1 o2 b2 t c.build w s = (.err y, s) := by
      intro o1 o2 b1 b2
      unfold resolveTarget
      rw [startsWith_cfg, hk, if_pos rfl]
      exact ⟨_, rfl⟩
    obtain ⟨y, hy⟩ := this c.build.overrideTargetRustflags c.build.overrideTargetRustdocflags c.build.deRustflags
      c.build.deRustdocflags
    rw [hy]
    simp
  | false =>
    cases ha : (TargetAcc.start (c.deTarget.get t.triple)).applyEnv c.cx.env t.triple with
    | panic => exact absurd ha targetEnv_ne_panic
    | err x =>
      obtain ⟨y, hy⟩ := resolveTarget_env_err (o1 := c.build.overrideTargetRustflags) (o2 := c.build.overrideTargetRustdocflags)
        (b1 := c.build.deRustflags) (b2 := c.build.deRustdocflags) (b := c.build) (w := w) (s := s) ha
      rw [hy]
      simp
    | ok a =>
      rw [resolveTarget_start hk ha]
      have g0 := cfgTables_stop_iff (cx := c.cx) (b := c.build) (w := w) hc c.deTarget a
      have g1 : (cfgTables c.cx c.build t c.deTarget a w s).1 = .panic ↔ _ := g0 none
      have g5 : ∀ e, (cfgTables c.cx c.build t c.deTarget a w s).1 = .err e ↔ _ := fun e => g0 (some e)
      have g2 := (cfgTables_outcome (cx := c.cx) (b := c.build) (w := w) hc c.deTarget a).2
      have g3 := fun a' s1 (hx : cfgTables c.cx c.build t c.deTarget a w s = (.ok a', s1)) => cfgTables_ok hx
      have g4 := fun a' s1 (hx : cfgTables c.cx c.build t c.deTarget a w s = (.ok a', s1)) => cfgTables_apply h hc hx
      have g1' : (cfgTables c.cx c.build t c.deTarget a w s).1 = .panic ↔
          ∃ k, Reached docs c w s t k ∧ Expression.parse w.checks k = .panic := by
        rw [g1, stopsAt_iff h]
        constructor
        · rintro (h | ⟨_, _, _, _, _, _, _, _, _, er, h, _⟩)
          · exact h
          · cases h
        · exact .inl
      have g5' : ∀ e, (cfgTables c.cx c.build t c.deTarget a w s).1 = .err e ↔
          (∃ k, Reached docs c w s t k ∧ Expression.parse w.checks k = .err e) ∨
          ((∃ k, (CfgKeyIn docs k ∧ ∀ k', Precedes k' k → ¬ CfgKeyIn docs k') ∧ ∃ e, Expression.parse w.checks k = .ok e) ∧
            Unanswered c.cx c.build t w s e) := by
        intro e
        rw [g5, stopsAt_iff h, firstKey_iff h]
        refine or_congr Iff.rfl (and_congr Iff.rfl ?_)
        constructor
        · rintro ⟨er, h1, h2⟩
          cases h1
          exact h2
        · intro h
          exact ⟨e, rfl, h⟩
      simp only [true_and, Res.ok.injEq, exists_eq', g2.symm, g1'.symm, (g5' _).symm]
      clear g0 g1 g5 g2 g1' g5'
      generalize cfgTables c.cx c.build t c.deTarget a w s = x at *
      obtain ⟨r, s1⟩ := x
      cases r with
      | panic => simp
      | err e => simp
      | ok a' =>
        obtain ⟨holds, hev, rfl⟩ := g3 _ _ rfl
        have hap := g4 _ _ rfl
        have hkt := cfgTables_matching h hev
        have hpl := programs_placed h ha hev hkt
        have : ∀ x : TargetConfig, x.linker = ((matching c.deTarget holds).foldl TargetAcc.addCfg a).linker →
            x.runner = ((matching c.deTarget holds).foldl TargetAcc.addCfg a).runner →
            Decides (ProgramsPlaced look docs t (matchingKeys c.deTarget holds)) (ETarget.fromUnresolved c.cx.currentDir x) := by
          intro x hx1 hx2
          have := decides_etarget c.cx.currentDir x
          rw [hx1, hx2] at this
          exact this.congr hpl
        have hd := this (Option.getD (TargetAcc.finish ((matching c.deTarget holds).foldl TargetAcc.addCfg a)
          c.build.overrideTargetRustflags c.build.deRustflags
          c.build.overrideTargetRustdocflags c.build.deRustdocflags) {}) rfl rfl
        have hall : (∀ ks, Apply docs c w s t ks → ProgramsPlaced look docs t ks) ↔
            ProgramsPlaced look docs t (matchingKeys c.deTarget holds) := by
          constructor
          · intro hx; exact hx _ ((hap _).2 hkt)
          · intro hx ks hk
            cases cfgTables_unique hkt ((hap _).1 hk)
            exact hx
        have hex : (∃ ks, Apply docs c w s t ks ∧ ¬ ProgramsPlaced look docs t ks) ↔
            ¬ ProgramsPlaced look docs t (matchingKeys c.deTarget holds) := by
          rw [← hall]
          simp
        rw [hall, hex]
        dsimp only
        rcases hd with ⟨h1, e, h2⟩ | ⟨h1, h2⟩ <;> rw [h2] <;> simp [h1]

end CC
