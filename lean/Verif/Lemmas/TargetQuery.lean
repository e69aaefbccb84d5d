import Verif.Lemmas.Lists
import Verif.Lemmas.Act
import Verif.Lemmas.CfgSpan
import Verif.Spec.TargetQuery
import Verif.Props.CfgExpr
/-
Lemmas on `resolve_target`.
-/
namespace CC

/-! ### Names -/

theorem targetVar_eq (triple : Str) (key : String) : targetVar triple key.toList = targetEnvName triple key := by
  unfold targetVar targetEnvName
  have : targetUUpper triple = triple.map envChar := by
    unfold targetUUpper targetULower
    rw [List.map_map]
    refine List.map_congr_left fun c _ => ?_
    simp only [Function.comp, envChar, asciiUpper]
    by_cases h : c = '-' ∨ c = '.'
    · simp only [h, if_true]; rfl
    · simp only [h, if_false]
  rw [this]
  simp

theorem startsWith_cfg (k : Str) : startsWith "cfg(".toList k = isCfgKey k := by
  show (stripPrefix ['c', 'f', 'g', '('] k).isSome = decide (k.take 4 = ['c', 'f', 'g', '('])
  rw [Bool.eq_iff_iff, decide_eq_true_iff, Option.isSome_iff_exists]
  constructor
  · rintro ⟨r, h⟩
    rw [stripPrefix_eq_some] at h
    subst h
    rfl
  · intro h
    refine ⟨k.drop 4, ?_⟩
    rw [stripPrefix_eq_some, ← h, List.take_append_drop]

/-! ### The loop over the cfg tables -/

/-- The truth value of a key. -/
def keyHolds (checks : Bool) (c : CfgSet) (k : Str) : Bool :=
  match Expression.parse checks k with
  | .ok e => (e.eval boolLogic c.holds).getD false
  | _ => false

theorem keyValue_of_ok {checks : Bool} {c : CfgSet} {k : Str} {e : Expression} (h : Expression.parse checks k = .ok e) :
    e.eval boolLogic c.holds = some (keyHolds checks c k) := by
  unfold keyHolds
  rw [h]
  obtain ⟨x, hx⟩ := C37_eval checks k e h boolLogic c.holds
  simp only [hx, Option.getD_some]

/-- The loop when the cfg set is known. -/
def evalTables (checks : Bool) (c : CfgSet) : BMap TargetConfig → TargetAcc → Res TargetAcc
  | [], a => .ok a
  | (k, v) :: m, a =>
    if isCfgKey k = false then evalTables checks c m a
    else match Expression.parse checks k with
      | .ok _ => evalTables checks c m (if keyHolds checks c k then a.addCfg v else a)
      | .err e => .err e
      | .panic => .panic

variable {cx : Ctx} {b : EBuild} {t : TargetTriple} {w : World} {s s' : Cells}

theorem cfgTables_cached {c : CfgSet} (hc : s.cfg.get t.cliTarget = some c) (m : BMap TargetConfig) (a : TargetAcc) :
    cfgTables cx b t m a w s = (evalTables w.checks c m a, s) := by
  induction m generalizing a with
  | nil => rfl
  | cons e m ih =>
    obtain ⟨k, v⟩ := e
    unfold cfgTables evalTables
    rw [startsWith_cfg]
    cases hk : isCfgKey k with
    | false => simp only [Bool.not_false, if_true]; exact ih a
    | true =>
      simp only [Bool.not_true, Bool.false_eq_true, if_false, Bool.true_eq_false]
      rw [Act.bind_def, evalCfg_eq]
      cases hp : Expression.parse w.checks k with
      | err e => rfl
      | panic => rfl
      | ok e =>
        simp only
        rw [Act.bind_of_ok (cfgOf_cached hc), Act.lift_def, keyValue_of_ok hp]
        exact ih _

/-- The first cfg key. -/
def firstCfgKey (m : BMap TargetConfig) : Option Str := (m.find? fun e => isCfgKey e.1).map Prod.fst

theorem cfgOf_result {c : CfgSet} (h : cfgOf cx b t w s = (.ok c, s')) : s'.cfg.get t.cliTarget = some c := by
  cases hc : s.cfg.get t.cliTarget with
  | some c' =>
    rw [cfgOf_cached hc] at h
    cases h
    exact hc
  | none =>
    obtain ⟨r, n, _, h2⟩ := cfgOf_fresh (cx := cx) (b := b) (w := w) hc
    rw [h2] at h
    generalize cfgAnswer _ _ = x at h
    cases x with
    | ok c' => cases h; rw [BMap.get_insert]; simp
    | err e => cases h
    | panic => cases h

theorem cfgTables_eq (m : BMap TargetConfig) (a : TargetAcc) : cfgTables cx b t m a w s = match firstCfgKey m with
    | none => (.ok a, s)
    | some k =>
      match Expression.parse w.checks k with
      | .err e => (.err e, s)
      | .panic => (.panic, s)
      | .ok _ =>
        match cfgOf cx b t w s with
        | (.ok c, s1) => (evalTables w.checks c m a, s1)
        | (.err e, s1) => (.err e, s1)
        | (.panic, s1) => (.panic, s1) := by
  induction m generalizing a with
  | nil => rfl
  | cons e m ih =>
    obtain ⟨k, v⟩ := e
    unfold cfgTables
    rw [startsWith_cfg]
    cases hk : isCfgKey k with
    | false =>
      simp only [Bool.not_false, if_true]
      rw [ih a]
      have : firstCfgKey ((k, v) :: m) = firstCfgKey m := by simp [firstCfgKey, hk]
      rw [this]
      have he : ∀ c, evalTables w.checks c ((k, v) :: m) a = evalTables w.checks c m a := by
        intro c; rw [evalTables, if_pos hk]
      simp only [he]
    | true =>
      simp only [Bool.not_true, Bool.false_eq_true, if_false]
      have : firstCfgKey ((k, v) :: m) = some k := by simp [firstCfgKey, hk]
      rw [this]
      dsimp only
      rw [Act.bind_def, evalCfg_eq]
      cases hp : Expression.parse w.checks k with
      | err e => rfl
      | panic => rfl
      | ok e =>
        simp only
        cases hq : cfgOf cx b t w s with
        | mk r s1 =>
          cases r with
          | err e => rw [Act.bind_of_err hq]
          | panic => rw [Act.bind_of_panic hq]
          | ok c =>
            rw [Act.bind_of_ok hq, Act.lift_def, keyValue_of_ok hp]
            dsimp only [Res.unwrap]
            rw [cfgTables_cached (cfgOf_result hq)]
            have he : evalTables w.checks c ((k, v) :: m) a =
                evalTables w.checks c m (if keyHolds w.checks c k then a.addCfg v else a) := by
              rw [evalTables, if_neg (by rw [hk]; decide), hp]
            rw [he]

theorem evalTables_ok {checks : Bool} {c : CfgSet} {m : BMap TargetConfig} {a a' : TargetAcc} :
    evalTables checks c m a = .ok a' ↔
      (∀ k v, (k, v) ∈ m → isCfgKey k = true → ∃ e, Expression.parse checks k = .ok e) ∧
      a' = (matching m (keyHolds checks c)).foldl TargetAcc.addCfg a := by
  induction m generalizing a with
  | nil =>
    constructor
    · intro h; cases h; exact ⟨fun _ _ hm => (by cases hm), rfl⟩
    · rintro ⟨_, rfl⟩; rfl
  | cons e m ih =>
    obtain ⟨k, v⟩ := e
    unfold evalTables
    cases hk : isCfgKey k with
    | false =>
      rw [if_pos rfl, ih]
      have : matching ((k, v) :: m) (keyHolds checks c) = matching m (keyHolds checks c) := by simp [matching, hk]
      rw [this]
      refine and_congr_left fun _ => ⟨fun h k' v' hm => ?_, fun h k' v' hm => h k' v' (List.mem_cons_of_mem _ hm)⟩
      rcases List.mem_cons.1 hm with e | hm
      · cases e; intro h'; rw [hk] at h'; cases h'
      · exact h k' v' hm
    | true =>
      rw [if_neg (by decide)]
      cases hp : Expression.parse checks k with
      | err e =>
        constructor
        · intro h; cases h
        · rintro ⟨h, _⟩
          obtain ⟨e', he⟩ := h k v List.mem_cons_self hk
          rw [hp] at he; cases he
      | panic =>
        constructor
        · intro h; cases h
        · rintro ⟨h, _⟩
          obtain ⟨e', he⟩ := h k v List.mem_cons_self hk
          rw [hp] at he; cases he
      | ok e =>
        dsimp only
        rw [ih]
        have : (matching ((k, v) :: m) (keyHolds checks c)).foldl TargetAcc.addCfg a =
            (matching m (keyHolds checks c)).foldl TargetAcc.addCfg (if keyHolds checks c k then a.addCfg v else a) := by
          unfold matching
          cases hh : keyHolds checks c k <;> simp [hk, hh]
        rw [this]
        refine and_congr_left fun _ => ⟨fun h k' v' hm => ?_, fun h k' v' hm => h k' v' (List.mem_cons_of_mem _ hm)⟩
        rcases List.mem_cons.1 hm with e | hm
        · cases e; intro _; exact ⟨_, hp⟩
        · exact h k' v' hm

theorem firstCfgKey_none {m : BMap TargetConfig} (h : firstCfgKey m = none) : ∀ k v, (k, v) ∈ m → isCfgKey k = false := by
  intro k v hm
  unfold firstCfgKey at h
  rw [Option.map_eq_none_iff, List.find?_eq_none] at h
  simpa using h _ hm

/-- The loop succeeds: all keys are accepted and the matching tables were added in order. -/
theorem cfgTables_ok {m : BMap TargetConfig} {a a' : TargetAcc} (h : cfgTables cx b t m a w s = (.ok a', s')) :
    ∃ holds, Evaluated w.checks m (s'.cfg.get t.cliTarget) holds ∧ a' = (matching m holds).foldl TargetAcc.addCfg a := by
  rw [cfgTables_eq] at h
  cases hf : firstCfgKey m with
  | none =>
    rw [hf] at h
    cases h
    refine ⟨fun _ => false, fun k v hm hk => ?_, ?_⟩
    · rw [firstCfgKey_none hf k v hm] at hk; cases hk
    · have : matching m (fun _ => false) = [] := by
        unfold matching
        rw [List.map_eq_nil_iff, List.filter_eq_nil_iff]
        simp
      rw [this]; rfl
  | some k =>
    rw [hf] at h
    dsimp only at h
    cases hp : Expression.parse w.checks k with
    | err e => rw [hp] at h; cases h
    | panic => rw [hp] at h; cases h
    | ok e =>
      rw [hp] at h
      dsimp only at h
      cases hq : cfgOf cx b t w s with
      | mk r s1 =>
        rw [hq] at h
        cases r with
        | err e => cases h
        | panic => cases h
        | ok c =>
          dsimp only at h
          obtain ⟨h1, h2⟩ := Prod.mk.inj h
          subst h2
          rw [evalTables_ok] at h1
          refine ⟨keyHolds w.checks c, fun k v hm hk => ⟨c, cfgOf_result hq, ?_⟩, h1.2⟩
          obtain ⟨e, he⟩ := h1.1 k v hm hk
          exact ⟨e, he, keyValue_of_ok he⟩

/-! ### What the loop adds -/

theorem addCfg_linker (a : TargetAcc) (v : TargetConfig) : (a.addCfg v).linker = firstSome [a.linker, v.linker] := by
  obtain ⟨l, r, f, d⟩ := a
  obtain ⟨l', r', f', d'⟩ := v
  cases l <;> cases r <;> cases l' <;> cases r' <;> cases f' <;> rfl

theorem addCfg_runner (a : TargetAcc) (v : TargetConfig) : (a.addCfg v).runner = firstSome [a.runner, v.runner] := by
  obtain ⟨l, r, f, d⟩ := a
  obtain ⟨l', r', f', d'⟩ := v
  cases l <;> cases r <;> cases l' <;> cases r' <;> cases f' <;> rfl

theorem addCfg_rustflags (a : TargetAcc) (v : TargetConfig) :
    (a.addCfg v).rustflags = match v.rustflags with
      | some f => extendFlags a.rustflags f
      | none => a.rustflags := by
  obtain ⟨l, r, f, d⟩ := a
  obtain ⟨l', r', f', d'⟩ := v
  cases l <;> cases r <;> cases l' <;> cases r' <;> cases f' <;> rfl

theorem addCfg_rustdocflags (a : TargetAcc) (v : TargetConfig) : (a.addCfg v).rustdocflags = a.rustdocflags := by
  obtain ⟨l, r, f, d⟩ := a
  obtain ⟨l', r', f', d'⟩ := v
  cases l <;> cases r <;> cases l' <;> cases r' <;> cases f' <;> rfl

theorem firstSome_cons_cons {α : Type} (a b : Option α) (l : List (Option α)) :
    firstSome (a :: b :: l) = firstSome (firstSome [a, b] :: l) := by
  cases a <;> cases b <;> rfl

theorem firstSome_single {α : Type} (a : Option α) : firstSome [a] = a := by cases a <;> rfl

theorem fold_linker (ms : List TargetConfig) (a : TargetAcc) :
    (ms.foldl TargetAcc.addCfg a).linker = firstSome (a.linker :: ms.map (·.linker)) := by
  induction ms generalizing a with
  | nil => exact (firstSome_single _).symm
  | cons v ms ih => rw [List.foldl_cons, ih, addCfg_linker, List.map_cons]; exact (firstSome_cons_cons _ _ _).symm

theorem fold_runner (ms : List TargetConfig) (a : TargetAcc) :
    (ms.foldl TargetAcc.addCfg a).runner = firstSome (a.runner :: ms.map (·.runner)) := by
  induction ms generalizing a with
  | nil => exact (firstSome_single _).symm
  | cons v ms ih => rw [List.foldl_cons, ih, addCfg_runner, List.map_cons]; exact (firstSome_cons_cons _ _ _).symm

theorem fold_rustdocflags (ms : List TargetConfig) (a : TargetAcc) :
    (ms.foldl TargetAcc.addCfg a).rustdocflags = a.rustdocflags := by
  induction ms generalizing a with
  | nil => rfl
  | cons v ms ih => rw [List.foldl_cons, ih, addCfg_rustdocflags]

theorem joined_nil {α : Type} : joined ([] : List (Option (List α))) = none := rfl

theorem joined_single {α : Type} (a : Option (List α)) : joined [a] = a := by
  cases a <;> simp [joined]

theorem joined_cons_cons {α : Type} (a b : Option (List α)) (l : List (Option (List α))) :
    joined (a :: b :: l) = joined (joined [a, b] :: l) := by
  cases a <;> cases b <;> simp [joined]

theorem extendFlags_texts (o : Option Flags) (f : Flags) :
    (extendFlags o f).map Flags.texts = joined [o.map Flags.texts, some f.texts] := by
  cases o with
  | none => simp [extendFlags, joined]
  | some g => simp [extendFlags, joined, Flags.texts]

theorem addCfg_texts (a : TargetAcc) (v : TargetConfig) :
    (a.addCfg v).rustflags.map Flags.texts = joined [a.rustflags.map Flags.texts, v.rustflags.map Flags.texts] := by
  rw [addCfg_rustflags]
  cases v.rustflags with
  | none => cases a.rustflags <;> simp [joined]
  | some f => exact extendFlags_texts _ _

theorem fold_rustflags (ms : List TargetConfig) (a : TargetAcc) : (ms.foldl TargetAcc.addCfg a).rustflags.map Flags.texts =
    joined (a.rustflags.map Flags.texts :: ms.map (·.rustflags.map Flags.texts)) := by
  induction ms generalizing a with
  | nil => exact (joined_single _).symm
  | cons v ms ih =>
    rw [List.foldl_cons, ih, addCfg_texts, List.map_cons]
    exact (joined_cons_cons _ _ _).symm

/-! ### The variables -/

theorem env_var_ok {env : Env} {n : Str} {x : Option (Val Str)} : env.var n = .ok x ↔
    (∀ bs, env.get n ≠ some (.invalid bs)) ∧ x = (envText env n).map fun s => ⟨s, some (.environment n)⟩ := by
  unfold Env.var envText
  cases h : Env.get env n with
  | none => simp [eq_comm]
  | some v =>
    cases v with
    | unicode s => simp [OsStr.toStr?, eq_comm]
    | invalid bs => simp [OsStr.toStr?]

theorem fromString_words (s : Str) (d : Option Definition) : (PathAndArgs.fromString s d).map PathAndArgs.words =
    if wordsIn s = [] then none else some ((wordsIn s).map fun w => ⟨w, d⟩) := by
  unfold PathAndArgs.fromString
  rw [← wordsIn_eq]
  cases wordsIn s with
  | nil => rfl
  | cons p as => simp [PathAndArgs.words]

/-- What the variables of the target do. -/
theorem targetEnv_ok {env : Env} {triple : Str} {a a' : TargetAcc} (h : a.applyEnv env triple = .ok a') :
    a'.linker = firstSome [(envText env (targetEnvName triple "LINKER")).map
      (fun s => ⟨s, some (.environment (targetEnvName triple "LINKER"))⟩), a.linker] ∧
    a'.runner.map PathAndArgs.words = firstSome [(envText env (targetEnvName triple "RUNNER")).map
      (fun s => (wordsIn s).map fun w => ⟨w, some (.environment (targetEnvName triple "RUNNER"))⟩),
      a.runner.map PathAndArgs.words] ∧
    a'.rustflags.map Flags.texts = joined [a.rustflags.map Flags.texts,
      (envText env (targetEnvName triple "RUSTFLAGS")).map wordsIn] ∧
    a'.rustdocflags.map Flags.texts = joined [a.rustdocflags.map Flags.texts,
      (envText env (targetEnvName triple "RUSTDOCFLAGS")).map wordsIn] := by
  have hf : ∀ (o : Option Flags) s d, (extendFlags o (Flags.fromSpaceSeparated s d)).map Flags.texts =
      joined [o.map Flags.texts, some (wordsIn s)] := by
    intro o s d
    rw [extendFlags_texts]
    simp [Flags.texts, Flags.fromSpaceSeparated, Function.comp_def, wordsIn_eq]
  have hn : ∀ (o : Option Flags), joined [o.map Flags.texts, none] = o.map Flags.texts := by
    intro o; cases o <;> simp [joined]
  obtain ⟨l, r, f, d⟩ := a
  unfold TargetAcc.applyEnv at h
  simp only [targetVar_eq] at h
  simp only [Res.bind_eq_ok, Res.pure_eq] at h
  obtain ⟨x1, h1, x2, h2, r', h3, x3, h4, x4, h5, e⟩ := h
  cases e
  rw [env_var_ok] at h1 h2 h4 h5
  obtain ⟨-, rfl⟩ := h1
  obtain ⟨-, rfl⟩ := h2
  obtain ⟨-, rfl⟩ := h4
  obtain ⟨-, rfl⟩ := h5
  refine ⟨?_, ?_, ?_, ?_⟩
  · cases envText env (targetEnvName triple "LINKER") <;> cases l <;> rfl
  · cases hr : envText env (targetEnvName triple "RUNNER") with
    | none => rw [hr] at h3; cases h3; cases r <;> rfl
    | some s =>
      rw [hr] at h3
      simp only [Option.map_some, envRunner] at h3
      have := fromString_words s (some (.environment (targetEnvName triple "RUNNER")))
      cases hp : PathAndArgs.fromString s (some (.environment (targetEnvName triple "RUNNER"))) with
      | none => rw [hp] at h3; cases h3
      | some x =>
        rw [hp] at h3 this
        cases h3
        rw [this]
        split at this
        · cases this
        · rename_i hne; rw [if_neg hne]; rfl
  · cases envText env (targetEnvName triple "RUSTFLAGS") with
    | none => exact (hn _).symm
    | some s => exact hf _ _ _
  · cases envText env (targetEnvName triple "RUSTDOCFLAGS") with
    | none => exact (hn _).symm
    | some s => exact hf _ _ _

/-- When the variables of the target are well-formed. -/
theorem targetEnv_ok_iff {env : Env} {triple : Str} {a : TargetAcc} : (∃ a', a.applyEnv env triple = .ok a') ↔
    (∀ key ∈ ["LINKER", "RUNNER", "RUSTFLAGS", "RUSTDOCFLAGS"], ∀ bs, env.get (targetEnvName triple key) ≠ some (.invalid bs)) ∧
    (∀ s, env.get (targetEnvName triple "RUNNER") = some (.unicode s) → wordsIn s ≠ []) := by
  unfold TargetAcc.applyEnv
  simp only [targetVar_eq]
  simp only [Res.bind_eq_ok, Res.pure_eq, env_var_ok]
  have hr : (∃ r, envRunner a.runner ((envText env (targetEnvName triple "RUNNER")).map fun s =>
        ⟨s, some (.environment (targetEnvName triple "RUNNER"))⟩) = .ok r) ↔
      ∀ s, env.get (targetEnvName triple "RUNNER") = some (.unicode s) → wordsIn s ≠ [] := by
    unfold envText
    cases h : Env.get env (targetEnvName triple "RUNNER") with
    | none => simp [envRunner]
    | some v =>
      cases v with
      | invalid bs => simp [envRunner]
      | unicode s =>
        simp only [Option.map_some, envRunner]
        have := fromString_words s (some (.environment (targetEnvName triple "RUNNER")))
        cases hp : PathAndArgs.fromString s (some (.environment (targetEnvName triple "RUNNER"))) with
        | none =>
          rw [hp] at this
          constructor
          · rintro ⟨r, e⟩; cases e
          · intro h'
            rw [if_neg (h' s rfl)] at this
            cases this
        | some x =>
          refine ⟨fun _ s' e hs => ?_, fun _ => ⟨_, rfl⟩⟩
          cases e
          rw [hp, if_pos hs] at this
          cases this
  constructor
  · rintro ⟨a', x1, ⟨h1, rfl⟩, x2, ⟨h2, rfl⟩, r, h3, x3, ⟨h4, rfl⟩, x4, ⟨h5, rfl⟩, -⟩
    refine ⟨?_, hr.1 ⟨r, h3⟩⟩
    simp only [List.mem_cons, List.not_mem_nil, or_false]
    rintro key (rfl | rfl | rfl | rfl)
    · exact h1
    · exact h2
    · exact h4
    · exact h5
  · rintro ⟨h, h'⟩
    obtain ⟨r, h3⟩ := hr.2 h'
    exact ⟨_, _, ⟨h _ (by simp), rfl⟩, _, ⟨h _ (by simp), rfl⟩, r, h3, _, ⟨h _ (by simp), rfl⟩, _, ⟨h _ (by simp), rfl⟩, rfl⟩

theorem targetEnv_ne_panic {env : Env} {triple : Str} {a : TargetAcc} : a.applyEnv env triple ≠ .panic := by
  have hv : ∀ n, env.var n ≠ .panic := by
    intro n h
    unfold Env.var at h
    split at h
    · cases h
    · split at h <;> cases h
  have hr : ∀ o x, envRunner o x ≠ .panic := by
    intro o x h
    unfold envRunner at h
    split at h
    · split at h <;> cases h
    · cases h
  unfold TargetAcc.applyEnv
  refine Res.bind_ne_panic (hv _) fun _ _ => Res.bind_ne_panic (hv _) fun _ _ => Res.bind_ne_panic (hr _ _) fun _ _ =>
    Res.bind_ne_panic (hv _) fun _ _ => Res.bind_ne_panic (hv _) fun _ _ => ?_
  intro h; cases h

/-! ### From the query to `resolve_target` -/

variable {c : EConfig}

theorem resolveTarget_ok {cx : Ctx} {targets : BMap TargetConfig} {o1 o2 : Bool} {b1 b2 : Option Flags} {b : EBuild}
    {r : Option TargetConfig} (h : resolveTarget cx targets o1 b1 o2 b2 t b w s = (.ok r, s')) :
    isCfgKey t.triple = false ∧ ∃ a a', (TargetAcc.start (targets.get t.triple)).applyEnv cx.env t.triple = .ok a ∧
      cfgTables cx b t targets a w s = (.ok a', s') ∧ r = a'.finish o1 b1 o2 b2 := by
  unfold resolveTarget at h
  rw [startsWith_cfg] at h
  cases hk : isCfgKey t.triple with
  | true => rw [hk, if_pos rfl] at h; cases h
  | false =>
    rw [hk, if_neg (by decide)] at h
    rw [Act.bind_ok] at h
    obtain ⟨a, s1, h1, h2⟩ := h
    rw [Act.lift_ok] at h1
    obtain ⟨h1, rfl⟩ := h1
    rw [Act.bind_ok] at h2
    obtain ⟨a', s2, h2, h3⟩ := h2
    rw [Act.pure_ok] at h3
    obtain ⟨rfl, rfl⟩ := h3
    exact ⟨rfl, a, a', h1, h2, rfl⟩

theorem resolveTarget_env_err {cx : Ctx} {targets : BMap TargetConfig} {o1 o2 : Bool} {b1 b2 : Option Flags} {b : EBuild} {x : Err}
    (h : (TargetAcc.start (targets.get t.triple)).applyEnv cx.env t.triple = .err x) :
    ∃ y, resolveTarget cx targets o1 b1 o2 b2 t b w s = (.err y, s) := by
  unfold resolveTarget
  cases startsWith "cfg(".toList t.triple with
  | true => exact ⟨_, rfl⟩
  | false => rw [if_neg (by decide), Act.lift_bind, h]; exact ⟨_, rfl⟩

/-- A query for a target without an entry. -/
theorem target_fresh (hs : s.target.get t.cliTarget = none) : c.target t w s =
    match resolveTarget c.cx c.deTarget c.build.overrideTargetRustflags c.build.deRustflags
      c.build.overrideTargetRustdocflags c.build.deRustdocflags t c.build w s with
    | (.ok r, s1) =>
      match ETarget.fromUnresolved c.cx.currentDir (r.getD {}) with
      | .ok e => (.ok e, { s1 with target := s1.target.insert t.cliTarget e })
      | .err e => (.err e, s1)
      | .panic => (.panic, s1)
    | (.err e, s1) => (.err e, s1)
    | (.panic, s1) => (.panic, s1) := by
  unfold EConfig.target EConfig.targetEntry EConfig.initTarget
  rw [Act.bind_def, Act.cells_bind, hs]
  dsimp only
  rw [Act.bind_def]
  cases resolveTarget c.cx c.deTarget c.build.overrideTargetRustflags c.build.deRustflags
      c.build.overrideTargetRustdocflags c.build.deRustdocflags t c.build w s with
  | mk r s1 =>
    cases r with
    | err e => rfl
    | panic => rfl
    | ok r =>
      dsimp only
      rw [Act.lift_bind]
      cases ETarget.fromUnresolved c.cx.currentDir (r.getD {}) with
      | err e => rfl
      | panic => rfl
      | ok e =>
        simp only [Act.modify_def, Act.cells_bind, Act.lift_def]
        rw [BMap.get_insert, if_pos rfl]
        rfl

/-- A query for a target with an entry. -/
theorem target_cached {e : ETarget} (hs : s.target.get t.cliTarget = some e) : c.target t w s = (.ok e, s) := by
  unfold EConfig.target EConfig.targetEntry EConfig.initTarget
  rw [Act.bind_def, Act.cells_bind, hs]
  dsimp only [Act.pure_def]
  rw [Act.cells_bind, hs]
  rfl

end CC
