import Verif.Lemmas.TargetDocs
/-
Lemmas for C64: when the query for a target succeeds.
-/
namespace CC

variable {cx : Ctx} {b : EBuild} {t : TargetTriple} {w : World} {s s' : Cells}

/-- The outcome of asking the compiler. -/
theorem cfgAnswer_outcome (cm : Cmd) (o : ProcOut) : cfgAnswer cm o ≠ .panic ∧
    ((∃ c, cfgAnswer cm o = .ok c) ↔ ∃ out, o = .succeeded (.unicode out)) := by
  unfold cfgAnswer
  rcases procRead_cases cm o with ⟨out, rfl⟩ | ⟨⟨e, he⟩, hn⟩
  · obtain ⟨cs, hcs⟩ := C42_no_panic (popLineEnds out.reverse).reverse
    rw [procRead_unicode, Res.ok_bind, hcs]
    exact ⟨(by intro h; cases h), ⟨fun _ => ⟨out, rfl⟩, fun _ => ⟨cs, rfl⟩⟩⟩
  · rw [he]
    exact ⟨(by intro h; cases h), ⟨fun ⟨c, h⟩ => (by cases h), fun ⟨out, h⟩ => absurd h (hn out)⟩⟩

theorem evalTables_panic {checks : Bool} {c : CfgSet} {m : BMap TargetConfig} {a : TargetAcc} (h : evalTables checks c m a = .panic) :
    ∃ k v, (k, v) ∈ m ∧ isCfgKey k = true ∧ Expression.parse checks k = .panic := by
  induction m generalizing a with
  | nil => cases h
  | cons x m ih =>
    obtain ⟨k, v⟩ := x
    unfold evalTables at h
    split at h
    · obtain ⟨k', v', h1, h2⟩ := ih h
      exact ⟨k', v', by simp [h1], h2⟩
    · rename_i hk
      split at h
      · obtain ⟨k', v', h1, h2⟩ := ih h
        exact ⟨k', v', by simp [h1], h2⟩
      · cases h
      · rename_i hp
        exact ⟨k, v, by simp, by simpa using hk, hp⟩

/-- The compiler answers the question for the cfg set. -/
def Answers (cx : Ctx) (b : EBuild) (t : TargetTriple) (w : World) (s : Cells) : Prop :=
  ∃ r s1 out, queryRustc cx b w s = (.ok r, s1) ∧ w.run s1.clock (cfgCmd r t.cliTarget) = .succeeded (.unicode out)

theorem firstCfgKey_some {m : BMap TargetConfig} {k : Str} (h : firstCfgKey m = some k) : isCfgKey k = true ∧ ∃ v, (k, v) ∈ m := by
  unfold firstCfgKey at h
  cases hf : m.find? fun e => isCfgKey e.1 with
  | none => rw [hf] at h; cases h
  | some x =>
    rw [hf] at h
    cases h
    exact ⟨by simpa using List.find?_some hf, x.2, List.mem_of_find?_eq_some hf⟩

theorem cfgTables_outcome (hc : s.cfg.get t.cliTarget = none) (m : BMap TargetConfig) (a : TargetAcc) :
    ((cfgTables cx b t m a w s).1 = .panic → ∃ k v, (k, v) ∈ m ∧ isCfgKey k = true ∧ Expression.parse w.checks k = .panic) ∧
    ((∃ a', (cfgTables cx b t m a w s).1 = .ok a') ↔
      (∀ k v, (k, v) ∈ m → isCfgKey k = true → ∃ e, Expression.parse w.checks k = .ok e) ∧
      ((∃ k v, (k, v) ∈ m ∧ isCfgKey k = true) → Answers cx b t w s)) := by
  rw [cfgTables_eq]
  cases hf : firstCfgKey m with
  | none =>
    dsimp only
    have hn := firstCfgKey_none hf
    refine ⟨(by intro h; cases h), fun _ => ⟨fun k v h1 h2 => ?_, fun ⟨k, v, h1, h2⟩ => ?_⟩, fun _ => ⟨_, rfl⟩⟩ <;>
    · rw [hn k v h1] at h2; cases h2
  | some k1 =>
    obtain ⟨hk1, v1, hm1⟩ := firstCfgKey_some hf
    dsimp only
    cases hp : Expression.parse w.checks k1 with
    | err e =>
      dsimp only
      refine ⟨(by intro h; cases h), fun ⟨_, h⟩ => (by cases h), fun ⟨h, _⟩ => ?_⟩
      obtain ⟨e', h⟩ := h k1 v1 hm1 hk1
      rw [hp] at h; cases h
    | panic =>
      dsimp only
      refine ⟨fun _ => ⟨k1, v1, hm1, hk1, hp⟩, fun ⟨_, h⟩ => (by cases h), fun ⟨h, _⟩ => ?_⟩
      obtain ⟨e', h⟩ := h k1 v1 hm1 hk1
      rw [hp] at h; cases h
    | ok e =>
      obtain ⟨r, n, h1, h2⟩ := cfgOf_fresh (cx := cx) (b := b) (w := w) hc
      have ho := cfgAnswer_outcome (cfgCmd r t.cliTarget) (w.run n (cfgCmd r t.cliTarget))
      rw [h2]
      have hans : Answers cx b t w s ↔ ∃ out, w.run n (cfgCmd r t.cliTarget) = .succeeded (.unicode out) := by
        unfold Answers
        rw [h1]
        constructor
        · rintro ⟨r', s1, out, e, h⟩
          cases e
          exact ⟨out, h⟩
        · rintro ⟨out, h⟩
          exact ⟨_, _, out, rfl, h⟩
      rw [hans, ← ho.2]
      have ho1 := ho.1
      generalize cfgAnswer (cfgCmd r t.cliTarget) (w.run n (cfgCmd r t.cliTarget)) = x at ho1
      cases x with
      | panic => exact absurd rfl ho1
      | err e =>
        dsimp only
        refine ⟨(by intro h; cases h), fun ⟨_, h⟩ => (by cases h), fun ⟨_, h⟩ => ?_⟩
        obtain ⟨c, h⟩ := h ⟨k1, v1, hm1, hk1⟩
        cases h
      | ok c =>
        dsimp only
        refine ⟨evalTables_panic, ?_⟩
        constructor
        · rintro ⟨a', h⟩
          exact ⟨(evalTables_ok.1 h).1, fun _ => ⟨c, rfl⟩⟩
        · rintro ⟨h, _⟩
          exact ⟨_, evalTables_ok.2 ⟨h, rfl⟩⟩

variable {p : ProcEnv} {fs : Fs} {toml : Str → Res Toml} {cwd : Path} {o : Options} {c : EConfig}
  {look : Str → Option OsStr} {home : Option Path} {docs : List (Path × Toml)}

/-- Values of the tables can be resolved. -/
theorem loads_hasRoot (h : Loads p fs toml cwd o look home docs c s)
    (hh : ∀ h, home = some h → Path.components h ≠ [] ∧ Path.components h ≠ [.root]) {k : Str} {v : TargetConfig}
    (hv : BMap.get c.deTarget k = some v) :
    (∀ x, v.linker = some x → Definition.HasRoot x.defn) ∧ (∀ x, v.runner = some x → Definition.HasRoot x.path.defn) := by
  have hh' : ∀ h, home = some h → Path.parent h ≠ none := by
    intro h hm hp
    rw [parent_none_iff] at hp
    rcases hp with hp | hp
    · exact (hh h hm).1 hp
    · exact (hh h hm).2 hp
  obtain ⟨de, cx, raws, h1, h2, h3, h4, h5, h6, h7⟩ := loaded_unpack h.tables h.map h.loaded h.env h.home h.docs
  simp only [EConfig.fromUnresolved, Res.bind_eq_ok, Res.pure_eq] at h4
  obtain ⟨de', h0, b, hb, d, hd, en, he, e⟩ := h4
  have e := Res.ok.inj e
  subst e
  dsimp only at hv
  constructor
  · intro x hx
    refine scalar_hasRoot (fun s c => toml_wf s c) h5 hh' h2 h0 (.targetLinker k) (by intro e; cases e) (x.map .str) ?_
    simp only [ScalarKey.get, hv, Option.bind_some, hx, Option.map_some]
  · intro x hx
    refine list_hasRoot (fun s c => toml_wf s c) h5 hh' h2 h0 (.inr (.targetRunner k)) x.repr (x.path :: x.args) ?_ x.path (by simp)
    simp only [Sum.elim_inr, ProgKey.get, hv, Option.bind_some, hx, Option.map_some]

theorem firstSome_mem {α : Type} {l : List (Option α)} {x : α} (h : firstSome l = some x) : some x ∈ l := by
  induction l with
  | nil => cases h
  | cons y l ih =>
    cases y with
    | none => exact List.mem_cons_of_mem _ (ih h)
    | some y => cases h; exact List.mem_cons_self

theorem unlocated_hasRoot {n : Str} : Definition.HasRoot (some (.environment n)) := by
  intro f hf
  rcases hf with hf | hf <;> cases hf

/-- The linker and the runner found can be resolved. -/
theorem acc_hasRoot (h : Loads p fs toml cwd o look home docs c s)
    (hh : ∀ h, home = some h → Path.components h ≠ [] ∧ Path.components h ≠ [.root]) {a : TargetAcc}
    (ha : (TargetAcc.start (c.deTarget.get t.triple)).applyEnv c.cx.env t.triple = .ok a) (holds : Str → Bool) :
    (∀ x, ((matching c.deTarget holds).foldl TargetAcc.addCfg a).linker = some x → Definition.HasRoot x.defn) ∧
    (∀ x, ((matching c.deTarget holds).foldl TargetAcc.addCfg a).runner = some x → Definition.HasRoot x.path.defn) := by
  have hm : ∀ v ∈ matching c.deTarget holds, ∃ k, BMap.get c.deTarget k = some v := by
    intro v hv
    obtain ⟨⟨k, v'⟩, h1, rfl⟩ := List.mem_map.1 hv
    exact ⟨k, BMap.get_of_mem (loads_sorted h) (List.mem_filter.1 h1).1⟩
  have hstart : ∀ y, BMap.get c.deTarget t.triple = y → (TargetAcc.start y).linker = y.bind (·.linker) ∧
      (TargetAcc.start y).runner = y.bind (·.runner) := by
    intro y _
    cases y <;> exact ⟨rfl, rfl⟩
  obtain ⟨e1, e2, -⟩ := targetEnv_ok ha
  obtain ⟨g1, g2⟩ := hstart _ rfl
  constructor
  · intro x hx
    rw [fold_linker, e1, ← firstSome_cons_cons] at hx
    have := firstSome_mem hx
    rw [List.mem_cons, List.mem_cons, g1] at this
    rcases this with h1 | h1 | h1
    · generalize envText c.cx.env (targetEnvName t.triple "LINKER") = y at h1
      cases y with
      | none => cases h1
      | some y => cases h1; exact unlocated_hasRoot
    · cases hv : BMap.get c.deTarget t.triple with
      | none => rw [hv] at h1; cases h1
      | some v =>
        rw [hv] at h1
        exact (loads_hasRoot h hh hv).1 x h1.symm
    · obtain ⟨v, hv, h1⟩ := List.mem_map.1 h1
      obtain ⟨k, hk⟩ := hm v hv
      exact (loads_hasRoot h hh hk).1 x h1
  · intro x hx
    rw [fold_runner] at hx
    have hw : firstSome (((envText c.cx.env (targetEnvName t.triple "RUNNER")).map
        (fun s => (wordsIn s).map fun w => ⟨w, some (.environment (targetEnvName t.triple "RUNNER"))⟩)) ::
        (TargetAcc.start (BMap.get c.deTarget t.triple)).runner.map PathAndArgs.words ::
        ((matching c.deTarget holds).map (·.runner)).map (Option.map PathAndArgs.words)) = some x.words := by
      rw [firstSome_cons_cons, ← e2, ← List.map_cons, ← firstSome_map, hx]
      rfl
    have := firstSome_mem hw
    rw [List.mem_cons, List.mem_cons, g2] at this
    have conv : ∀ y : Option PathAndArgs, some x.words = y.map PathAndArgs.words → ∃ z, y = some z ∧ z.path = x.path := by
      intro y hy
      cases y with
      | none => cases hy
      | some z =>
        have := Option.some.inj hy
        unfold PathAndArgs.words at this
        exact ⟨z, rfl, (List.cons.inj this).1.symm⟩
    rcases this with h1 | h1 | h1
    · generalize envText c.cx.env (targetEnvName t.triple "RUNNER") = y at h1
      cases y with
      | none => cases h1
      | some y =>
        have h1 := Option.some.inj h1
        unfold PathAndArgs.words at h1
        dsimp only at h1
        have hmem : x.path ∈ (wordsIn y).map fun w =>
            (⟨w, some (.environment (targetEnvName t.triple "RUNNER"))⟩ : Val Str) := by
          rw [← h1]; simp
        obtain ⟨u, _, hu⟩ := List.mem_map.1 hmem
        rw [← hu]
        exact unlocated_hasRoot
    · cases hv : BMap.get c.deTarget t.triple with
      | none => rw [hv] at h1; cases h1
      | some v =>
        rw [hv] at h1
        obtain ⟨z, hz, e⟩ := conv _ h1
        rw [← e]
        exact (loads_hasRoot h hh hv).2 z hz
    · rw [List.map_map] at h1
      obtain ⟨v, hv, h1⟩ := List.mem_map.1 h1
      obtain ⟨k, hk⟩ := hm v hv
      obtain ⟨z, hz, e⟩ := conv _ h1.symm
      rw [← e]
      exact (loads_hasRoot h hh hk).2 z hz

end CC
