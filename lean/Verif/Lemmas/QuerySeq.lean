import Verif.Lemmas.Queries
import Verif.Lemmas.TargetQuery
import Verif.Spec.Queries
/-
Sequences of queries.
-/
namespace CC

variable {cx : Ctx} {b : EBuild} {t : TargetTriple} {w : World} {s s' : Cells} {c : EConfig}

/-! ### Target queries -/

theorem grows_cfgOf (cx : Ctx) (b : EBuild) (t : TargetTriple) : Keeps Grows (cfgOf cx b t) := by
  intro w s
  cases hc : s.cfg.get t.cliTarget with
  | some c => rw [cfgOf_cached hc]; exact grows_pre.refl s
  | none =>
    obtain ⟨r, n, h1, h2⟩ := cfgOf_fresh (cx := cx) (b := b) (w := w) hc
    have h3 := grows_queryRustc cx b w s
    rw [h1] at h3
    rw [h2]
    refine ⟨h3.rustc, rfl, h3.hostTriple, h3.rustcVersion, h3.cargoVersion, fun k c hk => ?_, h3.target, _, rfl⟩
    dsimp only
    split
    · rw [BMap.get_insert]
      split
      · rename_i e; subst e; rw [hk] at hc; cases hc
      · exact hk
    · exact hk

theorem cfgOf_target (w : World) (s : Cells) : (cfgOf cx b t w s).2.target = s.target ∧
    (cfgOf cx b t w s).2.hostTriple = s.hostTriple ∧ SameVersions s (cfgOf cx b t w s).2 := by
  cases hc : s.cfg.get t.cliTarget with
  | some c => rw [cfgOf_cached hc]; exact ⟨rfl, rfl, rfl, rfl⟩
  | none =>
    obtain ⟨r, n, h1, h2⟩ := cfgOf_fresh (cx := cx) (b := b) (w := w) hc
    rw [h2]
    exact ⟨rfl, rfl, rfl, rfl⟩

theorem cfgTables_cells (m : BMap TargetConfig) (a : TargetAcc) : (cfgTables cx b t m a w s).2 = s ∨
    ((firstCfgKey m).isSome = true ∧ (cfgTables cx b t m a w s).2 = (cfgOf cx b t w s).2) := by
  rw [cfgTables_eq]
  cases firstCfgKey m with
  | none => exact Or.inl rfl
  | some k =>
    dsimp only
    cases Expression.parse w.checks k with
    | err e => exact Or.inl rfl
    | panic => exact Or.inl rfl
    | ok e =>
      dsimp only
      cases cfgOf cx b t w s with
      | mk r s1 => cases r <;> exact Or.inr ⟨rfl, rfl⟩

/-- The cells after `resolve_target`: unchanged, or as after asking for the cfg set. -/
theorem resolveTarget_cells {targets : BMap TargetConfig} {o1 o2 : Bool} {b1 b2 : Option Flags} :
    (resolveTarget cx targets o1 b1 o2 b2 t b w s).2 = s ∨
    ((firstCfgKey targets).isSome = true ∧
      (resolveTarget cx targets o1 b1 o2 b2 t b w s).2 = (cfgOf cx b t w s).2) := by
  unfold resolveTarget
  cases startsWith "cfg(".toList t.triple with
  | true => exact Or.inl rfl
  | false =>
    rw [if_neg (by decide), Act.lift_bind]
    cases (TargetAcc.start (targets.get t.triple)).applyEnv cx.env t.triple with
    | err e => exact Or.inl rfl
    | panic => exact Or.inl rfl
    | ok a =>
      dsimp only
      rw [Act.bind_def]
      have := cfgTables_cells (cx := cx) (b := b) (t := t) (w := w) (s := s) targets a
      generalize cfgTables cx b t targets a w s = x at this
      obtain ⟨r, s1⟩ := x
      cases r <;> exact this

/-- The cells after a target query. -/
theorem target_cells (c : EConfig) (t : TargetTriple) (w : World) (s : Cells) :
    ∃ s1, (s1 = s ∨ ((firstCfgKey c.deTarget).isSome = true ∧ s.target.get t.cliTarget = none ∧
        s1 = (cfgOf c.cx c.build t w s).2)) ∧
      (((c.target t w s).2 = s1 ∧ ∀ e, (c.target t w s).1 = .ok e → s.target.get t.cliTarget = some e) ∨
        ∃ e, s.target.get t.cliTarget = none ∧ (c.target t w s).1 = .ok e ∧
          (c.target t w s).2 = { s1 with target := s1.target.insert t.cliTarget e }) := by
  cases hs : s.target.get t.cliTarget with
  | some e =>
    rw [target_cached hs]
    exact ⟨s, Or.inl rfl, Or.inl ⟨rfl, fun e' h => by cases h; rfl⟩⟩
  | none =>
    rw [target_fresh hs]
    have := resolveTarget_cells (cx := c.cx) (targets := c.deTarget) (o1 := c.build.overrideTargetRustflags)
      (b1 := c.build.deRustflags) (o2 := c.build.overrideTargetRustdocflags) (b2 := c.build.deRustdocflags) (t := t)
      (b := c.build) (w := w) (s := s)
    generalize resolveTarget c.cx c.deTarget c.build.overrideTargetRustflags c.build.deRustflags
      c.build.overrideTargetRustdocflags c.build.deRustdocflags t c.build w s = x at this
    obtain ⟨r, s1⟩ := x
    refine ⟨s1, this.imp id (fun h => ⟨h.1, rfl, h.2⟩), ?_⟩
    cases r with
    | err e => exact Or.inl ⟨rfl, fun _ h => by cases h⟩
    | panic => exact Or.inl ⟨rfl, fun _ h => by cases h⟩
    | ok r =>
      dsimp only
      cases ETarget.fromUnresolved c.cx.currentDir (r.getD {}) with
      | err e => exact Or.inl ⟨rfl, fun _ h => by cases h⟩
      | panic => exact Or.inl ⟨rfl, fun _ h => by cases h⟩
      | ok e => exact Or.inr ⟨e, rfl, rfl, rfl⟩

theorem grows_target (c : EConfig) (t : TargetTriple) : Keeps Grows (c.target t) := by
  intro w s
  obtain ⟨s1, h1, h2⟩ := target_cells c t w s
  have hg : Grows s s1 ∧ s1.target = s.target := by
    rcases h1 with rfl | ⟨-, -, rfl⟩
    · exact ⟨grows_pre.refl _, rfl⟩
    · exact ⟨grows_cfgOf _ _ _ w s, (cfgOf_target w s).1⟩
  rcases h2 with ⟨h2, -⟩ | ⟨e, h3, -, h2⟩
  · rw [h2]; exact hg.1
  · rw [h2]
    refine grows_pre.trans hg.1 ⟨fun _ h => h, rfl, fun _ h => h, fun _ h => h, fun _ h => h, fun _ _ h => h,
      fun k e' hk => ?_, [], (List.append_nil _).symm⟩
    dsimp only
    rw [BMap.get_insert]
    split
    · rename_i ek; subst ek; rw [hg.2, h3] at hk; cases hk
    · exact hk

/-! ### The views -/

theorem map_bind_pure {α β γ : Type} (m : Act α) (g : α → β) (f : β → γ) :
    Act.map f (m >>= fun a => pure (g a)) = Act.map (fun a => f (g a)) m := by
  funext w s
  rw [Act.map_def, Act.map_def, Act.bind_def, Act.bind_def, Act.bind_def]
  generalize m w s = x
  obtain ⟨r, s1⟩ := x
  cases r <;> rfl

/-- The five target queries are views of `target`. -/
theorem ask_target {q : Query} (h : q.targetOf = some t) : c.ask q = (c.target t).map q.view := by
  cases q <;> simp only [Query.targetOf, Option.some.injEq] at h <;> (try cases h)
  · rfl
  · exact map_bind_pure (c.targetEntry _) _ _
  · exact map_bind_pure (c.targetEntry _) _ _
  · exact map_bind_pure (c.targetEntry _) _ _
  · exact map_bind_pure (c.targetEntry _) _ _

theorem map_fst {α β : Type} (f : α → β) (m : Act α) : (Act.map f m w s).1 = (m w s).1 >>= fun a => .ok (f a) := by
  unfold Act.map
  generalize m w s = x
  obtain ⟨r, s1⟩ := x
  cases r <;> rfl

theorem map_snd {α β : Type} (f : α → β) (m : Act α) : (Act.map f m w s).2 = (m w s).2 := by
  unfold Act.map
  generalize m w s = x
  obtain ⟨r, s1⟩ := x
  cases r <;> rfl

/-- A relation kept by all queries. -/
theorem keeps_ask {P : Cells → Cells → Prop} (hP : Pre P) (h1 : ∀ t, Keeps P (c.target t)) (h2 : Keeps P c.rustc)
    (h3 : Keeps P c.hostTriple) (h4 : Keeps P c.rustcVersion) (h5 : Keeps P c.cargoVersion) (q : Query) : Keeps P (c.ask q) := by
  cases ht : q.targetOf with
  | some t => rw [ask_target ht]; exact .map (h1 t) _
  | none =>
    cases q with
    | target t => cases ht
    | linker t => cases ht
    | runner t => cases ht
    | rustflags t => cases ht
    | rustdocflags t => cases ht
    | rustc => exact .map h2 _
    | hostTriple => exact .map h3 _
    | rustcVersion => exact .map h4 _
    | cargoVersion => exact .map h5 _
    | buildTargetForConfig ts =>
      refine .map ?_ _
      unfold EConfig.buildTargetForConfig
      split
      · exact .pure hP _
      · dsimp only
        split
        · exact .pure hP _
        · exact .bind hP h3 fun _ => .bind hP (.lift hP _) fun _ => .pure hP _
    | buildTargetForCli ts =>
      refine .map ?_ _
      unfold EConfig.buildTargetForCli
      split
      · exact .pure hP _
      · dsimp only
        split
        · exact .pure hP _
        · exact .pure hP _

theorem grows_ask (c : EConfig) (q : Query) : Keeps Grows (c.ask q) :=
  keeps_ask grows_pre (grows_target c) (grows_queryRustc _ _) (grows_queryHostTriple _ _) (grows_queryRustcVersion _ _)
    (grows_queryCargoVersion _ _) q

theorem keeps_after {P : Cells → Cells → Prop} (hP : Pre P) (w : World) (qs : List (EConfig × Query))
    (h : ∀ cq ∈ qs, Keeps P (cq.1.ask cq.2)) (s : Cells) : P s (afterQueries w qs s) := by
  induction qs generalizing s with
  | nil => exact hP.refl s
  | cons cq qs ih =>
    exact hP.trans (h cq List.mem_cons_self w s) (ih (fun x hx => h x (List.mem_cons_of_mem _ hx)) _)

theorem grows_after (w : World) (qs : List (EConfig × Query)) (s : Cells) : Grows s (afterQueries w qs s) :=
  keeps_after grows_pre w qs (fun _ _ => grows_ask _ _) s

/-- Queries that are not about targets do not touch the tables. -/
theorem ask_other_tables {q : Query} (h : q.targetOf = none) (w : World) (s : Cells) :
    (c.ask q w s).2.cfg = s.cfg ∧ (c.ask q w s).2.target = s.target := by
  let P : Cells → Cells → Prop := fun s s' => s'.cfg = s.cfg ∧ s'.target = s.target
  have hP : Pre P := ⟨fun _ => ⟨rfl, rfl⟩, fun h1 h2 => ⟨h2.1.trans h1.1, h2.2.trans h1.2⟩⟩
  have weaken : ∀ {α : Type} {m : Act α}, Keeps SameTables m → Keeps P m := fun h w s => ⟨(h w s).1, (h w s).2.1⟩
  have hr : Keeps P (queryRustc c.cx c.build) := by
    intro w s
    obtain ⟨r, n, h⟩ := queryRustc_total c.cx c.build w s
    rw [h]; exact ⟨rfl, rfl⟩
  have h3 := weaken (sameTables_queryHostTriple c.cx c.build)
  cases q with
  | target t => cases h
  | linker t => cases h
  | runner t => cases h
  | rustflags t => cases h
  | rustdocflags t => cases h
  | rustc => exact Keeps.map hr _ w s
  | hostTriple => exact Keeps.map h3 _ w s
  | rustcVersion => exact Keeps.map (weaken (sameTables_queryRustcVersion c.cx c.build)) _ w s
  | cargoVersion => exact Keeps.map (weaken (sameTables_queryCargoVersion c.cx c.build)) _ w s
  | buildTargetForConfig ts =>
    refine Keeps.map (P := P) (m := c.buildTargetForConfig ts) ?_ Answer.targets w s
    unfold EConfig.buildTargetForConfig
    split
    · exact .pure hP _
    · dsimp only
      split
      · exact .pure hP _
      · exact .bind hP h3 fun _ => .bind hP (.lift hP _) fun _ => .pure hP _
  | buildTargetForCli ts =>
    refine Keeps.map (P := P) (m := c.buildTargetForCli ts) ?_ Answer.strings w s
    unfold EConfig.buildTargetForCli
    split
    · exact .pure hP _
    · dsimp only
      split
      · exact .pure hP _
      · exact .pure hP _

/-- Resolving a target panics only if the parser does. -/
theorem resolveTarget_ne_panic {cx : Ctx} {targets : BMap TargetConfig} {o1 o2 : Bool} {b1 b2 : Option Flags} {b : EBuild}
    (hp : ∀ k v, (k, v) ∈ targets → isCfgKey k = true → Expression.parse w.checks k ≠ .panic) :
    (resolveTarget cx targets o1 b1 o2 b2 t b w s).1 ≠ .panic := by
  have hcfg : (cfgOf cx b t w s).1 ≠ .panic := by
    cases hc : s.cfg.get t.cliTarget with
    | some c => rw [cfgOf_cached hc]; intro h; cases h
    | none =>
      obtain ⟨r, n, h1, h2⟩ := cfgOf_fresh (cx := cx) (b := b) (w := w) hc
      rw [h2]
      unfold cfgAnswer
      refine Res.bind_ne_panic ?_ fun out _ => ?_
      · rcases procRead_cases (cfgCmd r t.cliTarget) (w.run n (cfgCmd r t.cliTarget)) with ⟨v, h⟩ | ⟨⟨e, h⟩, _⟩ <;> rw [h] <;>
          intro h <;> cases h
      · obtain ⟨c, hc⟩ := C42_no_panic out
        rw [hc]; intro h; cases h
  have heval : ∀ c (m : BMap TargetConfig) a,
      (∀ k v, (k, v) ∈ m → isCfgKey k = true → Expression.parse w.checks k ≠ .panic) → evalTables w.checks c m a ≠ .panic := by
    intro c m
    induction m with
    | nil => intro a _ h; cases h
    | cons e m ih =>
      intro a hm
      obtain ⟨k, v⟩ := e
      unfold evalTables
      have hm' : ∀ k v, (k, v) ∈ m → isCfgKey k = true → Expression.parse w.checks k ≠ .panic :=
        fun k v h => hm k v (List.mem_cons_of_mem _ h)
      cases hk : isCfgKey k with
      | false => rw [if_pos rfl]; exact ih a hm'
      | true =>
        rw [if_neg (by decide)]
        have := hm k v List.mem_cons_self hk
        cases hpk : Expression.parse w.checks k with
        | ok e => exact ih _ hm'
        | err e => intro h; cases h
        | panic => exact absurd hpk this
  have htab : ∀ a, (cfgTables cx b t targets a w s).1 ≠ .panic := by
    intro a
    rw [cfgTables_eq]
    cases hf : firstCfgKey targets with
    | none => intro h; cases h
    | some k =>
      have hk : ∃ v, (k, v) ∈ targets ∧ isCfgKey k = true := by
        unfold firstCfgKey at hf
        rw [Option.map_eq_some_iff] at hf
        obtain ⟨⟨k', v⟩, h1, rfl⟩ := hf
        exact ⟨v, List.mem_of_find?_eq_some h1, by simpa using List.find?_some h1⟩
      obtain ⟨v, hm, hk⟩ := hk
      dsimp only
      cases hpk : Expression.parse w.checks k with
      | err e => intro h; cases h
      | panic => exact absurd hpk (hp k v hm hk)
      | ok e =>
        dsimp only
        generalize cfgOf cx b t w s = x at hcfg
        obtain ⟨r, s1⟩ := x
        cases r with
        | ok c => exact heval c targets a hp
        | err e => intro h; cases h
        | panic => exact absurd rfl hcfg
  unfold resolveTarget
  cases startsWith "cfg(".toList t.triple with
  | true => intro h; cases h
  | false =>
    rw [if_neg (by decide), Act.lift_bind]
    have := targetEnv_ne_panic (env := cx.env) (triple := t.triple) (a := TargetAcc.start (targets.get t.triple))
    cases he : (TargetAcc.start (targets.get t.triple)).applyEnv cx.env t.triple with
    | err e => intro h; cases h
    | panic => exact absurd he this
    | ok a =>
      dsimp only
      rw [Act.bind_def]
      have := htab a
      generalize cfgTables cx b t targets a w s = x at this
      obtain ⟨r, s1⟩ := x
      cases r with
      | ok c => intro h; cases h
      | err e => intro h; cases h
      | panic => exact absurd rfl this

/-- Resolving a bad target does not succeed. -/
theorem resolveTarget_bad {cx : Ctx} {targets : BMap TargetConfig} {o1 o2 : Bool} {b1 b2 : Option Flags} {b : EBuild}
    (hb : BadTarget w.checks targets t) (r : Option TargetConfig) : (resolveTarget cx targets o1 b1 o2 b2 t b w s).1 ≠ .ok r := by
  intro h
  have h' : resolveTarget cx targets o1 b1 o2 b2 t b w s = (.ok r, (resolveTarget cx targets o1 b1 o2 b2 t b w s).2) := by rw [← h]
  obtain ⟨h1, a, a', -, h3, -⟩ := resolveTarget_ok h'
  obtain ⟨holds, h3, -⟩ := cfgTables_ok h3
  rcases hb with hb | ⟨k, v, hm, hk, hp⟩
  · rw [h1] at hb; cases hb
  · obtain ⟨cs, -, x, hx, -⟩ := h3 k v hm hk
    exact hp x hx

end CC
