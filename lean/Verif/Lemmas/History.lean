import Verif.Lemmas.QuerySeq
import Verif.Props.Target
/-
What queries return does not depend on earlier queries.
-/
namespace CC

variable {cx : Ctx} {b : EBuild} {t : TargetTriple} {w : World} {s s' : Cells} {c : EConfig}

/-- The program for the compiler, given which paths exist. -/
def rustcFound (cx : Ctx) (b : EBuild) (exist : Path → Bool) : Path :=
  match b.rustc with
  | some p => p
  | none =>
    if exist (Path.join (Path.pop cx.cargo.path) "rustc".toList) then Path.join (Path.pop cx.cargo.path) "rustc".toList
    else "rustc".toList

theorem rustcProgram_eq (cx : Ctx) (b : EBuild) (w : World) (s : Cells) :
    ∃ n, s.clock ≤ n ∧ rustcProgram cx b w s = (.ok (rustcFound cx b (w.exist s.clock)), { s with clock := n }) := by
  unfold rustcProgram rustcFound
  cases b.rustc with
  | some p => exact ⟨s.clock, Nat.le_refl _, rfl⟩
  | none =>
    refine ⟨s.clock + 1, Nat.le_succ _, ?_⟩
    dsimp only
    unfold rustcPath
    rw [Act.bind_def]
    cases he : w.exist s.clock (Path.join (Path.pop cx.cargo.path) "rustc".toList) with
    | true => simp only [Act.exist, he, if_pos]; rfl
    | false => simp only [Act.exist, he]; rfl

/-- What `rustc` returns. -/
def rustcAnswer (cx : Ctx) (b : EBuild) (exist : Path → Bool) (cell : Option EPathAndArgs) : EPathAndArgs :=
  match cell with
  | some r => r
  | none => wrapped (b.rustcWrapper.toList ++ b.rustcWorkspaceWrapper.toList) (rustcFound cx b exist)

theorem queryRustc_eq (cx : Ctx) (b : EBuild) (w : World) (s : Cells) :
    (queryRustc cx b w s).1 = .ok (rustcAnswer cx b (w.exist s.clock) s.rustc) := by
  unfold queryRustc rustcAnswer
  rw [Act.cells_bind]
  cases s.rustc with
  | some r => rfl
  | none =>
    obtain ⟨n, hn, h⟩ := rustcProgram_eq cx b w s
    dsimp only
    rw [Act.bind_of_ok h]
    rfl

/-- The outcome of `resolve_target` depends on the cells only through the outcome of `cfgOf`. -/
theorem cfgTables_congr {s1 s2 : Cells} (h : (cfgOf cx b t w s1).1 = (cfgOf cx b t w s2).1) (m : BMap TargetConfig) (a : TargetAcc) :
    (cfgTables cx b t m a w s1).1 = (cfgTables cx b t m a w s2).1 := by
  rw [cfgTables_eq, cfgTables_eq]
  cases firstCfgKey m with
  | none => rfl
  | some k =>
    dsimp only
    cases Expression.parse w.checks k with
    | err e => rfl
    | panic => rfl
    | ok e =>
      dsimp only
      generalize cfgOf cx b t w s1 = x1 at h
      generalize cfgOf cx b t w s2 = x2 at h
      obtain ⟨r1, u1⟩ := x1
      obtain ⟨r2, u2⟩ := x2
      dsimp only at h
      subst h
      cases r1 <;> rfl

theorem resolveTarget_congr {s1 s2 : Cells} (h : (cfgOf cx b t w s1).1 = (cfgOf cx b t w s2).1) {targets : BMap TargetConfig}
    {o1 o2 : Bool} {b1 b2 : Option Flags} :
    (resolveTarget cx targets o1 b1 o2 b2 t b w s1).1 = (resolveTarget cx targets o1 b1 o2 b2 t b w s2).1 := by
  unfold resolveTarget
  cases startsWith "cfg(".toList t.triple with
  | true => rfl
  | false =>
    rw [if_neg (by decide), Act.lift_bind, Act.lift_bind]
    cases (TargetAcc.start (targets.get t.triple)).applyEnv cx.env t.triple with
    | err e => rfl
    | panic => rfl
    | ok a =>
      dsimp only
      rw [Act.bind_def, Act.bind_def]
      have := cfgTables_congr h targets a
      generalize cfgTables cx b t targets a w s1 = x1 at this
      generalize cfgTables cx b t targets a w s2 = x2 at this
      obtain ⟨r1, u1⟩ := x1
      obtain ⟨r2, u2⟩ := x2
      dsimp only at this
      subst this
      cases r1 <;> rfl

theorem target_congr {s1 s2 : Cells} (h1 : s1.target.get t.cliTarget = none) (h2 : s2.target.get t.cliTarget = none)
    (h : (cfgOf c.cx c.build t w s1).1 = (cfgOf c.cx c.build t w s2).1) : (c.target t w s1).1 = (c.target t w s2).1 := by
  rw [target_fresh h1, target_fresh h2]
  have := resolveTarget_congr h (targets := c.deTarget) (o1 := c.build.overrideTargetRustflags)
    (b1 := c.build.deRustflags) (o2 := c.build.overrideTargetRustdocflags) (b2 := c.build.deRustdocflags)
  generalize resolveTarget c.cx c.deTarget c.build.overrideTargetRustflags c.build.deRustflags
    c.build.overrideTargetRustdocflags c.build.deRustdocflags t c.build w s1 = x1 at this
  generalize resolveTarget c.cx c.deTarget c.build.overrideTargetRustflags c.build.deRustflags
    c.build.overrideTargetRustdocflags c.build.deRustdocflags t c.build w s2 = x2 at this
  obtain ⟨r1, u1⟩ := x1
  obtain ⟨r2, u2⟩ := x2
  dsimp only at this
  subst this
  cases r1 with
  | err e => rfl
  | panic => rfl
  | ok r =>
    dsimp only
    cases ETarget.fromUnresolved c.cx.currentDir (r.getD {}) <;> rfl

/-- The rustc cell after a query: as before, or what `rustc` returns. -/
theorem ask_rustc (c : EConfig) (q : Query) (w : World) (s : Cells) : (c.ask q w s).2.rustc = s.rustc ∨
    (c.ask q w s).2.rustc = some (rustcAnswer c.cx c.build (w.exist s.clock) s.rustc) := by
  cases ht : q.targetOf with
  | some t =>
    rw [ask_target ht, map_snd]
    obtain ⟨s1, h1, h2⟩ := target_cells c t w s
    have h3 : s1.rustc = s.rustc ∨ s1.rustc = some (rustcAnswer c.cx c.build (w.exist s.clock) s.rustc) := by
      rcases h1 with rfl | ⟨-, -, rfl⟩
      · exact Or.inl rfl
      · cases hc : s.cfg.get t.cliTarget with
        | some x => rw [cfgOf_cached hc]; exact Or.inl rfl
        | none =>
          obtain ⟨r, n, h4, h5⟩ := cfgOf_fresh (cx := c.cx) (b := c.build) (w := w) hc
          rw [h5]
          right
          have h6 := queryRustc_eq c.cx c.build w s
          rw [h4] at h6
          rw [← Res.ok.inj h6]
    rcases h2 with ⟨h2, -⟩ | ⟨e, -, -, h2⟩
    · rw [h2]; exact h3
    · rw [h2]; exact h3
  | none =>
    let P : Cells → Cells → Prop := fun s s' => s'.rustc = s.rustc
    have hP : Pre P := ⟨fun _ => rfl, fun h1 h2 => Eq.trans h2 h1⟩
    have weaken : ∀ {α : Type} {m : Act α}, Keeps SameTables m → Keeps P m := fun h w s => (h w s).2.2
    have h3 := weaken (sameTables_queryHostTriple c.cx c.build)
    cases q with
    | target t => cases ht
    | linker t => cases ht
    | runner t => cases ht
    | rustflags t => cases ht
    | rustdocflags t => cases ht
    | rustc =>
      right
      obtain ⟨r, n, h4⟩ := queryRustc_total c.cx c.build w s
      have h6 := queryRustc_eq c.cx c.build w s
      rw [h4] at h6
      show (Act.map _ (queryRustc c.cx c.build) w s).2.rustc = _
      rw [map_snd, h4, ← Res.ok.inj h6]
    | hostTriple => exact Or.inl (Keeps.map h3 _ w s)
    | rustcVersion => exact Or.inl (Keeps.map (weaken (sameTables_queryRustcVersion c.cx c.build)) _ w s)
    | cargoVersion => exact Or.inl (Keeps.map (weaken (sameTables_queryCargoVersion c.cx c.build)) _ w s)
    | buildTargetForConfig ts =>
      refine Or.inl (Keeps.map (P := P) (m := c.buildTargetForConfig ts) ?_ Answer.targets w s)
      unfold EConfig.buildTargetForConfig
      split
      · exact .pure hP _
      · dsimp only
        split
        · exact .pure hP _
        · exact .bind hP h3 fun _ => .bind hP (.lift hP _) fun _ => .pure hP _
    | buildTargetForCli ts =>
      refine Or.inl (Keeps.map (P := P) (m := c.buildTargetForCli ts) ?_ Answer.strings w s)
      unfold EConfig.buildTargetForCli
      split
      · exact .pure hP _
      · dsimp only
        split
        · exact .pure hP _
        · exact .pure hP _

/-- What is true of the cells after any queries, if the world is steady. -/
structure Consistent (c : EConfig) (w : World) (s0 s : Cells) : Prop where
  rustc : rustcAnswer c.cx c.build (w.exist 0) s.rustc = rustcAnswer c.cx c.build (w.exist 0) s0.rustc
  cfg : ∀ k x, s.cfg.get k = some x →
    cfgAnswer (cfgCmd (rustcAnswer c.cx c.build (w.exist 0) s0.rustc) k) (w.run 0 (cfgCmd (rustcAnswer c.cx c.build (w.exist 0) s0.rustc) k)) = .ok x
  target : ∀ t, Constructed t → ∀ e, s.target.get t.cliTarget = some e → (c.target t w s0).1 = .ok e

theorem Consistent.cfgOf {s0 : Cells} (hw : Steady w) (h : Consistent c w s0 s) (t : TargetTriple) :
    (cfgOf c.cx c.build t w s).1 =
      cfgAnswer (cfgCmd (rustcAnswer c.cx c.build (w.exist 0) s0.rustc) t.cliTarget)
        (w.run 0 (cfgCmd (rustcAnswer c.cx c.build (w.exist 0) s0.rustc) t.cliTarget)) := by
  cases hc : s.cfg.get t.cliTarget with
  | some x => rw [cfgOf_cached hc, h.cfg _ _ hc]
  | none =>
    obtain ⟨r, n, h1, h2⟩ := cfgOf_fresh (cx := c.cx) (b := c.build) (w := w) hc
    have h3 := queryRustc_eq c.cx c.build w s
    rw [h1, (hw s.clock 0).2, h.rustc] at h3
    rw [h2, ← Res.ok.inj h3, (hw n 0).1]

theorem Consistent.start {s0 : Cells} (h : Fresh s0) : Consistent c w s0 s0 :=
  ⟨rfl, (fun k x hk => by rw [h.2] at hk; cases hk), (fun t _ e he => by rw [h.1] at he; cases he)⟩

theorem Consistent.answer {s0 : Cells} (hw : Steady w) (h0 : Fresh s0) (h : Consistent c w s0 s) (ht : Constructed t) :
    (c.target t w s).1 = (c.target t w s0).1 := by
  cases hs : s.target.get t.cliTarget with
  | some e => rw [target_cached hs, h.target t ht e hs]
  | none =>
    refine target_congr hs (by rw [h0.1]; rfl) ?_
    rw [h.cfgOf hw, (Consistent.start h0).cfgOf hw]

theorem Consistent.next {s0 : Cells} (hw : Steady w) (h0 : Fresh s0) (h : Consistent c w s0 s) {q : Query} (hq : q.Proper) :
    Consistent c w s0 (c.ask q w s).2 := by
  refine ⟨?_, ?_, ?_⟩
  · rcases ask_rustc c q w s with h1 | h1
    · rw [h1]; exact h.rustc
    · rw [h1, (hw s.clock 0).2]; exact h.rustc
  · intro k x hk
    cases ht : q.targetOf with
    | none => rw [(ask_other_tables ht w s).1] at hk; exact h.cfg k x hk
    | some t =>
      rw [ask_target ht, map_snd] at hk
      obtain ⟨s1, h1, h2⟩ := target_cells c t w s
      have hk1 : s1.cfg.get k = some x := by
        rcases h2 with ⟨h2, -⟩ | ⟨e, -, -, h2⟩ <;> rw [h2] at hk <;> exact hk
      rcases h1 with rfl | ⟨-, -, rfl⟩
      · exact h.cfg k x hk1
      · have h3 := h.cfgOf hw t
        cases hc : s.cfg.get t.cliTarget with
        | some y => rw [cfgOf_cached hc] at hk1; exact h.cfg k x hk1
        | none =>
          obtain ⟨r, n, -, h5⟩ := cfgOf_fresh (cx := c.cx) (b := c.build) (w := w) hc
          rw [h5] at hk1 h3
          dsimp only at hk1 h3
          rw [h3] at hk1
          split at hk1
          · rename_i y hy
            rw [BMap.get_insert] at hk1
            split at hk1
            · rename_i e
              rw [← e, hy, Option.some.inj hk1]
            · exact h.cfg k x hk1
          · exact h.cfg k x hk1
  · intro u hu e he
    cases ht : q.targetOf with
    | none => rw [(ask_other_tables ht w s).2] at he; exact h.target u hu e he
    | some t =>
      rw [ask_target ht, map_snd] at he
      obtain ⟨s1, h1, h2⟩ := target_cells c t w s
      have hst : s1.target = s.target := by
        rcases h1 with rfl | ⟨-, -, rfl⟩
        · rfl
        · exact (cfgOf_target w s).1
      rcases h2 with ⟨h2, -⟩ | ⟨e', h3, h4, h2⟩
      · rw [h2, hst] at he; exact h.target u hu e he
      · rw [h2] at he
        dsimp only at he
        rw [BMap.get_insert, hst] at he
        split at he
        · rename_i hk
          have := C17_equal_same u t hu (hq t ht) ((C17_eq_iff u t).2 hk.symm)
          subst this
          rw [← Option.some.inj he, ← h.answer hw h0 hu, h4]
        · exact h.target u hu e he

theorem Consistent.after {s0 : Cells} (hw : Steady w) (h0 : Fresh s0) (qs : List Query) (hq : ∀ q ∈ qs, q.Proper) (s : Cells)
    (h : Consistent c w s0 s) : Consistent c w s0 (afterAll c w qs s) := by
  induction qs generalizing s with
  | nil => exact h
  | cons q qs ih =>
    exact ih (fun x hx => hq x (List.mem_cons_of_mem _ hx)) _ (h.next hw h0 (hq q List.mem_cons_self))

/-! ### Commands -/

/-- Only commands with the property `P` were run. -/
def Adds (P : Cmd → Prop) (s s' : Cells) : Prop := ∃ l, s'.trace = s.trace ++ l ∧ ∀ x ∈ l, P x

theorem adds_pre (P : Cmd → Prop) : Pre (Adds P) where
  refl s := ⟨[], (List.append_nil _).symm, by simp⟩
  trans := by
    rintro a b c ⟨l1, h1, p1⟩ ⟨l2, h2, p2⟩
    refine ⟨l1 ++ l2, by rw [h2, h1, List.append_assoc], fun x hx => ?_⟩
    rcases List.mem_append.1 hx with hx | hx
    · exact p1 x hx
    · exact p2 x hx

/-- A command that asks for the version. -/
def AsksVersion (x : Cmd) : Prop := ∃ p, p.length ≤ 1 ∧ x.args = p ++ ["-vV".toList]

theorem adds_same {P : Cmd → Prop} {α : Type} {m : Act α} (h : ∀ w s, (m w s).2.trace = s.trace) : Keeps (Adds P) m :=
  fun w s => ⟨[], by rw [h, List.append_nil], by simp⟩

theorem adds_read {P : Cmd → Prop} (x : Cmd) (hx : P x) : Keeps (Adds P) (Act.read x) :=
  fun w s => ⟨[x], rfl, by simpa using hx⟩

theorem adds_rustcForVersion {P : Cmd → Prop} (cx : Ctx) (b : EBuild) : Keeps (Adds P) (rustcForVersion cx b) := by
  refine adds_same fun w s => ?_
  obtain ⟨n, hn, h⟩ := rustcProgram_eq cx b w s
  unfold rustcForVersion
  rw [Act.bind_of_ok h]
  rfl

theorem rustcForVersion_eq (cx : Ctx) (b : EBuild) (w : World) (s : Cells) : ∃ n, s.clock ≤ n ∧ rustcForVersion cx b w s =
    (.ok (wrapped b.rustcWrapper.toList (rustcFound cx b (w.exist s.clock))), { s with clock := n }) := by
  obtain ⟨n, hn, h⟩ := rustcProgram_eq cx b w s
  refine ⟨n, hn, ?_⟩
  unfold rustcForVersion
  rw [Act.bind_of_ok h]
  rfl

theorem wrapped_args (b : EBuild) (p : Path) : (wrapped b.rustcWrapper.toList p).args.length ≤ 1 := by
  cases b.rustcWrapper <;> simp [wrapped]

/-- Asking rustc for its version, and going on. -/
theorem adds_rustcVersion {α : Type} (cx : Ctx) (b : EBuild) {f : EPathAndArgs → Str → Act α} (hf : ∀ r x, Keeps (Adds AsksVersion) (f r x)) :
    Keeps (Adds AsksVersion) (rustcForVersion cx b >>= fun r => verboseVersion r >>= f r) := by
  intro w s
  obtain ⟨n, hn, h⟩ := rustcForVersion_eq cx b w s
  rw [Act.bind_of_ok h]
  have := Keeps.bind (adds_pre AsksVersion)
    (adds_read ((wrapped b.rustcWrapper.toList (rustcFound cx b (w.exist s.clock))).cmd ["-vV".toList])
      ⟨_, wrapped_args _ _, rfl⟩) (hf (wrapped b.rustcWrapper.toList (rustcFound cx b (w.exist s.clock)))) w { s with clock := n }
  exact this

theorem adds_setCargoVersion {P : Cmd → Prop} (v : CargoVersion) : Keeps (Adds P) (setCargoVersion v) := by
  refine adds_same fun w s => ?_
  unfold setCargoVersion
  rw [Act.cells_bind]
  cases s.cargoVersion <;> rfl

theorem adds_setRustcVersion {P : Cmd → Prop} (v : RustcVersion) : Keeps (Adds P) (setRustcVersion v) := by
  refine adds_same fun w s => ?_
  unfold setRustcVersion
  rw [Act.cells_bind]
  cases s.rustcVersion <;> rfl

theorem adds_hostFromCargo (cx : Ctx) : Keeps (Adds AsksVersion) (hostFromCargo cx) :=
  .bind (adds_pre _) (adds_read _ ⟨[], by simp, rfl⟩) fun _ => .bind (adds_pre _) (.lift (adds_pre _) _) fun _ =>
    .bind (adds_pre _) (adds_setCargoVersion _) fun _ => .lift (adds_pre _) _

theorem adds_hostFromRustc (cx : Ctx) (b : EBuild) : Keeps (Adds AsksVersion) (hostFromRustc cx b) :=
  adds_rustcVersion cx b fun _ _ => .bind (adds_pre _) (.lift (adds_pre _) _) fun _ =>
    .bind (adds_pre _) (adds_setRustcVersion _) fun _ => .lift (adds_pre _) _

theorem adds_queryHostTriple (cx : Ctx) (b : EBuild) : Keeps (Adds AsksVersion) (queryHostTriple cx b) := by
  intro w s
  cases hs : s.hostTriple with
  | some h => rw [queryHostTriple_set hs]; exact (adds_pre _).refl s
  | none =>
    rw [queryHostTriple_unset hs]
    have h1 := keeps_findHost (adds_pre AsksVersion) (adds_hostFromCargo cx) (adds_hostFromRustc cx b) w s
    generalize findHost cx b w s = x at h1
    obtain ⟨r, s1⟩ := x
    cases r <;> exact h1

theorem adds_queryRustcVersion (cx : Ctx) (b : EBuild) : Keeps (Adds AsksVersion) (queryRustcVersion cx b) := by
  intro w s
  cases hs : s.rustcVersion with
  | some h => rw [queryRustcVersion_set hs]; exact (adds_pre _).refl s
  | none =>
    rw [queryRustcVersion_unset hs]
    have h1 := Keeps.attempt (adds_queryHostTriple cx b) w s
    generalize Act.attempt (queryHostTriple cx b) w s = x at h1
    obtain ⟨r, s1⟩ := x
    cases r with
    | err e => exact h1
    | panic => exact h1
    | ok o =>
      dsimp only
      cases hv : s1.rustcVersion with
      | some v => exact h1
      | none =>
        dsimp only
        have h2 : Adds AsksVersion s1 (askRustcVersion cx b w s1).2 :=
          adds_rustcVersion cx b (fun _ _ => .lift (adds_pre _) _) w s1
        generalize askRustcVersion cx b w s1 = y at h2
        obtain ⟨r, s2⟩ := y
        cases r <;> exact (adds_pre _).trans h1 h2

theorem adds_queryCargoVersion (cx : Ctx) (b : EBuild) : Keeps (Adds AsksVersion) (queryCargoVersion cx b) := by
  intro w s
  cases hs : s.cargoVersion with
  | some h => rw [queryCargoVersion_set hs]; exact (adds_pre _).refl s
  | none =>
    rw [queryCargoVersion_unset hs]
    have h1 := Keeps.attempt (adds_queryHostTriple cx b) w s
    generalize Act.attempt (queryHostTriple cx b) w s = x at h1
    obtain ⟨r, s1⟩ := x
    cases r with
    | err e => exact h1
    | panic => exact h1
    | ok o =>
      dsimp only
      cases hv : s1.cargoVersion with
      | some v => exact h1
      | none =>
        dsimp only
        have h2 : Adds AsksVersion s1 (askCargoVersion cx w s1).2 :=
          Keeps.bind (adds_pre _) (adds_read _ ⟨[], by simp, rfl⟩) (fun _ => .lift (adds_pre _) _) w s1
        generalize askCargoVersion cx w s1 = y at h2
        obtain ⟨r, s2⟩ := y
        cases r <;> exact (adds_pre _).trans h1 h2

/-- Queries that are not about targets ask only for versions. -/
theorem ask_other_adds {q : Query} (h : q.targetOf = none) (w : World) (s : Cells) :
    Adds AsksVersion s (c.ask q w s).2 := by
  have hP := adds_pre AsksVersion
  have h3 := adds_queryHostTriple c.cx c.build
  cases q with
  | target t => cases h
  | linker t => cases h
  | runner t => cases h
  | rustflags t => cases h
  | rustdocflags t => cases h
  | rustc =>
    obtain ⟨r, n, h4⟩ := queryRustc_total c.cx c.build w s
    show Adds AsksVersion s (Act.map _ (queryRustc c.cx c.build) w s).2
    rw [map_snd, h4]
    exact ⟨[], (List.append_nil _).symm, by simp⟩
  | hostTriple => exact Keeps.map h3 _ w s
  | rustcVersion => exact Keeps.map (adds_queryRustcVersion c.cx c.build) _ w s
  | cargoVersion => exact Keeps.map (adds_queryCargoVersion c.cx c.build) _ w s
  | buildTargetForConfig ts =>
    refine Keeps.map (P := Adds AsksVersion) (m := c.buildTargetForConfig ts) ?_ Answer.targets w s
    unfold EConfig.buildTargetForConfig
    split
    · exact .pure hP _
    · dsimp only
      split
      · exact .pure hP _
      · exact .bind hP h3 fun _ => .bind hP (.lift hP _) fun _ => .pure hP _
  | buildTargetForCli ts =>
    refine Keeps.map (P := Adds AsksVersion) (m := c.buildTargetForCli ts) ?_ Answer.strings w s
    unfold EConfig.buildTargetForCli
    split
    · exact .pure hP _
    · dsimp only
      split
      · exact .pure hP _
      · exact .pure hP _

theorem asksVersion_not_cfg {k : Str} {x : Cmd} (h : AsksVersion x) : ¬ AsksCfg k x := by
  rintro ⟨pre, hc⟩
  obtain ⟨p, hp, hv⟩ := h
  rw [hc] at hv
  have := congrArg List.length hv
  simp only [List.length_append, List.length_cons, List.length_nil] at this
  omega

/-- The cfg set or the settings of the target `k` are known. -/
def Known (k : Str) (s : Cells) : Prop := (s.cfg.get k).isSome = true ∨ (s.target.get k).isSome = true

theorem known_grows {k : Str} (h : Grows s s') (hk : Known k s) : Known k s' := by
  rcases hk with hk | hk
  · obtain ⟨x, hx⟩ := Option.isSome_iff_exists.1 hk
    exact Or.inl (by rw [h.cfg _ _ hx]; rfl)
  · obtain ⟨x, hx⟩ := Option.isSome_iff_exists.1 hk
    exact Or.inr (by rw [h.target _ _ hx]; rfl)

/-- For a known target the compiler is not asked again. -/
theorem ask_known {k : Str} (hk : Known k s) (c : EConfig) (q : Query) (w : World) :
    Adds (fun x => ¬ AsksCfg k x) s (c.ask q w s).2 := by
  cases ht : q.targetOf with
  | none =>
    obtain ⟨l, h1, h2⟩ := ask_other_adds (c := c) ht w s
    exact ⟨l, h1, fun x hx => asksVersion_not_cfg (h2 x hx)⟩
  | some t =>
    rw [ask_target ht, map_snd]
    obtain ⟨s1, h1, h2⟩ := target_cells c t w s
    have h3 : Adds (fun x => ¬ AsksCfg k x) s s1 := by
      rcases h1 with rfl | ⟨-, hn, rfl⟩
      · exact (adds_pre _).refl _
      · cases hc : s.cfg.get t.cliTarget with
        | some y => rw [cfgOf_cached hc]; exact (adds_pre _).refl _
        | none =>
          obtain ⟨r, n, -, h5⟩ := cfgOf_fresh (cx := c.cx) (b := c.build) (w := w) hc
          rw [h5]
          refine ⟨[cfgCmd r t.cliTarget], rfl, fun x hx => ?_⟩
          rw [List.mem_singleton] at hx
          subst hx
          rintro ⟨pre, hp⟩
          have he : t.cliTarget = k := by
            have := congrArg List.getLast? hp
            simp only [cfgCmd, EPathAndArgs.cmd, List.getLast?_append, List.getLast?_cons_cons, List.getLast?_singleton,
              Option.some_or, Option.some.injEq] at this
            exact this
          subst he
          rcases hk with hk | hk
          · rw [hc] at hk; cases hk
          · rw [hn] at hk; cases hk
    rcases h2 with ⟨h2, -⟩ | ⟨e, -, -, h2⟩
    · rw [h2]; exact h3
    · rw [h2]; exact h3

theorem after_known {k : Str} (hk : Known k s) (w : World) (qs : List (EConfig × Query)) :
    Adds (fun x => ¬ AsksCfg k x) s (afterQueries w qs s) := by
  induction qs generalizing s with
  | nil => exact (adds_pre _).refl s
  | cons cq qs ih =>
    obtain ⟨c, q⟩ := cq
    exact (adds_pre _).trans (ask_known hk c q w) (ih (known_grows (grows_ask c q w s) hk))

end CC
