import Verif.Lemmas.Tools
import Verif.Lemmas.History
import Verif.Spec.AllQueries
/-
What the queries for the host triple and the versions return in a world that does not change.
-/
namespace CC

variable {w : World} {s s' s0 : Cells} {c : EConfig}

/-- What the output of cargo says about its version and about the host. -/
def cargoVersionSays (cm : Cmd) (o : ProcOut) : Res CargoVersion := procRead cm o >>= cargoVersionOf cm
def cargoHostSays (cm : Cmd) (o : ProcOut) : Res Str :=
  procRead cm o >>= fun vv => cargoVersionOf cm vv >>= fun _ => hostTripleOf cm vv

/-- What the output of the compiler says about its version and about the host. -/
def rustcVersionSays (cm : Cmd) (o : ProcOut) : Res RustcVersion := procRead cm o >>= rustcVersionOf cm
def rustcHostSays (cm : Cmd) (o : ProcOut) : Res Str :=
  procRead cm o >>= fun vv => rustcVersionOf cm vv >>= fun _ => hostTripleOf cm vv

theorem cargoPart_says (w : World) (cm : Cmd) (o : ProcOut) (s : Cells) :
    ((cargoPart w cm o s).1 = .panic ∨ (cargoPart w cm o s).1 = cargoHostSays cm o) ∧
    (∀ v, (cargoPart w cm o s).2.cargoVersion = some v → s.cargoVersion = some v ∨ cargoVersionSays cm o = .ok v) ∧
    (cargoPart w cm o s).2.rustcVersion = s.rustcVersion ∧ (cargoPart w cm o s).2.hostTriple = s.hostTriple := by
  unfold cargoPart cargoHostSays cargoVersionSays
  cases procRead cm o with
  | panic => exact ⟨Or.inl rfl, fun v h => Or.inl h, rfl, rfl⟩
  | err e => exact ⟨Or.inr rfl, fun v h => Or.inl h, rfl, rfl⟩
  | ok vv =>
    simp only [Res.ok_bind]
    cases cargoVersionOf cm vv with
    | panic => exact ⟨Or.inl rfl, fun v h => Or.inl h, rfl, rfl⟩
    | err e => exact ⟨Or.inr rfl, fun v h => Or.inl h, rfl, rfl⟩
    | ok v =>
      dsimp only
      cases hs : s.cargoVersion with
      | some y =>
        refine ⟨?_, fun v h => Or.inl (by rw [← hs]; exact h), rfl, rfl⟩
        dsimp only
        split
        · exact Or.inl rfl
        · exact Or.inr rfl
      | none => exact ⟨Or.inr rfl, fun v' h => Or.inr (by cases h; rfl), rfl, rfl⟩

theorem rustcPart_says (w : World) (cm : Cmd) (o : ProcOut) (s : Cells) :
    ((rustcPart w cm o s).1 = .panic ∨ (rustcPart w cm o s).1 = rustcHostSays cm o) ∧
    (∀ v, (rustcPart w cm o s).2.rustcVersion = some v → s.rustcVersion = some v ∨ rustcVersionSays cm o = .ok v) ∧
    (rustcPart w cm o s).2.cargoVersion = s.cargoVersion ∧ (rustcPart w cm o s).2.hostTriple = s.hostTriple := by
  unfold rustcPart rustcHostSays rustcVersionSays
  cases procRead cm o with
  | panic => exact ⟨Or.inl rfl, fun v h => Or.inl h, rfl, rfl⟩
  | err e => exact ⟨Or.inr rfl, fun v h => Or.inl h, rfl, rfl⟩
  | ok vv =>
    simp only [Res.ok_bind]
    cases rustcVersionOf cm vv with
    | panic => exact ⟨Or.inl rfl, fun v h => Or.inl h, rfl, rfl⟩
    | err e => exact ⟨Or.inr rfl, fun v h => Or.inl h, rfl, rfl⟩
    | ok v =>
      dsimp only
      cases hs : s.rustcVersion with
      | some y =>
        refine ⟨?_, fun v h => Or.inl (by rw [← hs]; exact h), rfl, rfl⟩
        dsimp only
        split
        · exact Or.inl rfl
        · exact Or.inr rfl
      | none => exact ⟨Or.inr rfl, fun v' h => Or.inr (by cases h; rfl), rfl, rfl⟩

/-! ### The answers of a world that does not change -/

def steadyCargo (c : EConfig) (w : World) : Res CargoVersion := cargoVersionSays (cargoVV c) (w.run 0 (cargoVV c))
def steadyRustc (c : EConfig) (w : World) : Res RustcVersion :=
  rustcVersionSays (rustcVV c (w.exist 0)) (w.run 0 (rustcVV c (w.exist 0)))
def steadyHost (c : EConfig) (w : World) : Res Str :=
  match cargoHostSays (cargoVV c) (w.run 0 (cargoVV c)) with
  | .ok h => .ok h
  | _ => rustcHostSays (rustcVV c (w.exist 0)) (w.run 0 (rustcVV c (w.exist 0)))

/-- The host triple that was given, or else what the tools say. -/
def knownHost (c : EConfig) (w : World) (s0 : Cells) : Res Str :=
  match s0.hostTriple with
  | some h => .ok h
  | none => steadyHost c w

/-- What is stored is what the tools say. -/
structure ToolsTrue (c : EConfig) (w : World) (s0 s : Cells) : Prop where
  set : ∀ h, s.hostTriple = some h → knownHost c w s0 = .ok h
  unset : s.hostTriple = none → s0.hostTriple = none
  cargo : ∀ v, s.cargoVersion = some v → steadyCargo c w = .ok v
  rustc : ∀ v, s.rustcVersion = some v → steadyRustc c w = .ok v

theorem ToolsTrue.start (h1 : s0.cargoVersion = none) (h2 : s0.rustcVersion = none) : ToolsTrue c w s0 s0 :=
  ⟨fun h hs => (by unfold knownHost; rw [hs]), id, fun v h => (by rw [h1] at h; cases h), fun v h => (by rw [h2] at h; cases h)⟩

theorem ToolsTrue.same (h : ToolsTrue c w s0 s) (h1 : s'.hostTriple = s.hostTriple) (h2 : s'.cargoVersion = s.cargoVersion)
    (h3 : s'.rustcVersion = s.rustcVersion) : ToolsTrue c w s0 s' :=
  ⟨fun x hx => h.set x (by rw [← h1]; exact hx), fun hx => h.unset (by rw [← h1]; exact hx),
    fun x hx => h.cargo x (by rw [← h2]; exact hx), fun x hx => h.rustc x (by rw [← h3]; exact hx)⟩

theorem findHost_steady (hw : Steady w) (h : ToolsTrue c w s0 s) :
    ((findHost c.cx c.build w s).1 = .panic ∨ (findHost c.cx c.build w s).1 = steadyHost c w) ∧
    ToolsTrue c w s0 (findHost c.cx c.build w s).2 := by
  unfold findHost
  rw [Act.bind_def]
  unfold Act.attempt
  rw [hostFromCargo_eq, (hw s.clock 0).1]
  obtain ⟨a1, a2, a3, a4⟩ := cargoPart_says w (cargoVV c) (w.run 0 (cargoVV c))
    { s with clock := s.clock + 1, trace := s.trace ++ [cargoVV c] }
  generalize cargoPart w (cargoVV c) (w.run 0 (cargoVV c)) { s with clock := s.clock + 1, trace := s.trace ++ [cargoVV c] } = x
    at a1 a2 a3 a4
  obtain ⟨r, s1⟩ := x
  dsimp only at a1 a2 a3 a4
  have t1 : ToolsTrue c w s0 s1 := by
    refine ⟨fun y hy => h.set y (by rw [← a4]; exact hy), fun hy => h.unset (by rw [← a4]; exact hy), fun v hv => ?_,
      fun y hy => h.rustc y (by rw [← a3]; exact hy)⟩
    rcases a2 v hv with h1 | h1
    · exact h.cargo v h1
    · exact h1
  cases r with
  | panic => exact ⟨Or.inl rfl, t1⟩
  | ok y =>
    rcases a1 with a1 | a1
    · cases a1
    · exact ⟨Or.inr (by unfold steadyHost; rw [← a1]; rfl), t1⟩
  | err e =>
    rcases a1 with a1 | a1
    · cases a1
    · dsimp only
      obtain ⟨n, -, hr⟩ := hostFromRustc_eq c w s1
      rw [hr, (hw s1.clock 0).2, (hw n 0).1]
      obtain ⟨b1, b2, b3, b4⟩ := rustcPart_says w (rustcVV c (w.exist 0)) (w.run 0 (rustcVV c (w.exist 0)))
        { s1 with clock := n + 1, trace := s1.trace ++ [rustcVV c (w.exist 0)] }
      refine ⟨?_, fun y hy => t1.set y (by rw [b4] at hy; exact hy), fun hy => t1.unset (by rw [b4] at hy; exact hy),
        fun y hy => t1.cargo y (by rw [b3] at hy; exact hy), fun v hv => ?_⟩
      · unfold steadyHost
        rw [← a1]
        exact b1
      · rcases b2 v hv with h1 | h1
        · exact t1.rustc v h1
        · exact h1

theorem host_steady (hw : Steady w) (h : ToolsTrue c w s0 s) :
    ((queryHostTriple c.cx c.build w s).1 = .panic ∨ (queryHostTriple c.cx c.build w s).1 = knownHost c w s0) ∧
    ToolsTrue c w s0 (queryHostTriple c.cx c.build w s).2 := by
  cases hs : s.hostTriple with
  | some y =>
    rw [queryHostTriple_set hs]
    exact ⟨Or.inr (h.set y hs).symm, h⟩
  | none =>
    have hk : knownHost c w s0 = steadyHost c w := by unfold knownHost; rw [h.unset hs]
    rw [queryHostTriple_unset hs]
    obtain ⟨h1, h2⟩ := findHost_steady hw h
    generalize findHost c.cx c.build w s = x at h1 h2
    obtain ⟨r, s1⟩ := x
    cases r with
    | panic => exact ⟨Or.inl rfl, h2⟩
    | err e => exact ⟨by rw [hk]; exact h1, h2⟩
    | ok y =>
      have hy : knownHost c w s0 = .ok y := by
        rcases h1 with h1 | h1
        · cases h1
        · rw [hk]; exact h1.symm
      exact ⟨Or.inr hy.symm, fun z hz => (by cases hz; exact hy), fun hz => (by cases hz), h2.cargo, h2.rustc⟩

theorem attemptHost_steady (hw : Steady w) (h : ToolsTrue c w s0 s) :
    ToolsTrue c w s0 (Act.attempt (queryHostTriple c.cx c.build) w s).2 ∧
    ∀ e, (Act.attempt (queryHostTriple c.cx c.build) w s).1 ≠ .err e := by
  have h2 := (host_steady hw h).2
  unfold Act.attempt
  generalize queryHostTriple c.cx c.build w s = x at h2
  obtain ⟨r, s1⟩ := x
  cases r <;> exact ⟨h2, fun e h => by cases h⟩

theorem askRustcVersion_steady (hw : Steady w) (s : Cells) : ∃ n, askRustcVersion c.cx c.build w s =
    (steadyRustc c w, { s with clock := n + 1, trace := s.trace ++ [rustcVV c (w.exist 0)] }) := by
  obtain ⟨n, hn, h⟩ := rustcForVersion_eq c.cx c.build w s
  refine ⟨n, ?_⟩
  unfold askRustcVersion verboseVersion
  rw [Act.bind_of_ok h]
  have hc : (wrapped c.build.rustcWrapper.toList (rustcFound c.cx c.build (w.exist s.clock))).vvCmd =
    rustcVV c (w.exist s.clock) := rfl
  rw [hc, Act.bind_def, Act.read_def, (hw s.clock 0).2]
  dsimp only
  rw [(hw n 0).1]
  unfold steadyRustc rustcVersionSays
  cases procRead (rustcVV c (w.exist 0)) (w.run 0 (rustcVV c (w.exist 0))) <;> rfl

theorem askCargoVersion_steady (hw : Steady w) (s : Cells) : askCargoVersion c.cx w s =
    (steadyCargo c w, { s with clock := s.clock + 1, trace := s.trace ++ [cargoVV c] }) := by
  unfold askCargoVersion verboseVersion
  have hc : EPathAndArgs.vvCmd { path := c.cx.cargo.path, args := [] } = cargoVV c := rfl
  rw [hc, Act.bind_def, Act.read_def, (hw s.clock 0).1]
  unfold steadyCargo cargoVersionSays
  cases procRead (cargoVV c) (w.run 0 (cargoVV c)) <;> rfl

theorem rustcVersion_steady (hw : Steady w) (h : ToolsTrue c w s0 s) :
    ((queryRustcVersion c.cx c.build w s).1 = .panic ∨ (queryRustcVersion c.cx c.build w s).1 = steadyRustc c w) ∧
    ToolsTrue c w s0 (queryRustcVersion c.cx c.build w s).2 := by
  cases hs : s.rustcVersion with
  | some y =>
    rw [queryRustcVersion_set hs]
    exact ⟨Or.inr (h.rustc y hs).symm, h⟩
  | none =>
    rw [queryRustcVersion_unset hs]
    obtain ⟨h1, h2⟩ := attemptHost_steady hw h
    generalize Act.attempt (queryHostTriple c.cx c.build) w s = x at h1 h2
    obtain ⟨r, s1⟩ := x
    cases r with
    | panic => exact ⟨Or.inl rfl, h1⟩
    | err e => exact absurd rfl (h2 e)
    | ok o =>
      dsimp only at h1 ⊢
      cases hs1 : s1.rustcVersion with
      | some v => exact ⟨Or.inr (h1.rustc v hs1).symm, h1⟩
      | none =>
        obtain ⟨n, hn⟩ := askRustcVersion_steady (c := c) hw s1
        rw [hn]
        cases hr : steadyRustc c w with
        | panic => exact ⟨Or.inl rfl, h1.same rfl rfl rfl⟩
        | err e => exact ⟨Or.inr rfl, h1.same rfl rfl rfl⟩
        | ok v => exact ⟨Or.inr rfl, h1.set, h1.unset, h1.cargo, fun z hz => by cases hz; exact hr⟩

theorem cargoVersion_steady (hw : Steady w) (h : ToolsTrue c w s0 s) :
    ((queryCargoVersion c.cx c.build w s).1 = .panic ∨ (queryCargoVersion c.cx c.build w s).1 = steadyCargo c w) ∧
    ToolsTrue c w s0 (queryCargoVersion c.cx c.build w s).2 := by
  cases hs : s.cargoVersion with
  | some y =>
    rw [queryCargoVersion_set hs]
    exact ⟨Or.inr (h.cargo y hs).symm, h⟩
  | none =>
    rw [queryCargoVersion_unset hs]
    obtain ⟨h1, h2⟩ := attemptHost_steady hw h
    generalize Act.attempt (queryHostTriple c.cx c.build) w s = x at h1 h2
    obtain ⟨r, s1⟩ := x
    cases r with
    | panic => exact ⟨Or.inl rfl, h1⟩
    | err e => exact absurd rfl (h2 e)
    | ok o =>
      dsimp only at h1 ⊢
      cases hs1 : s1.cargoVersion with
      | some v => exact ⟨Or.inr (h1.cargo v hs1).symm, h1⟩
      | none =>
        rw [askCargoVersion_steady hw s1]
        cases hr : steadyCargo c w with
        | panic => exact ⟨Or.inl rfl, h1.same rfl rfl rfl⟩
        | err e => exact ⟨Or.inr rfl, h1.same rfl rfl rfl⟩
        | ok v => exact ⟨Or.inr rfl, h1.set, h1.unset, fun z hz => (by cases hz; exact hr), h1.rustc⟩

/-- What `build_target_for_config` returns, given the host triple. -/
def configTargets (c : EConfig) (host : Res Str) (ts : List TargetTriple) : Res (List TargetTriple) :=
  if !ts.isEmpty then .ok ts
  else if !(c.build.target.getD []).isEmpty then .ok (c.build.target.getD [])
  else host >>= fun h => TargetTriple.ofStr h >>= fun t => .ok [t]

theorem buildTargetForConfig_fst (c : EConfig) (ts : List TargetTriple) (w : World) (s : Cells) :
    (c.buildTargetForConfig ts w s).1 = configTargets c (queryHostTriple c.cx c.build w s).1 ts ∧
    ((c.buildTargetForConfig ts w s).2 = s ∨ (c.buildTargetForConfig ts w s).2 = (queryHostTriple c.cx c.build w s).2) := by
  unfold EConfig.buildTargetForConfig configTargets
  split
  · exact ⟨rfl, Or.inl rfl⟩
  · dsimp only
    split
    · exact ⟨rfl, Or.inl rfl⟩
    · rw [Act.bind_def]
      unfold EConfig.hostTriple
      generalize queryHostTriple c.cx c.build w s = x
      obtain ⟨r, s1⟩ := x
      cases r with
      | panic => exact ⟨rfl, Or.inr rfl⟩
      | err e => exact ⟨rfl, Or.inr rfl⟩
      | ok h =>
        dsimp only
        rw [Act.lift_bind, Res.ok_bind]
        cases TargetTriple.ofStr h <;> exact ⟨rfl, Or.inr rfl⟩

theorem configTargets_panic (c : EConfig) {r1 r2 : Res Str} (ts : List TargetTriple) (h : r1 = .panic ∨ r1 = r2) :
    configTargets c r1 ts = .panic ∨ configTargets c r1 ts = configTargets c r2 ts := by
  rcases h with rfl | rfl
  · unfold configTargets
    split
    · exact Or.inr rfl
    · split
      · exact Or.inr rfl
      · exact Or.inl rfl
  · exact Or.inr rfl

/-- The cells of the host triple and the versions are not changed by a target query. -/
theorem target_keeps (c : EConfig) (t : TargetTriple) (w : World) (s : Cells) :
    (c.target t w s).2.hostTriple = s.hostTriple ∧ (c.target t w s).2.cargoVersion = s.cargoVersion ∧
    (c.target t w s).2.rustcVersion = s.rustcVersion := by
  obtain ⟨s1, h1, h2⟩ := target_cells c t w s
  have h3 : s1.hostTriple = s.hostTriple ∧ s1.cargoVersion = s.cargoVersion ∧ s1.rustcVersion = s.rustcVersion := by
    rcases h1 with rfl | ⟨-, -, rfl⟩
    · exact ⟨rfl, rfl, rfl⟩
    · cases hc : s.cfg.get t.cliTarget with
      | some x => rw [cfgOf_cached hc]; exact ⟨rfl, rfl, rfl⟩
      | none =>
        obtain ⟨r, n, h4, h5⟩ := cfgOf_fresh (cx := c.cx) (b := c.build) (w := w) hc
        rw [h5]; exact ⟨rfl, rfl, rfl⟩
  rcases h2 with ⟨h2, -⟩ | ⟨e, -, -, h2⟩
  · rw [h2]; exact h3
  · rw [h2]; exact h3

theorem ToolsTrue.next (hw : Steady w) (h : ToolsTrue c w s0 s) (q : Query) : ToolsTrue c w s0 (c.ask q w s).2 := by
  cases ht : q.targetOf with
  | some t =>
    rw [ask_target ht, map_snd]
    obtain ⟨h1, h2, h3⟩ := target_keeps c t w s
    exact h.same h1 h2 h3
  | none =>
    cases q with
    | target t => cases ht
    | linker t => cases ht
    | runner t => cases ht
    | rustflags t => cases ht
    | rustdocflags t => cases ht
    | rustc =>
      obtain ⟨r, n, h4⟩ := queryRustc_total c.cx c.build w s
      show ToolsTrue c w s0 (Act.map _ (queryRustc c.cx c.build) w s).2
      rw [map_snd, h4]
      exact h.same rfl rfl rfl
    | hostTriple =>
      show ToolsTrue c w s0 (Act.map _ (queryHostTriple c.cx c.build) w s).2
      rw [map_snd]; exact (host_steady hw h).2
    | rustcVersion =>
      show ToolsTrue c w s0 (Act.map _ (queryRustcVersion c.cx c.build) w s).2
      rw [map_snd]; exact (rustcVersion_steady hw h).2
    | cargoVersion =>
      show ToolsTrue c w s0 (Act.map _ (queryCargoVersion c.cx c.build) w s).2
      rw [map_snd]; exact (cargoVersion_steady hw h).2
    | buildTargetForConfig ts =>
      show ToolsTrue c w s0 (Act.map _ (c.buildTargetForConfig ts) w s).2
      rw [map_snd]
      rcases (buildTargetForConfig_fst c ts w s).2 with h1 | h1 <;> rw [h1]
      · exact h
      · exact (host_steady hw h).2
    | buildTargetForCli ts =>
      show ToolsTrue c w s0 (Act.map _ (c.buildTargetForCli ts) w s).2
      rw [map_snd]
      have : (c.buildTargetForCli ts w s).2 = s := by
        unfold EConfig.buildTargetForCli
        split
        · rfl
        · dsimp only
          split <;> rfl
      rw [this]; exact h

/-- The two invariants together. -/
structure Settled (c : EConfig) (w : World) (s0 s : Cells) : Prop where
  tables : Consistent c w s0 s
  tools : ToolsTrue c w s0 s

theorem Settled.start (h : Untouched s0) : Settled c w s0 s0 := ⟨.start h.fresh, .start h.cargo h.rustc⟩

theorem Settled.next (hw : Steady w) (h0 : Untouched s0) (h : Settled c w s0 s) {q : Query} (hq : q.Proper) :
    Settled c w s0 (c.ask q w s).2 := ⟨h.tables.next hw h0.fresh hq, h.tools.next hw q⟩

theorem panic_or_map {α β : Type} {r1 r2 r3 : Res α} (f : α → β) (h1 : r1 = .panic ∨ r1 = r3) (h2 : r2 = .panic ∨ r2 = r3)
    (h3 : r2 ≠ .panic) : (r1 >>= fun a => .ok (f a)) = .panic ∨ (r1 >>= fun a => .ok (f a)) = (r2 >>= fun a => .ok (f a)) := by
  rcases h1 with rfl | rfl
  · exact Or.inl rfl
  · rcases h2 with rfl | rfl
    · exact absurd rfl h3
    · exact Or.inr rfl

end CC
