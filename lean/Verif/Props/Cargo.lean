import Verif.Props.Rustc
import Verif.Props.EndToEnd
/-
The cargo that is used and its version: C60, C61.
-/
namespace CC

variable {w : World} {s s' : Cells} {c : EConfig}

/-! ### C60 -/

theorem fromUnresolved_cx {de : Config} {cx : Ctx} (h : EConfig.fromUnresolved de cx = .ok c) : c.cx = cx := by
  unfold EConfig.fromUnresolved at h
  simp only [Res.bind_eq_ok] at h
  obtain ⟨_, _, _, _, _, _, _, _, h⟩ := h
  rw [← Res.ok.inj h]

/-- C60: the cargo given with `ResolveOptions::cargo`, else the variable `CARGO`, else `cargo`. -/
theorem C60_cargo {p : ProcEnv} {fs : Fs} {parse : Str → Res Config} {cwd : Path} {o : Options} {look : Str → Option OsStr}
    (he : EnvOf p o look) (hl : EConfig.loadWithOptions p fs parse cwd o = .ok (c, s)) :
    (∀ x, o.cargo = some x → c.cargo = x) ∧
    (o.cargo = none → ∀ x, look "CARGO".toList = some x → c.cargo = x) ∧
    (o.cargo = none → look "CARGO".toList = none → c.cargo = .unicode "cargo".toList) := by
  have hc : c.cargo = (o.intoContext p cwd).1.cargo := by
    unfold EConfig.loadWithOptions at hl
    dsimp only at hl
    simp only [Res.bind_eq_ok] at hl
    obtain ⟨de, -, c', h, hl⟩ := hl
    rw [← (Prod.mk.inj (Res.ok.inj hl)).1]
    unfold EConfig.cargo
    rw [fromUnresolved_cx h]
  have hlook : Env.get (o.intoContext p cwd).1.env "CARGO".toList = look "CARGO".toList := by
    unfold EnvOf at he
    unfold Options.intoContext
    cases ho : o.env with
    | some e =>
      rw [ho] at he
      dsimp only at he
      simp only [ho, Option.isNone_some, Bool.false_eq_true, if_false, Option.getD_some, he]
    | none =>
      rw [ho] at he
      have h1 : CargoVariable "CARGO".toList := Or.inl ⟨[], rfl⟩
      simp only [ho, Option.isNone_none, if_true, Options.withEnv, Option.getD_some]
      rw [(he _).1 h1]
      exact C18_lookup _ h1
  have hd : (o.intoContext p cwd).1.cargo =
      o.cargo.getD ((Env.get (o.intoContext p cwd).1.env "CARGO".toList).getD (.unicode "cargo".toList)) := by
    unfold Options.intoContext Options.withEnv
    cases he : o.env <;> cases hc : o.cargo <;> simp [he, hc]
  rw [hc, hd, hlook]
  refine ⟨fun x h => by rw [h]; rfl, fun h x h' => by rw [h, h']; rfl, fun h h' => by rw [h, h']; rfl⟩

/-! ### C61 -/

theorem cargoPart_cargo (o : ProcOut) (v : CargoVersion) (h : (cargoPart w cm o s).2.cargoVersion = some v) :
    s.cargoVersion = some v ∨ CargoReports o v := by
  rw [cargoReports_iff (cm := cm)]
  unfold cargoPart at h
  cases ho : procRead cm o with
  | err e => rw [ho] at h; exact Or.inl h
  | panic => rw [ho] at h; exact Or.inl h
  | ok vv =>
    rw [ho] at h
    dsimp only at h
    cases hv : cargoVersionOf cm vv with
    | err e => rw [hv] at h; exact Or.inl h
    | panic => rw [hv] at h; exact Or.inl h
    | ok v' =>
      rw [hv] at h
      dsimp only at h
      cases hs : s.cargoVersion with
      | some x => rw [hs] at h; dsimp only at h; rw [hs] at h; exact Or.inl h
      | none => rw [hs] at h; cases h; exact Or.inr ⟨vv, rfl, hv⟩

theorem rustcPart_cargo (o : ProcOut) : (rustcPart w cm o s).2.cargoVersion = s.cargoVersion := by
  unfold rustcPart
  cases procRead cm o with
  | err e => rfl
  | panic => rfl
  | ok vv =>
    dsimp only
    cases rustcVersionOf cm vv with
    | err e => rfl
    | panic => rfl
    | ok v =>
      dsimp only
      cases s.rustcVersion <;> rfl

theorem queryHostTriple_cargo (c : EConfig) (w : World) (s : Cells) (v : CargoVersion)
    (h : (queryHostTriple c.cx c.build w s).2.cargoVersion = some v) :
    s.cargoVersion = some v ∨ ∃ n, CargoReports (w.run n (cargoVV c)) v := by
  cases hs : s.hostTriple with
  | some x => rw [queryHostTriple_set hs] at h; exact Or.inl h
  | none =>
    rw [queryHostTriple_unset hs] at h
    have h1 : (findHost c.cx c.build w s).2.cargoVersion = some v := by
      generalize findHost c.cx c.build w s = x at h
      obtain ⟨r, s1⟩ := x
      cases r <;> exact h
    unfold findHost at h1
    rw [Act.bind_def] at h1
    unfold Act.attempt at h1
    rw [hostFromCargo_eq] at h1
    have h2 := cargoPart_cargo (w := w) (cm := cargoVV c) (s := { s with clock := s.clock + 1, trace := s.trace ++ [cargoVV c] })
      (w.run s.clock (cargoVV c)) v
    generalize cargoPart w (cargoVV c) (w.run s.clock (cargoVV c)) { s with clock := s.clock + 1, trace := s.trace ++ [cargoVV c] } = x
      at h1 h2
    obtain ⟨r, s1⟩ := x
    dsimp only at h2
    have fin : s1.cargoVersion = some v → s.cargoVersion = some v ∨ ∃ n, CargoReports (w.run n (cargoVV c)) v :=
      fun h => (h2 h).imp id fun h => ⟨_, h⟩
    cases r with
    | ok x => exact fin h1
    | panic => exact fin h1
    | err e =>
      dsimp only at h1
      obtain ⟨n, -, h3⟩ := hostFromRustc_eq c w s1
      rw [h3, rustcPart_cargo] at h1
      exact fin h1

/-- The version stored by a query is one that cargo reported. -/
theorem ask_cargo (c : EConfig) (q : Query) (w : World) (s : Cells) (v : CargoVersion)
    (h : (c.ask q w s).2.cargoVersion = some v) :
    s.cargoVersion = some v ∨ ∃ n, CargoReports (w.run n (cargoVV c)) v := by
  have hhost := queryHostTriple_cargo c w s v
  cases ht : q.targetOf with
  | some t =>
    left
    rw [ask_target ht, map_snd] at h
    obtain ⟨s1, h1, h2⟩ := target_cells c t w s
    have h3 : s1.cargoVersion = some v := by
      rcases h2 with ⟨h2, -⟩ | ⟨e, -, -, h2⟩ <;> rw [h2] at h <;> exact h
    rcases h1 with rfl | ⟨-, -, rfl⟩
    · exact h3
    · rw [← (cfgOf_target w s).2.2.2]; exact h3
  | none =>
    cases q with
    | target t => cases ht
    | linker t => cases ht
    | runner t => cases ht
    | rustflags t => cases ht
    | rustdocflags t => cases ht
    | rustc =>
      left
      obtain ⟨r, n, h4⟩ := queryRustc_total c.cx c.build w s
      have : (Act.map Answer.rustc (queryRustc c.cx c.build) w s).2.cargoVersion = some v := h
      rw [map_snd, h4] at this
      exact this
    | hostTriple =>
      have : (Act.map Answer.host (queryHostTriple c.cx c.build) w s).2.cargoVersion = some v := h
      rw [map_snd] at this
      exact hhost this
    | cargoVersion =>
      have h : (Act.map Answer.cargoVersion (queryCargoVersion c.cx c.build) w s).2.cargoVersion = some v := h
      rw [map_snd] at h
      cases hs : s.cargoVersion with
      | some v' => rw [queryCargoVersion_set hs] at h; left; rw [← hs]; exact h
      | none =>
        rw [queryCargoVersion_unset hs] at h
        rw [← hs]
        unfold Act.attempt at h
        generalize queryHostTriple c.cx c.build w s = x at h hhost
        obtain ⟨r, s1⟩ := x
        have key : (match s1.cargoVersion with
            | some v => ((.ok v : Res CargoVersion), s1)
            | none =>
              match askCargoVersion c.cx w s1 with
              | (.ok v, s2) => (.ok v, { s2 with cargoVersion := some v })
              | (.err e, s2) => (.err e, s2)
              | (.panic, s2) => (.panic, s2)).2.cargoVersion = some v →
            s.cargoVersion = some v ∨ ∃ n, CargoReports (w.run n (cargoVV c)) v := by
          intro h
          cases hv : s1.cargoVersion with
          | some v' => rw [hv] at h; exact hhost h
          | none =>
            rw [hv] at h
            dsimp only at h
            obtain ⟨h1, h2⟩ := askCargoVersion_cases c w s1
            generalize askCargoVersion c.cx w s1 = y at h h1 h2
            obtain ⟨r, s2⟩ := y
            dsimp only at h1 h2
            rcases h1 with ⟨v', rfl, h3⟩ | ⟨⟨e, rfl⟩, -⟩
            · cases h; exact Or.inr ⟨_, h3⟩
            · dsimp only at h; rw [h2] at h; dsimp only at h; rw [hv] at h; cases h
        cases r with
        | ok x => exact key h
        | err e => exact key h
        | panic => exact hhost h
    | rustcVersion =>
      have h : (Act.map Answer.rustcVersion (queryRustcVersion c.cx c.build) w s).2.cargoVersion = some v := h
      rw [map_snd] at h
      cases hs : s.rustcVersion with
      | some v' => rw [queryRustcVersion_set hs] at h; left; exact h
      | none =>
        rw [queryRustcVersion_unset hs] at h
        unfold Act.attempt at h
        generalize queryHostTriple c.cx c.build w s = x at h hhost
        obtain ⟨r, s1⟩ := x
        have key : (match s1.rustcVersion with
            | some v => ((.ok v : Res RustcVersion), s1)
            | none =>
              match askRustcVersion c.cx c.build w s1 with
              | (.ok v, s2) => (.ok v, { s2 with rustcVersion := some v })
              | (.err e, s2) => (.err e, s2)
              | (.panic, s2) => (.panic, s2)).2.cargoVersion = some v →
            s.cargoVersion = some v ∨ ∃ n, CargoReports (w.run n (cargoVV c)) v := by
          intro h
          cases hv : s1.rustcVersion with
          | some v' => rw [hv] at h; exact hhost h
          | none =>
            rw [hv] at h
            dsimp only at h
            obtain ⟨n, -, h1, h2⟩ := askRustcVersion_cases c w s1
            generalize askRustcVersion c.cx c.build w s1 = y at h h1 h2
            obtain ⟨r, s2⟩ := y
            dsimp only at h1 h2
            rcases h1 with ⟨v', rfl, h3⟩ | ⟨⟨e, rfl⟩, -⟩ <;> dsimp only at h <;> rw [h2] at h <;> exact hhost h
        cases r with
        | ok x => exact key h
        | err e => exact key h
        | panic => exact hhost h
    | buildTargetForConfig ts =>
      have h : (Act.map Answer.targets (c.buildTargetForConfig ts) w s).2.cargoVersion = some v := h
      rw [map_snd] at h
      unfold EConfig.buildTargetForConfig at h
      split at h
      · exact Or.inl h
      · dsimp only at h
        split at h
        · exact Or.inl h
        · rw [Act.bind_def] at h
          unfold EConfig.hostTriple at h
          generalize queryHostTriple c.cx c.build w s = x at h hhost
          obtain ⟨r, s1⟩ := x
          cases r with
          | ok x =>
            dsimp only at h
            rw [Act.lift_bind] at h
            generalize TargetTriple.ofStr x = y at h
            cases y <;> exact hhost h
          | err e => exact hhost h
          | panic => exact hhost h
    | buildTargetForCli ts =>
      have h : (Act.map Answer.strings (c.buildTargetForCli ts) w s).2.cargoVersion = some v := h
      rw [map_snd] at h
      unfold EConfig.buildTargetForCli at h
      split at h
      · exact Or.inl h
      · dsimp only at h
        split at h <;> exact Or.inl h

theorem after_cargo (qs : List Query) (v : CargoVersion) (h : (afterAll c w qs s).cargoVersion = some v) :
    s.cargoVersion = some v ∨ ∃ n, CargoReports (w.run n (cargoVV c)) v := by
  induction qs generalizing s with
  | nil => exact Or.inl h
  | cons q qs ih =>
    rcases ih (s := (c.ask q w s).2) h with h | h
    · exact ask_cargo c q w s v h
    · exact Or.inr h

/-- C61: the version returned was reported by `cargo -vV`, whatever was asked before. -/
theorem C61_reported (hs : s.cargoVersion = none) (qs : List Query) {v : CargoVersion}
    (h : (c.cargoVersion w (afterAll c w qs s)).1 = .ok v) :
    ∃ n, CargoReports (w.run n ⟨c.cargo.path, ["-vV".toList]⟩) v := by
  have h2 : (c.ask .cargoVersion w (afterAll c w qs s)).2.cargoVersion = some v := by
    show (Act.map Answer.cargoVersion (c.cargoVersion) w (afterAll c w qs s)).2.cargoVersion = some v
    rw [map_snd]
    exact cargoVersion_stored h
  rcases ask_cargo c _ w _ v h2 with h3 | h3
  · rcases after_cargo qs v h3 with h4 | h4
    · rw [hs] at h4; cases h4
    · exact h4
  · exact h3

/-- C61: if the tools do not change, the version is returned exactly if cargo reports one. -/
theorem C61_succeeds_iff (hw : Steady w) (hs : s.cargoVersion = none) (hv : w.checks = false ∨ s.rustcVersion = none)
    (v : CargoVersion) :
    (c.cargoVersion w s).1 = .ok v ↔ CargoReports (w.run 0 ⟨c.cargo.path, ["-vV".toList]⟩) v := by
  have steady : ∀ n, w.run n (cargoVV c) = w.run 0 ⟨c.cargo.path, ["-vV".toList]⟩ := fun n => by
    rw [(hw n 0).1]; rfl
  have uniq : ∀ {o v v'}, CargoReports o v → CargoReports o v' → v = v' := by
    intro o v v' h h'
    rw [cargoReports_iff (cm := ⟨[], []⟩)] at h h'
    obtain ⟨a, h1, h2⟩ := h
    obtain ⟨b, h3, h4⟩ := h'
    cases h1.symm.trans h3
    exact Res.ok.inj (h2.symm.trans h4)
  have fwd : ∀ v, (c.cargoVersion w s).1 = .ok v → CargoReports (w.run 0 ⟨c.cargo.path, ["-vV".toList]⟩) v := by
    intro v h
    obtain ⟨n, h⟩ := C61_reported (c := c) hs [] h
    rwa [(hw n 0).1] at h
  refine ⟨fwd v, fun hr => ?_⟩
  have hcan : CanSet w s := hv.imp id fun h => ⟨hs, h⟩
  suffices h : ∃ v', (c.cargoVersion w s).1 = .ok v' by
    obtain ⟨v', h⟩ := h
    rw [h, uniq (fwd v' h) hr]
  unfold EConfig.cargoVersion
  rw [queryCargoVersion_unset hs]
  have hp := host_no_panic (c := c) hcan
  unfold Act.attempt
  generalize queryHostTriple c.cx c.build w s = y at hp
  obtain ⟨r, s1⟩ := y
  have key : ∃ v', (match s1.cargoVersion with
      | some v => ((.ok v : Res CargoVersion), s1)
      | none =>
        match askCargoVersion c.cx w s1 with
        | (.ok v, s2) => (.ok v, { s2 with cargoVersion := some v })
        | (.err e, s2) => (.err e, s2)
        | (.panic, s2) => (.panic, s2)).1 = .ok v' := by
    cases s1.cargoVersion with
    | some v' => exact ⟨v', rfl⟩
    | none =>
      dsimp only
      obtain ⟨h1, -⟩ := askCargoVersion_cases c w s1
      rw [steady] at h1
      generalize askCargoVersion c.cx w s1 = z at h1
      obtain ⟨r, s2⟩ := z
      dsimp only at h1
      rcases h1 with ⟨v', rfl, -⟩ | ⟨-, h3⟩
      · exact ⟨v', rfl⟩
      · exact absurd hr (h3 v)
  cases r with
  | ok x => exact key
  | err e => exact key
  | panic => exact absurd rfl hp

-- a config loaded with `CARGO=/tc/bin/cargo`, and one whose tools report a version
example : EnvOf { vars := [(.unicode "CARGO".toList, .unicode "/tc/bin/cargo".toList)] } {} (fun n =>
    if n = "CARGO".toList then some (.unicode "/tc/bin/cargo".toList) else none) ∧
    (EConfig.loadWithOptions { vars := [(.unicode "CARGO".toList, .unicode "/tc/bin/cargo".toList)] } noFiles
      (fun _ => .ok {}) "/w".toList {}).toOption.map (fun x => x.1.cargo) = some (.unicode "/tc/bin/cargo".toList) := by
  refine ⟨fun n => ⟨fun _ => ?_, fun hn => ?_⟩, by decide +kernel⟩
  · by_cases h : n = "CARGO".toList
    · subst h; decide
    · have h' : ((OsStr.unicode "CARGO".toList) == OsStr.unicode n) = false := by
        rw [beq_eq_false_iff_ne]
        exact fun h2 => h (OsStr.unicode.inj h2).symm
      show (if n = "CARGO".toList then _ else _) = _
      rw [if_neg h]
      simp only [lastValue, List.filter, h']
      rfl
  · show (if n = "CARGO".toList then _ else _) = _
    rw [if_neg]
    rintro rfl
    exact hn (Or.inl ⟨[], rfl⟩)

example : (plainConfig.cargoVersion usualWorld {}).1.toOption = some ⟨1, 84, 0, false⟩ := by decide +kernel

end CC
