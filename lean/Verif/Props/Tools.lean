import Verif.Lemmas.Tools
import Verif.Props.Queries
/-
The host triple, the versions, the compiler and the targets to build: C44, C45, C46, C47, C48, C49.
-/
namespace CC

variable {w : World} {s s' : Cells} {c : EConfig}

/-! ### C44 -/

theorem host_stored {x : Str} (h : (c.hostTriple w s).1 = .ok x) : (c.hostTriple w s).2.hostTriple = some x := by
  unfold EConfig.hostTriple at h ⊢
  cases hs : s.hostTriple with
  | some y => rw [queryHostTriple_set hs] at h ⊢; rw [hs, Res.ok.inj h]
  | none =>
    rw [queryHostTriple_unset hs] at h ⊢
    generalize findHost c.cx c.build w s = y at h
    obtain ⟨r, s1⟩ := y
    cases r with
    | ok y => rw [Res.ok.inj h]
    | err e => cases h
    | panic => cases h

theorem rustcVersion_stored {x : RustcVersion} (h : (c.rustcVersion w s).1 = .ok x) :
    (c.rustcVersion w s).2.rustcVersion = some x := by
  unfold EConfig.rustcVersion at h ⊢
  cases hs : s.rustcVersion with
  | some y => rw [queryRustcVersion_set hs] at h ⊢; rw [hs, Res.ok.inj h]
  | none =>
    rw [queryRustcVersion_unset hs] at h ⊢
    generalize Act.attempt (queryHostTriple c.cx c.build) w s = y at h
    obtain ⟨r, s1⟩ := y
    cases r with
    | err e => cases h
    | panic => cases h
    | ok y =>
      dsimp only at h ⊢
      cases hv : s1.rustcVersion with
      | some v => rw [hv] at h; dsimp only at h ⊢; rw [hv, Res.ok.inj h]
      | none =>
        rw [hv] at h
        dsimp only at h ⊢
        generalize askRustcVersion c.cx c.build w s1 = z at h
        obtain ⟨r, s2⟩ := z
        cases r with
        | err e => cases h
        | panic => cases h
        | ok v => rw [Res.ok.inj h]

theorem cargoVersion_stored {x : CargoVersion} (h : (c.cargoVersion w s).1 = .ok x) :
    (c.cargoVersion w s).2.cargoVersion = some x := by
  unfold EConfig.cargoVersion at h ⊢
  cases hs : s.cargoVersion with
  | some y => rw [queryCargoVersion_set hs] at h ⊢; rw [hs, Res.ok.inj h]
  | none =>
    rw [queryCargoVersion_unset hs] at h ⊢
    generalize Act.attempt (queryHostTriple c.cx c.build) w s = y at h
    obtain ⟨r, s1⟩ := y
    cases r with
    | err e => cases h
    | panic => cases h
    | ok y =>
      dsimp only at h ⊢
      cases hv : s1.cargoVersion with
      | some v => rw [hv] at h; dsimp only at h ⊢; rw [hv, Res.ok.inj h]
      | none =>
        rw [hv] at h
        dsimp only at h ⊢
        generalize askCargoVersion c.cx w s1 = z at h
        obtain ⟨r, s2⟩ := z
        cases r with
        | err e => cases h
        | panic => cases h
        | ok v => rw [Res.ok.inj h]

/-- C44: once the host triple was returned, all later calls return the same, without running anything, whatever was asked in between
and however the tools (`w'`) and the public fields (`c'`) changed. -/
theorem C44_host {x : Str} (h : (c.hostTriple w s).1 = .ok x) (qs : List (EConfig × Query)) (c' : EConfig) (w' : World) :
    c'.hostTriple w' (afterQueries w qs (c.hostTriple w s).2) = (.ok x, afterQueries w qs (c.hostTriple w s).2) :=
  queryHostTriple_set ((grows_after w qs _).hostTriple _ (host_stored h))

/-- C44 for the version of the compiler. -/
theorem C44_rustc_version {x : RustcVersion} (h : (c.rustcVersion w s).1 = .ok x) (qs : List (EConfig × Query)) (c' : EConfig)
    (w' : World) :
    c'.rustcVersion w' (afterQueries w qs (c.rustcVersion w s).2) = (.ok x, afterQueries w qs (c.rustcVersion w s).2) :=
  queryRustcVersion_set ((grows_after w qs _).rustcVersion _ (rustcVersion_stored h))

/-- C44 for the version of cargo. -/
theorem C44_cargo_version {x : CargoVersion} (h : (c.cargoVersion w s).1 = .ok x) (qs : List (EConfig × Query)) (c' : EConfig)
    (w' : World) :
    c'.cargoVersion w' (afterQueries w qs (c.cargoVersion w s).2) = (.ok x, afterQueries w qs (c.cargoVersion w s).2) :=
  queryCargoVersion_set ((grows_after w qs _).cargoVersion _ (cargoVersion_stored h))

/-! ### C45 -/

/-- C45: the value given with `ResolveOptions::host_triple` is returned and nothing is run. -/
theorem C45_option (o : Options) (p : ProcEnv) (fs : Fs) (parse : Str → Res Config) (cwd : Path) (h : Str)
    (hl : EConfig.loadWithOptions p fs parse cwd (o.withHostTriple h) = .ok (c, s)) : c.hostTriple w s = (.ok h, s) := by
  refine queryHostTriple_set ?_
  unfold EConfig.loadWithOptions at hl
  dsimp only at hl
  simp only [Res.bind_eq_ok] at hl
  obtain ⟨de, -, c', -, hl⟩ := hl
  rw [← (Prod.mk.inj (Res.ok.inj hl)).2]
  unfold Cells.cargoHomeOf Options.intoContext Options.withHostTriple Options.withEnv
  cases o.env <;> cases o.cargoHome <;> rfl

/-- C45: otherwise the host triple is what `cargo -vV` or, if it does not tell, `[wrapper] rustc -vV` tells; cargo is asked first and
the compiler only if necessary.  In a build with debug assertions no version may be stored yet (see C46). -/
theorem C45_tools (hs : s.hostTriple = none)
    (hv : w.checks = false ∨ (s.cargoVersion = none ∧ s.rustcVersion = none)) :
    ∃ n x, s.clock < n ∧ IsRustcVV c (w.exist (s.clock + 1)) x ∧
      HostRule (w.run s.clock (cargoVV c)) (w.run n x) (c.hostTriple w s).1 ∧
      ((c.hostTriple w s).2.trace = s.trace ++ [cargoVV c] ∧ (∃ h, CargoTells (w.run s.clock (cargoVV c)) h) ∨
        (c.hostTriple w s).2.trace = s.trace ++ [cargoVV c, x]) := by
  obtain ⟨n, h1, h2, -, -, h3⟩ := findHost_rule c w s hv
  refine ⟨n, _, h1, isRustcVV c _, ?_⟩
  unfold EConfig.hostTriple
  rw [queryHostTriple_unset hs]
  generalize findHost c.cx c.build w s = x at h2 h3
  obtain ⟨r, s1⟩ := x
  cases r <;> exact ⟨h2, h3⟩

/-- The rule determines whether there is a host triple and which. -/
theorem C45_rule_unique {o1 o2 : ProcOut} {r r' : Res Str} (h : HostRule o1 o2 r) (h' : HostRule o1 o2 r') :
    r.toOption = r'.toOption := by
  have cu : ∀ {x y}, CargoTells o1 x → CargoTells o1 y → x = y := by
    intro x y hx hy
    rw [cargoTells_iff (cm := ⟨[], []⟩)] at hx hy
    obtain ⟨a, _, a1, _, a2⟩ := hx
    obtain ⟨b, _, b1, _, b2⟩ := hy
    cases a1.symm.trans b1
    exact Res.ok.inj (a2.symm.trans b2)
  have ru : ∀ {x y}, RustcTells o2 x → RustcTells o2 y → x = y := by
    intro x y hx hy
    rw [rustcTells_iff (cm := ⟨[], []⟩)] at hx hy
    obtain ⟨a, _, a1, _, a2⟩ := hx
    obtain ⟨b, _, b1, _, b2⟩ := hy
    cases a1.symm.trans b1
    exact Res.ok.inj (a2.symm.trans b2)
  cases h with
  | cargo x hx =>
    cases h' with
    | cargo y hy => rw [cu hx hy]
    | rustc y hn _ => exact absurd hx (hn x)
    | neither e hn _ => exact absurd hx (hn x)
  | rustc x hn hx =>
    cases h' with
    | cargo y hy => exact absurd hy (hn y)
    | rustc y _ hy => rw [ru hx hy]
    | neither e _ hn' => exact absurd hx (hn' x)
  | neither e hn hn' =>
    cases h' with
    | cargo y hy => exact absurd hy (hn y)
    | rustc y _ hy => exact absurd hy (hn' y)
    | neither => rfl

/-! ### C46 -/

theorem host_no_panic (hc : CanSet w s) : (queryHostTriple c.cx c.build w s).1 ≠ .panic := by
  cases hs : s.hostTriple with
  | some x => rw [queryHostTriple_set hs]; intro h; cases h
  | none =>
    rw [queryHostTriple_unset hs]
    obtain ⟨n, -, h2, -⟩ := findHost_rule c w s hc
    generalize findHost c.cx c.build w s = x at h2
    obtain ⟨r, s1⟩ := x
    cases r with
    | ok x => intro h; cases h
    | err x => intro h; cases h
    | panic => cases h2

theorem rustcVersion_no_panic (hh : (queryHostTriple c.cx c.build w s).1 ≠ .panic) : (c.rustcVersion w s).1 ≠ .panic := by
  unfold EConfig.rustcVersion
  cases hs : s.rustcVersion with
  | some x => rw [queryRustcVersion_set hs]; intro h; cases h
  | none =>
    rw [queryRustcVersion_unset hs]
    unfold Act.attempt
    generalize queryHostTriple c.cx c.build w s = x at hh
    obtain ⟨r, s1⟩ := x
    have key : (match s1.rustcVersion with
        | some v => ((.ok v : Res RustcVersion), s1)
        | none =>
          match askRustcVersion c.cx c.build w s1 with
          | (.ok v, s2) => (.ok v, { s2 with rustcVersion := some v })
          | (.err e, s2) => (.err e, s2)
          | (.panic, s2) => (.panic, s2)).1 ≠ .panic := by
      cases hv : s1.rustcVersion with
      | some v' => intro h; cases h
      | none =>
        dsimp only
        obtain ⟨n, -, h1, -⟩ := askRustcVersion_cases c w s1
        generalize askRustcVersion c.cx c.build w s1 = y at h1
        obtain ⟨r, s2⟩ := y
        dsimp only at h1
        rcases h1 with ⟨v', rfl, h3⟩ | ⟨⟨e, rfl⟩, -⟩
        · intro h; cases h
        · intro h; cases h
    cases r with
    | ok x => exact key
    | err e => exact key
    | panic => exact absurd rfl hh

theorem cargoVersion_no_panic (hh : (queryHostTriple c.cx c.build w s).1 ≠ .panic) : (c.cargoVersion w s).1 ≠ .panic := by
  unfold EConfig.cargoVersion
  cases hs : s.cargoVersion with
  | some x => rw [queryCargoVersion_set hs]; intro h; cases h
  | none =>
    rw [queryCargoVersion_unset hs]
    unfold Act.attempt
    generalize queryHostTriple c.cx c.build w s = x at hh
    obtain ⟨r, s1⟩ := x
    have key : (match s1.cargoVersion with
        | some v => ((.ok v : Res CargoVersion), s1)
        | none =>
          match askCargoVersion c.cx w s1 with
          | (.ok v, s2) => (.ok v, { s2 with cargoVersion := some v })
          | (.err e, s2) => (.err e, s2)
          | (.panic, s2) => (.panic, s2)).1 ≠ .panic := by
      cases hv : s1.cargoVersion with
      | some v' => intro h; cases h
      | none =>
        dsimp only
        obtain ⟨h1, -⟩ := askCargoVersion_cases c w s1
        generalize askCargoVersion c.cx w s1 = y at h1
        obtain ⟨r, s2⟩ := y
        dsimp only at h1
        rcases h1 with ⟨v', rfl, h3⟩ | ⟨⟨e, rfl⟩, -⟩
        · intro h; cases h
        · intro h; cases h
    cases r with
    | ok x => exact key
    | err e => exact key
    | panic => exact absurd rfl hh

theorem ask_no_panic (hh : (queryHostTriple c.cx c.build w s).1 ≠ .panic) {q : Query} (hq : q.IsVersion) :
    (c.ask q w s).1 ≠ .panic := by
  have key : ∀ {α : Type} (f : α → Answer) (m : Act α), (m w s).1 ≠ .panic → (Act.map f m w s).1 ≠ .panic := by
    intro α f m hm
    rw [map_fst]
    generalize (m w s).1 = r at hm
    cases r with
    | ok a => intro h; cases h
    | err e => intro h; cases h
    | panic => exact absurd rfl hm
  rcases hq with rfl | rfl | rfl
  · exact key _ _ hh
  · exact key _ _ (rustcVersion_no_panic hh)
  · exact key _ _ (cargoVersion_no_panic hh)

/-- C46 for builds without debug assertions: the three queries never panic, in any state. -/
theorem C46_release (hw : w.checks = false) (c : EConfig) (s : Cells) {q : Query} (hq : q.IsVersion) : (c.ask q w s).1 ≠ .panic :=
  ask_no_panic (host_no_panic (Or.inl hw)) hq

/-- C46 in any build as long as no version is stored, in particular for the first query. -/
theorem C46_first_partial (h1 : s.cargoVersion = none) (h2 : s.rustcVersion = none) {q : Query} (hq : q.IsVersion) :
    (c.ask q w s).1 ≠ .panic :=
  ask_no_panic (host_no_panic (Or.inr ⟨h1, h2⟩)) hq

/-- Tools that report a version also report a host. -/
def HostLines (w : World) : Prop := ∀ n x v, RustcReports (w.run n x) v → ∃ h, RustcTells (w.run n x) h

/-- No version is stored while the host triple is not. -/
def HostFirst (s : Cells) : Prop := s.hostTriple = none → s.cargoVersion = none ∧ s.rustcVersion = none

theorem cargo_lines (hl : HostLines w) {n : Nat} {x : Cmd} {v : CargoVersion} (h : CargoReports (w.run n x) v) :
    ∃ y, CargoTells (w.run n x) y := by
  obtain ⟨out, rest, h1, h2, h3⟩ := h
  obtain ⟨y, out', rest', a, b, p, m, h4, h5, h6, h7⟩ := hl n x ⟨v.major, v.minor, some v.patch, v.nightly⟩ ⟨out, rest, h1, h2, h3⟩
  have : out' = out := by
    rw [printed_iff (cm := ⟨[], []⟩)] at h1 h4
    exact Res.ok.inj (h4.symm.trans h1)
  subst this
  exact ⟨y, out', rest, _, _, _, _, h1, h2, h3, h7⟩

/-- The host query under these conditions. -/
theorem host_safe (hw : Steady w) (hl : HostLines w) (hs : HostFirst s) :
    (queryHostTriple c.cx c.build w s).1 ≠ .panic ∧
    (((queryHostTriple c.cx c.build w s).2.hostTriple ≠ none) ∨
      (queryHostTriple c.cx c.build w s).2.cargoVersion = none ∧ (queryHostTriple c.cx c.build w s).2.rustcVersion = none ∧
      (∀ n v, ¬ CargoReports (w.run n (cargoVV c)) v) ∧ (∀ n k v, ¬ RustcReports (w.run n (rustcVV c (w.exist k))) v)) := by
  cases hh : s.hostTriple with
  | some x =>
    rw [queryHostTriple_set hh]
    exact ⟨(fun h => by cases h), Or.inl (by rw [hh]; simp)⟩
  | none =>
    obtain ⟨hv1, hv2⟩ := hs hh
    rw [queryHostTriple_unset hh]
    obtain ⟨n, -, h2, h3, h4, -⟩ := findHost_rule c w s (Or.inr ⟨hv1, hv2⟩)
    generalize findHost c.cx c.build w s = x at h2 h3 h4
    obtain ⟨r, s1⟩ := x
    dsimp only at h2 h3 h4
    cases h2 with
    | cargo x hx => exact ⟨(fun h => by cases h), Or.inl (by simp)⟩
    | rustc x _ hx => exact ⟨(fun h => by cases h), Or.inl (by simp)⟩
    | neither e hn hn' =>
      have no1 : ∀ m v, ¬ CargoReports (w.run m (cargoVV c)) v := by
        intro m v hv
        rw [(hw m s.clock).1] at hv
        obtain ⟨y, hy⟩ := cargo_lines hl hv
        exact hn y hy
      have no2 : ∀ m k v, ¬ RustcReports (w.run m (rustcVV c (w.exist k))) v := by
        intro m k v hv
        rw [(hw m n).1, (hw k (s.clock + 1)).2] at hv
        obtain ⟨y, hy⟩ := hl _ _ _ hv
        exact hn' y hy
      refine ⟨(fun h => by cases h), Or.inr ⟨?_, ?_, no1, no2⟩⟩
      · dsimp only
        cases hv : s1.cargoVersion with
        | none => rfl
        | some v =>
          rcases h3 v hv with h | h
          · rw [hv1] at h; cases h
          · exact absurd h (no1 _ v)
      · dsimp only
        cases hv : s1.rustcVersion with
        | none => rfl
        | some v =>
          rcases h4 v hv with h | h
          · rw [hv2] at h; cases h
          · exact absurd h (no2 _ _ v)

theorem hostFirst_of_set (h : s.hostTriple ≠ none) : HostFirst s := fun h' => absurd h' h

theorem hostFirst_ask (hw : Steady w) (hl : HostLines w) (hs : HostFirst s) (q : Query) : HostFirst (c.ask q w s).2 := by
  obtain ⟨hp, hh⟩ := host_safe (c := c) hw hl hs
  have hfirst : HostFirst (queryHostTriple c.cx c.build w s).2 := by
    rcases hh with hh | ⟨h1, h2, -⟩
    · exact hostFirst_of_set hh
    · exact fun _ => ⟨h1, h2⟩
  cases ht : q.targetOf with
  | some t =>
    rw [ask_target ht, map_snd]
    obtain ⟨s1, h1, h2⟩ := target_cells c t w s
    have h3 : HostFirst s1 := by
      rcases h1 with rfl | ⟨-, -, rfl⟩
      · exact hs
      · obtain ⟨-, e1, e2, e3⟩ := cfgOf_target (cx := c.cx) (b := c.build) (t := t) w s
        unfold HostFirst
        rw [e1, e2, e3]
        exact hs
    rcases h2 with ⟨h2, -⟩ | ⟨e, -, -, h2⟩ <;> rw [h2] <;> exact h3
  | none =>
    cases q with
    | target t => cases ht
    | linker t => cases ht
    | runner t => cases ht
    | rustflags t => cases ht
    | rustdocflags t => cases ht
    | rustc =>
      show HostFirst (Act.map Answer.rustc (queryRustc c.cx c.build) w s).2
      obtain ⟨r, n, h4⟩ := queryRustc_total c.cx c.build w s
      rw [map_snd, h4]
      exact hs
    | hostTriple =>
      show HostFirst (Act.map Answer.host (queryHostTriple c.cx c.build) w s).2
      rw [map_snd]
      exact hfirst
    | rustcVersion =>
      show HostFirst (Act.map Answer.rustcVersion (queryRustcVersion c.cx c.build) w s).2
      rw [map_snd]
      cases hv : s.rustcVersion with
      | some v => rw [queryRustcVersion_set hv]; exact hs
      | none =>
        rw [queryRustcVersion_unset hv]
        unfold Act.attempt
        generalize queryHostTriple c.cx c.build w s = x at hp hh hfirst
        obtain ⟨r, s1⟩ := x
        dsimp only at hh hfirst
        have key : HostFirst (match s1.rustcVersion with
            | some v => ((.ok v : Res RustcVersion), s1)
            | none =>
              match askRustcVersion c.cx c.build w s1 with
              | (.ok v, s2) => (.ok v, { s2 with rustcVersion := some v })
              | (.err e, s2) => (.err e, s2)
              | (.panic, s2) => (.panic, s2)).2 := by
          cases hv : s1.rustcVersion with
          | some v' => exact hfirst
          | none =>
            dsimp only
            obtain ⟨n, -, h1, h2⟩ := askRustcVersion_cases c w s1
            generalize askRustcVersion c.cx c.build w s1 = y at h1 h2
            obtain ⟨r, s2⟩ := y
            dsimp only at h1 h2
            subst h2
            rcases h1 with ⟨v', rfl, h3⟩ | ⟨⟨e, rfl⟩, -⟩
            · rcases hh with hh | ⟨-, -, -, hh⟩
              · exact hostFirst_of_set hh
              · exact absurd h3 (hh _ _ _)
            · exact hfirst
        cases r with
        | ok x => exact key
        | err e => exact key
        | panic => exact absurd rfl hp
    | cargoVersion =>
      show HostFirst (Act.map Answer.cargoVersion (queryCargoVersion c.cx c.build) w s).2
      rw [map_snd]
      cases hv : s.cargoVersion with
      | some v => rw [queryCargoVersion_set hv]; exact hs
      | none =>
        rw [queryCargoVersion_unset hv]
        unfold Act.attempt
        generalize queryHostTriple c.cx c.build w s = x at hp hh hfirst
        obtain ⟨r, s1⟩ := x
        dsimp only at hh hfirst
        have key : HostFirst (match s1.cargoVersion with
            | some v => ((.ok v : Res CargoVersion), s1)
            | none =>
              match askCargoVersion c.cx w s1 with
              | (.ok v, s2) => (.ok v, { s2 with cargoVersion := some v })
              | (.err e, s2) => (.err e, s2)
              | (.panic, s2) => (.panic, s2)).2 := by
          cases hv : s1.cargoVersion with
          | some v' => exact hfirst
          | none =>
            dsimp only
            obtain ⟨h1, h2⟩ := askCargoVersion_cases c w s1
            generalize askCargoVersion c.cx w s1 = y at h1 h2
            obtain ⟨r, s2⟩ := y
            dsimp only at h1 h2
            subst h2
            rcases h1 with ⟨v', rfl, h3⟩ | ⟨⟨e, rfl⟩, -⟩
            · rcases hh with hh | ⟨-, -, hh, -⟩
              · exact hostFirst_of_set hh
              · exact absurd h3 (hh _ _)
            · exact hfirst
        cases r with
        | ok x => exact key
        | err e => exact key
        | panic => exact absurd rfl hp
    | buildTargetForConfig ts =>
      show HostFirst (Act.map Answer.targets (c.buildTargetForConfig ts) w s).2
      rw [map_snd]
      unfold EConfig.buildTargetForConfig
      split
      · exact hs
      · dsimp only
        split
        · exact hs
        · rw [Act.bind_def]
          unfold EConfig.hostTriple
          generalize queryHostTriple c.cx c.build w s = x at hfirst
          obtain ⟨r, s1⟩ := x
          cases r with
          | ok x =>
            dsimp only
            rw [Act.lift_bind]
            generalize TargetTriple.ofStr x = y
            cases y <;> exact hfirst
          | err e => exact hfirst
          | panic => exact hfirst
    | buildTargetForCli ts =>
      show HostFirst (Act.map Answer.strings (c.buildTargetForCli ts) w s).2
      rw [map_snd]
      unfold EConfig.buildTargetForCli
      split
      · exact hs
      · dsimp only
        split <;> exact hs

/-- C46 in any build, for any sequence of queries, if the tools do not change and those that report a version also report a host.
Missing: the other cases, where it is false (`C46_fails`, `C46_flaky_fails`). -/
theorem C46_steady_partial (hw : Steady w) (hl : HostLines w) (h1 : s.cargoVersion = none) (h2 : s.rustcVersion = none)
    (qs : List (EConfig × Query)) {q : Query} (hq : q.IsVersion) : (c.ask q w (afterQueries w qs s)).1 ≠ .panic := by
  have : HostFirst (afterQueries w qs s) := by
    have h0 : HostFirst s := fun _ => ⟨h1, h2⟩
    clear h1 h2
    induction qs generalizing s with
    | nil => exact h0
    | cons cq qs ih => exact ih (hostFirst_ask hw hl h0 cq.2)
  exact ask_no_panic (host_safe hw hl this).1 hq

/-- A config without settings. -/
def plainConfig : EConfig := { cx := { env := [], cargo := .unicode "cargo".toList, currentDir := "/w".toList } }

/-- Tools that print a version but no host. -/
def noHostWorld : World :=
  { checks := true, run := fun _ _ => .succeeded (.unicode "release: 1.84.0\n".toList), exist := fun _ _ => false }

/-- C46 is false of the program with debug assertions: if the tools print no host line, the first call of `host_triple` fails and the
second one panics. -/
theorem C46_fails : (plainConfig.hostTriple noHostWorld {}).1.isErr = true ∧
    (plainConfig.hostTriple noHostWorld (plainConfig.hostTriple noHostWorld {}).2).1.isPanic = true := by
  decide +kernel

/-- A compiler that can only be run from some time on. -/
def flakyWorld : World :=
  { checks := true
    run := fun n x => if x.program = "rustc".toList ∧ 3 ≤ n then .succeeded (.unicode "release: 1.84.0\nhost: x\n".toList) else .notStarted []
    exist := fun _ _ => false }

/-- C46 is also false if all output is as usual, but the compiler could not be started at first: `rustc_version` succeeds, and then
`host_triple` panics. -/
theorem C46_flaky_fails : (plainConfig.rustcVersion flakyWorld {}).1.isOk = true ∧
    (plainConfig.hostTriple flakyWorld (plainConfig.rustcVersion flakyWorld {}).2).1.isPanic = true := by
  decide +kernel

/-- Tools that print a version and a host, as in C44 and `C46_steady_partial`. -/
def tellingWorld : World :=
  { checks := true, run := fun _ _ => .succeeded (.unicode "release: 1.84.0\nhost: x\n".toList), exist := fun _ _ => false }

example : (plainConfig.hostTriple tellingWorld {}).1.toOption = some "x".toList := by decide +kernel
example : (plainConfig.rustcVersion tellingWorld {}).1.toOption = some ⟨1, 84, some 0, false⟩ := by decide +kernel
example : (plainConfig.cargoVersion tellingWorld {}).1.toOption = some ⟨1, 84, 0, false⟩ := by decide +kernel
/-- Afterwards other tools have no influence, as said by C44. -/
example : (plainConfig.hostTriple noHostWorld (afterQueries noHostWorld [(plainConfig, .cargoVersion), (plainConfig, .rustc)]
    (plainConfig.hostTriple tellingWorld {}).2)).1.toOption = some "x".toList := by decide +kernel
example : Steady tellingWorld ∧ HostLines tellingWorld := by
  refine ⟨fun _ _ => ⟨rfl, rfl⟩, fun n x v _ => ⟨"x".toList, ?_⟩⟩
  rw [rustcTells_iff (cm := ⟨[], []⟩)]
  exact ⟨"release: 1.84.0\nhost: x".toList, ⟨1, 84, some 0, false⟩, by rfl, by rfl, by rfl⟩
/-- All three cases of the rule of C45. -/
example : CargoTells (tellingWorld.run 0 ⟨[], []⟩) "x".toList ∧ RustcTells (tellingWorld.run 0 ⟨[], []⟩) "x".toList := by
  rw [cargoTells_iff (cm := ⟨[], []⟩), rustcTells_iff (cm := ⟨[], []⟩)]
  exact ⟨⟨"release: 1.84.0\nhost: x".toList, ⟨1, 84, 0, false⟩, by rfl, by rfl, by rfl⟩,
    ⟨"release: 1.84.0\nhost: x".toList, ⟨1, 84, some 0, false⟩, by rfl, by rfl, by rfl⟩⟩
/-- Without debug assertions the state of `C46_fails` is harmless, as said by `C46_release`. -/
example : (plainConfig.hostTriple { noHostWorld with checks := false }
    (plainConfig.hostTriple { noHostWorld with checks := false } {}).2).1.isErr = true := by decide +kernel
example : (EConfig.loadWithOptions {} ⟨fun _ => false, fun _ => .err (.io [])⟩ (fun _ => .ok {}) "/w".toList
    (Options.withHostTriple {} "h".toList)).toOption.map (fun r => (r.1.hostTriple noHostWorld r.2).1.toOption) =
    some (some "h".toList) := by decide +kernel

/-! ### The theorems applied to the samples -/

/-- C44: afterwards cargo and the compiler may be gone and the fields changed. -/
example (s : Cells) (h : afterQueries tellingWorld [(plainConfig, .rustc)] (plainConfig.hostTriple tellingWorld {}).2 = s) :
    plainConfig.hostTriple flakyWorld s = (.ok "x".toList, s) :=
  h ▸ C44_host (c := plainConfig) (w := tellingWorld) (s := {}) rfl _ _ _

example (s : Cells) (h : afterQueries tellingWorld [(plainConfig, .rustc)] (plainConfig.rustcVersion tellingWorld {}).2 = s) :
    plainConfig.rustcVersion flakyWorld s = (.ok ⟨1, 84, some 0, false⟩, s) :=
  h ▸ C44_rustc_version (c := plainConfig) (w := tellingWorld) (s := {}) rfl _ _ _

example (s : Cells) (h : afterQueries tellingWorld [(plainConfig, .rustc)] (plainConfig.cargoVersion tellingWorld {}).2 = s) :
    plainConfig.cargoVersion flakyWorld s = (.ok ⟨1, 84, 0, false⟩, s) :=
  h ▸ C44_cargo_version (c := plainConfig) (w := tellingWorld) (s := {}) rfl _ _ _

/-- C45: cargo tells nothing, so that the compiler is asked as well. -/
example : (plainConfig.hostTriple noHostWorld {}).2.trace =
    [⟨"cargo".toList, ["-vV".toList]⟩, ⟨"rustc".toList, ["-vV".toList]⟩] := by decide +kernel

example : (plainConfig.hostTriple tellingWorld {}).2.trace = [⟨"cargo".toList, ["-vV".toList]⟩] := by decide +kernel

/-- C46: first queries never panic, here with tools that tell nothing useful. -/
example : (plainConfig.ask .rustcVersion noHostWorld {}).1 ≠ .panic ∧ (plainConfig.ask .hostTriple flakyWorld {}).1 ≠ .panic :=
  ⟨C46_first_partial rfl rfl (.inr (.inl rfl)), C46_first_partial rfl rfl (.inl rfl)⟩

end CC
