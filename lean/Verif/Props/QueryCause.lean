import Verif.Lemmas.QueryCause
import Verif.Props.Tools
import Verif.Props.TargetDocs
import Verif.Props.Cause
/-
C69: what the error of a failed query says.
-/
namespace CC

variable {c : EConfig} {w : World} {s s' : Cells} {e : Err}

/-- C69: if the version of the compiler cannot be told, the error is about the command that was run last: the compiler's with `-vV`. -/
theorem C69_rustc_version (h : c.rustcVersion w s = (.err e, s')) (sh : Shown) :
    ∃ n k x before, IsRustcVV c (w.exist k) x ∧ s'.trace = before ++ [x] ∧ VersionBlamed x (w.run n x) (e.display sh) e.source := by
  unfold EConfig.rustcVersion at h
  cases hs : s.rustcVersion with
  | some v => rw [queryRustcVersion_set hs] at h; cases h
  | none =>
    rw [queryRustcVersion_unset hs] at h
    generalize hx : Act.attempt (queryHostTriple c.cx c.build) w s = x at h
    obtain ⟨r, s1⟩ := x
    cases r with
    | panic => cases h
    | err e' =>
      unfold Act.attempt at hx
      generalize queryHostTriple c.cx c.build w s = y at hx
      obtain ⟨r, s2⟩ := y
      cases r <;> cases hx
    | ok o =>
      dsimp only at h
      cases hv : s1.rustcVersion with
      | some v => rw [hv] at h; cases h
      | none =>
        rw [hv] at h
        dsimp only at h
        obtain ⟨n, hn, hr⟩ := rustcForVersion_eq c.cx c.build w s1
        have ha : askRustcVersion c.cx c.build w s1 = ((procRead (rustcVV c (w.exist s1.clock)) (w.run n (rustcVV c (w.exist s1.clock))) >>=
            fun vv => rustcVersionOf (rustcVV c (w.exist s1.clock)) vv),
            { s1 with clock := n + 1, trace := s1.trace ++ [rustcVV c (w.exist s1.clock)] }) := by
          unfold askRustcVersion verboseVersion
          rw [Act.bind_of_ok hr]
          have hc : (wrapped c.build.rustcWrapper.toList (rustcFound c.cx c.build (w.exist s1.clock))).vvCmd =
            rustcVV c (w.exist s1.clock) := rfl
          rw [hc, Act.bind_def, Act.read_def]
          dsimp only
          generalize procRead (rustcVV c (w.exist s1.clock)) (w.run n (rustcVV c (w.exist s1.clock))) = y
          cases y <;> rfl
        rw [ha] at h
        refine ⟨n, s1.clock, rustcVV c (w.exist s1.clock), s1.trace, isRustcVV c _, ?_, ?_⟩
        · split at h
          · cases h
          · rename_i heq; cases h; rw [← (Prod.mk.inj heq).2]
          · cases h
        · have he : (procRead (rustcVV c (w.exist s1.clock)) (w.run n (rustcVV c (w.exist s1.clock))) >>=
              fun vv => rustcVersionOf (rustcVV c (w.exist s1.clock)) vv) = .err e := by
            split at h
            · cases h
            · rename_i heq; cases h; exact (Prod.mk.inj heq).1
            · cases h
          rcases Res.bind_eq_err.1 he with he | ⟨vv, h1, h2⟩
          · exact .command _ _ (procRead_blamed he sh)
          · cases ofOption_err h2; exact version_blamed h1 sh

/-- C69 for the version of cargo: the command is `cargo -vV`. -/
theorem C69_cargo_version (h : c.cargoVersion w s = (.err e, s')) (sh : Shown) :
    ∃ n before, s'.trace = before ++ [cargoVV c] ∧ VersionBlamed (cargoVV c) (w.run n (cargoVV c)) (e.display sh) e.source := by
  unfold EConfig.cargoVersion at h
  cases hs : s.cargoVersion with
  | some v => rw [queryCargoVersion_set hs] at h; cases h
  | none =>
    rw [queryCargoVersion_unset hs] at h
    generalize hx : Act.attempt (queryHostTriple c.cx c.build) w s = x at h
    obtain ⟨r, s1⟩ := x
    cases r with
    | panic => cases h
    | err e' =>
      unfold Act.attempt at hx
      generalize queryHostTriple c.cx c.build w s = y at hx
      obtain ⟨r, s2⟩ := y
      cases r <;> cases hx
    | ok o =>
      dsimp only at h
      cases hv : s1.cargoVersion with
      | some v => rw [hv] at h; cases h
      | none =>
        rw [hv] at h
        dsimp only at h
        have ha : askCargoVersion c.cx w s1 = ((procRead (cargoVV c) (w.run s1.clock (cargoVV c)) >>=
            fun vv => cargoVersionOf (cargoVV c) vv), { s1 with clock := s1.clock + 1, trace := s1.trace ++ [cargoVV c] }) := by
          unfold askCargoVersion verboseVersion
          have hc : EPathAndArgs.vvCmd { path := c.cx.cargo.path, args := [] } = cargoVV c := rfl
          rw [hc, Act.bind_def, Act.read_def]
          generalize procRead (cargoVV c) (w.run s1.clock (cargoVV c)) = y
          cases y <;> rfl
        rw [ha] at h
        refine ⟨s1.clock, s1.trace, ?_, ?_⟩
        · split at h
          · cases h
          · rename_i heq; cases h; rw [← (Prod.mk.inj heq).2]
          · cases h
        · have he : (procRead (cargoVV c) (w.run s1.clock (cargoVV c)) >>= fun vv => cargoVersionOf (cargoVV c) vv) = .err e := by
            split at h
            · cases h
            · rename_i heq; cases h; exact (Prod.mk.inj heq).1
            · cases h
          rcases Res.bind_eq_err.1 he with he | ⟨vv, h1, h2⟩
          · exact .command _ _ (procRead_blamed he sh)
          · cases ofOption_err h2; exact version_blamed h1 sh

/-- C69 for the host triple: also if `cargo -vV` failed before, the error is about the command of the compiler with `-vV`. -/
theorem C69_host (h : c.hostTriple w s = (.err e, s')) (sh : Shown) :
    ∃ n k x, IsRustcVV c (w.exist k) x ∧ s'.trace = s.trace ++ [cargoVV c, x] ∧
      VersionBlamed x (w.run n x) (e.display sh) e.source := by
  unfold EConfig.hostTriple at h
  cases hs : s.hostTriple with
  | some v => rw [queryHostTriple_set hs] at h; cases h
  | none =>
    rw [queryHostTriple_unset hs] at h
    have hf : findHost c.cx c.build w s = (.err e, s') := by
      generalize findHost c.cx c.build w s = x at h
      obtain ⟨r, s1⟩ := x
      cases r <;> cases h
      rfl
    unfold findHost at hf
    rw [Act.bind_def] at hf
    unfold Act.attempt at hf
    rw [hostFromCargo_eq] at hf
    have hio := cargoPart_io (w := w) (cm := cargoVV c) (s := { s with clock := s.clock + 1, trace := s.trace ++ [cargoVV c] })
      (w.run s.clock (cargoVV c))
    generalize cargoPart w (cargoVV c) (w.run s.clock (cargoVV c)) { s with clock := s.clock + 1, trace := s.trace ++ [cargoVV c] } = x
      at hf hio
    obtain ⟨r, s1⟩ := x
    cases r with
    | ok x => cases hf
    | panic => cases hf
    | err e' =>
      dsimp only at hf hio
      obtain ⟨n, hn, hrc⟩ := hostFromRustc_eq c w s1
      rw [hrc] at hf
      have hb := rustcPart_blamed (by rw [hf]) sh
      have hio' := rustcPart_io (w := w) (cm := rustcVV c (w.exist s1.clock))
        (s := { s1 with clock := n + 1, trace := s1.trace ++ [rustcVV c (w.exist s1.clock)] })
        (w.run n (rustcVV c (w.exist s1.clock)))
      rw [hf] at hio'
      refine ⟨n, s1.clock, _, isRustcVV c _, ?_, hb⟩
      rw [hio'.2, hio.2]
      simp

variable {p : ProcEnv} {fs : Fs} {toml : Str → Res Toml} {cwd : Path} {o : Options} {s0 : Cells}
  {look : Str → Option OsStr} {home : Option Path} {docs : List (Path × Toml)} {t : TargetTriple}

/-- C69 for a target, in any state: the error names the target, the variable, the expression or the command.  Missing: the variable of
the runner is not named if it is blank (`C69_runner_fails`). -/
theorem C69_target_partial (h : Loads p fs toml cwd o look home docs c s0) (hq : c.target t w s = (.err e, s')) (sh : Shown) :
    TargetBlamed look docs w.checks t (CfgAsked c t w s s') (e.display sh) e.source := by
  cases hs : s.target.get t.cliTarget with
  | some x => rw [target_cached hs] at hq; cases hq
  | none =>
    rw [target_fresh hs] at hq
    have hr : resolveTarget c.cx c.deTarget c.build.overrideTargetRustflags c.build.deRustflags
        c.build.overrideTargetRustdocflags c.build.deRustdocflags t c.build w s = (.err e, s') := by
      generalize resolveTarget c.cx c.deTarget c.build.overrideTargetRustflags c.build.deRustflags
        c.build.overrideTargetRustdocflags c.build.deRustdocflags t c.build w s = x at hq
      obtain ⟨r, s1⟩ := x
      cases r with
      | err e' => cases hq; rfl
      | panic => cases hq
      | ok r =>
        dsimp only at hq
        have := (decides_etarget c.cx.currentDir (r.getD {})).not_err
        generalize ETarget.fromUnresolved c.cx.currentDir (r.getD {}) = y at hq this
        cases y with
        | ok y => cases hq
        | panic => cases hq
        | err e' => exact absurd rfl (this e')
    unfold resolveTarget at hr
    rw [startsWith_cfg] at hr
    cases hk : isCfgKey t.triple with
    | true =>
      rw [hk, if_pos rfl] at hr
      cases hr
      rw [display_other, fill_triple]
      exact .triple hk
    | false =>
      rw [hk, if_neg (by decide), Act.lift_bind] at hr
      cases ha : (TargetAcc.start (c.deTarget.get t.triple)).applyEnv c.cx.env t.triple with
      | panic => exact absurd ha targetEnv_ne_panic
      | err x =>
        rw [ha] at hr
        cases hr
        exact applyEnv_blamed ha (loads_cx h).2 sh _
      | ok a =>
        rw [ha] at hr
        dsimp only at hr
        rw [Act.bind_def] at hr
        generalize hx : cfgTables c.cx c.build t c.deTarget a w s = x at hr
        obtain ⟨r, s1⟩ := x
        cases r with
        | ok r => cases hr
        | panic => cases hr
        | err e' =>
          cases hr
          exact cfgTables_blamed (fun k v hv => (loads_table h k).1 ⟨v, hv⟩) hx sh

theorem map_err {α β : Type} {f : α → β} {m : Act α} (h : Act.map f m w s = (.err e, s')) : m w s = (.err e, s') := by
  unfold Act.map at h
  generalize m w s = x at h
  obtain ⟨r, s1⟩ := x
  cases r <;> cases h
  rfl

theorem pure_err {α β : Type} {f : α → β} {m : Act α} (h : (do return f (← m) : Act β) w s = (.err e, s')) : m w s = (.err e, s') := by
  rw [Act.bind_def] at h
  generalize m w s = x at h
  obtain ⟨r, s1⟩ := x
  cases r <;> cases h
  rfl

theorem ofStr_noErr (x : Str) (e : Err) : TargetTriple.ofStr x ≠ .err e := by
  unfold TargetTriple.ofStr TargetTriple.new
  split
  · cases Path.fileStem x with
    | none => intro h; cases h
    | some y =>
      cases hr : resolveSpecPath x none none with
      | none => intro h; cases h
      | some z => cases z <;> (intro h; cases h)
  · intro h; cases h

/-- C69: the other queries fail only by one of these; `rustc` and `build_target_for_cli` always succeed. -/
theorem C69_queries {q : Query} (h : c.ask q w s = (.err e, s')) :
    (∃ t, q ∈ [.target t, .linker t, .runner t, .rustflags t, .rustdocflags t] ∧ c.target t w s = (.err e, s')) ∨
    ((q = .hostTriple ∨ q = .buildTargetForConfig [] ∧ c.build.target.getD [] = []) ∧ c.hostTriple w s = (.err e, s')) ∨
    (q = .rustcVersion ∧ c.rustcVersion w s = (.err e, s')) ∨ (q = .cargoVersion ∧ c.cargoVersion w s = (.err e, s')) := by
  cases q with
  | target t => exact .inl ⟨t, by simp, map_err h⟩
  | linker t => exact .inl ⟨t, by simp, pure_err (map_err h)⟩
  | runner t => exact .inl ⟨t, by simp, pure_err (map_err h)⟩
  | rustflags t => exact .inl ⟨t, by simp, pure_err (map_err h)⟩
  | rustdocflags t => exact .inl ⟨t, by simp, pure_err (map_err h)⟩
  | rustc =>
    obtain ⟨r, n, hr⟩ := queryRustc_total c.cx c.build w s
    have h := map_err h
    unfold EConfig.rustc at h
    rw [hr] at h
    cases h
  | hostTriple => exact .inr (.inl ⟨.inl rfl, map_err h⟩)
  | rustcVersion => exact .inr (.inr (.inl ⟨rfl, map_err h⟩))
  | cargoVersion => exact .inr (.inr (.inr ⟨rfl, map_err h⟩))
  | buildTargetForCli ts =>
    have h := map_err h
    unfold EConfig.buildTargetForCli at h
    split at h
    · cases h
    · dsimp only at h
      split at h <;> cases h
  | buildTargetForConfig ts =>
    have h := map_err h
    unfold EConfig.buildTargetForConfig at h
    cases ts with
    | cons x ts => cases h
    | nil =>
      rw [if_neg (by decide)] at h
      cases hc : c.build.target.getD [] with
      | cons x ts => rw [hc] at h; cases h
      | nil =>
        rw [hc, if_neg (by decide), Act.bind_def] at h
        refine .inr (.inl ⟨.inr ⟨rfl, rfl⟩, ?_⟩)
        generalize c.hostTriple w s = x at h
        obtain ⟨r, s1⟩ := x
        cases r with
        | err e' => cases h; rfl
        | panic => cases h
        | ok x =>
          dsimp only at h
          rw [Act.lift_bind] at h
          have := ofStr_noErr x
          generalize TargetTriple.ofStr x = y at h this
          cases y with
          | ok y => cases h
          | panic => cases h
          | err e' => exact absurd rfl (this e')

/-! ### samples -/

section sample

/-- What the error says. -/
def shownErr {α : Type} : Res α × Cells → Option Str
  | (.err e, _) => some (e.display noShown)
  | _ => none

/-- What the query for `x-y` says, after a load with these variables and `target.'<key>'.linker = "ld"` in the file `/w/.cargo/config`. -/
def targetErr (vars : List (OsStr × OsStr)) (key : String) (w : World) : Option Str :=
  (EConfig.loadWithOptions { vars := vars } (oneFile "/w/.cargo/config".toList)
    (fun _ => Config.de (.tbl [("target".toList, .tbl [(key.toList, .tbl [("linker".toList, .str "ld".toList)])])]))
    "/w".toList {}).toOption.bind fun r => shownErr (r.1.target sampleTriple w r.2)

/-- The missing case: if `CARGO_TARGET_X_Y_RUNNER` is blank, the message does not mention the variable. -/
theorem C69_runner_fails : targetErr [(.unicode "CARGO_TARGET_X_Y_RUNNER".toList, .unicode " ".toList)] "x-y" sampleWorld =
    some "invalid length 0, expected at least one element".toList := by decide +kernel

/-- Tools that fail. -/
def failingWorld : World :=
  { checks := true
    run := fun _ x => if x.program = "cargo".toList then .notStarted "not found".toList
      else .failed "exit status: 1".toList (.unicode "\n".toList) (.unicode "bad option".toList)
    exist := fun _ _ => false }

example : shownErr (plainConfig.hostTriple failingWorld {}) =
    some "process didn't exit successfully: `rustc -vV` (exit status: 1)\n--- stderr\nbad option".toList := by decide +kernel
example : shownErr (plainConfig.cargoVersion failingWorld {}) =
    some "could not execute process `cargo -vV` (never executed)".toList := by decide +kernel
example : shownErr (plainConfig.hostTriple noHostWorld {}) =
    some "unexpected version output from `rustc -vV`: release: 1.84.0".toList := by decide +kernel

example : targetErr [] "cfg(unix)" failingWorld =
    some "process didn't exit successfully: `rustc --print cfg --target x-y` (exit status: 1)\n--- stderr\nbad option".toList := by
  decide +kernel
example : targetErr [] "cfg(any(unix)" sampleWorld = some "any(unix\n   - unclosed parens".toList := by decide +kernel
example : targetErr [(.unicode "CARGO_TARGET_X_Y_LINKER".toList, .invalid [255])] "x-y" sampleWorld =
    some "failed to parse environment variable `CARGO_TARGET_X_Y_LINKER`".toList := by decide +kernel

end sample

/-- The statements about the failing tools. -/
example (sh : Shown) : ∃ e s' n k x, plainConfig.hostTriple failingWorld {} = (.err e, s') ∧ IsRustcVV plainConfig (failingWorld.exist k) x ∧
    s'.trace = [cargoVV plainConfig, x] ∧ VersionBlamed x (failingWorld.run n x) (e.display sh) e.source := by
  cases h : plainConfig.hostTriple failingWorld {} with
  | mk r s' =>
    cases r with
    | err e =>
      obtain ⟨n, k, x, h1, h2, h3⟩ := C69_host h sh
      exact ⟨e, s', n, k, x, rfl, h1, h2, h3⟩
    | ok e =>
      have h2 : (plainConfig.hostTriple failingWorld {}).1.isErr = true := by decide +kernel
      rw [h] at h2; cases h2
    | panic =>
      have h2 : (plainConfig.hostTriple failingWorld {}).1.isErr = true := by decide +kernel
      rw [h] at h2; cases h2

example : (plainConfig.rustcVersion failingWorld {}).1.isErr = true ∧ (plainConfig.cargoVersion failingWorld {}).1.isErr = true ∧
    (plainConfig.ask (.buildTargetForConfig []) failingWorld {}).1.isErr = true := by decide +kernel

end CC
