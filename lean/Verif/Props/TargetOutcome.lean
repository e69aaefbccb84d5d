import Verif.Lemmas.TargetPanic
import Verif.Props.QueryCause
/-
C70: when the query for a target succeeds, fails and panics.
-/
namespace CC

variable {p : ProcEnv} {fs : Fs} {toml : Str → Res Toml} {cwd : Path} {o : Options} {c : EConfig}
  {look : Str → Option OsStr} {home : Option Path} {docs : List (Path × Toml)} {t : TargetTriple} {w : World} {s : Cells}

/-- C70: a first query for a target succeeds exactly if its settings can be determined and the linker and the runner found can be
located. -/
theorem C70_succeeds_iff (h : Loads p fs toml cwd o look home docs c s) :
    (∃ e, (c.target t w s).1 = .ok e) ↔
      Determined look docs c w s t ∧ ∀ ks, Apply docs c w s t ks → ProgramsPlaced look docs t ks :=
  (target_exact h).1

/-- C70: it panics exactly if the settings can be determined but the linker or the runner found cannot be located, or if the parser
panics on a key `cfg(..)` that is reached. -/
theorem C70_panics_iff (h : Loads p fs toml cwd o look home docs c s) :
    (c.target t w s).1 = .panic ↔
      (Determined look docs c w s t ∧ ∃ ks, Apply docs c w s t ks ∧ ¬ ProgramsPlaced look docs t ks) ∨
      (isCfgKey t.triple = false ∧ TargetVars look t.triple ∧
        ∃ k, Reached docs c w s t k ∧ Expression.parse w.checks k = .panic) :=
  (target_exact h).2.1

/-- C70: it fails exactly if the target looks like a cfg expression, or its variables are not usable, or the parser rejects a key
`cfg(..)` that is reached, or the compiler does not answer after the first key was accepted. -/
theorem C70_fails_iff (h : Loads p fs toml cwd o look home docs c s) :
    (∃ e, (c.target t w s).1 = .err e) ↔
      isCfgKey t.triple = true ∨ ¬ TargetVars look t.triple ∨
      (∃ k e, Reached docs c w s t k ∧ Expression.parse w.checks k = .err e) ∨ Unprinted docs c w s t := by
  obtain ⟨h1, h2, h3⟩ := target_exact (t := t) (w := w) h
  by_cases hk : isCfgKey t.triple = true
  · refine ⟨fun _ => .inl hk, fun _ => ?_⟩
    cases hr : (c.target t w s).1 with
    | err e => exact ⟨e, rfl⟩
    | ok e => rw [(h1.1 ⟨e, hr⟩).1.triple] at hk; cases hk
    | panic =>
      rcases h2.1 hr with ⟨h4, _⟩ | ⟨h4, _⟩
      · rw [h4.triple] at hk; cases hk
      · rw [h4] at hk; cases hk
  · by_cases hv : TargetVars look t.triple
    · have hk' : isCfgKey t.triple = false := by simpa using hk
      constructor
      · rintro ⟨e, he⟩
        rcases (h3 e hk' hv).1 he with ⟨k, h4⟩ | ⟨h4, h5⟩
        · exact .inr (.inr (.inl ⟨k, e, h4⟩))
        · exact .inr (.inr (.inr ⟨h4, unanswered_iff.1 ⟨e, h5⟩⟩))
      · rintro (h4 | h4 | ⟨k, e, h4⟩ | h4)
        · exact absurd h4 hk
        · exact absurd hv h4
        · exact ⟨e, (h3 e hk' hv).2 (.inl ⟨k, h4⟩)⟩
        · obtain ⟨e, he⟩ := unanswered_iff.2 h4.compiler
          exact ⟨e, (h3 e hk' hv).2 (.inr ⟨h4.first, he⟩)⟩
    · refine ⟨fun _ => .inr (.inl hv), fun _ => ?_⟩
      cases hr : (c.target t w s).1 with
      | err e => exact ⟨e, rfl⟩
      | ok e => exact absurd (h1.1 ⟨e, hr⟩).1.variables hv
      | panic =>
        rcases h2.1 hr with ⟨h4, _⟩ | ⟨_, h4, _⟩
        · exact absurd h4.variables hv
        · exact absurd h4 hv

/-- C70: the error is that of the first key `cfg(..)` rejected, if it is reached. -/
theorem C70_first_error (h : Loads p fs toml cwd o look home docs c s) (hk : isCfgKey t.triple = false)
    (hv : TargetVars look t.triple) {k : Str} {e : Err} (hr : Reached docs c w s t k) (he : Expression.parse w.checks k = .err e) :
    (c.target t w s).1 = .err e :=
  ((target_exact h).2.2 e hk hv).2 (.inl ⟨k, hr, he⟩)

/-! ### samples -/

section sample

/-- Loads `/w/.cargo/config` with the given targets and asks for `x-y`. -/
def outcomeOf (vars : List (OsStr × OsStr)) (f : Path) (targets : List (Str × Toml)) (w : World) : Option (Res ETarget) :=
  (EConfig.loadWithOptions { vars := vars } (oneFile f) (fun _ => Config.de (.tbl [("target".toList, .tbl targets)]))
    "/w".toList {}).toOption.map fun r => (r.1.target sampleTriple w r.2).1

/-- Located: the file's directory's parent is the base. -/
example : (outcomeOf [] "/w/.cargo/config".toList [("x-y".toList, .tbl [("linker".toList, .str "bin/ld".toList)])] sampleWorld).map
    (·.toOption.map (·.linker)) = some (some (some "/w/bin/ld".toList)) := by decide +kernel

/-- Not located: the file `/config` has no base. -/
example : (outcomeOf [(.unicode "CARGO_HOME".toList, .unicode "/".toList)] "/config".toList
    [("x-y".toList, .tbl [("linker".toList, .str "bin/ld".toList)])] sampleWorld).map (·.isPanic) = some true := by decide +kernel

/-- Not located, but not chosen: the variable comes first. -/
example : (outcomeOf [(.unicode "CARGO_HOME".toList, .unicode "/".toList),
      (.unicode "CARGO_TARGET_X_Y_LINKER".toList, .unicode "cc".toList)] "/config".toList
    [("x-y".toList, .tbl [("linker".toList, .str "bin/ld".toList)])] sampleWorld).map (·.toOption.map (·.linker)) =
      some (some (some "cc".toList)) := by decide +kernel

/-- Not located, but the key does not apply. -/
example : (outcomeOf [(.unicode "CARGO_HOME".toList, .unicode "/".toList)] "/config".toList
    [("cfg(windows)".toList, .tbl [("linker".toList, .str "bin/ld".toList)])] sampleWorld).map (·.isOk) = some true := by decide +kernel

/-- The first key rejected decides, not the compiler. -/
example : (outcomeOf [] "/w/.cargo/config".toList [("cfg(any(a)".toList, .tbl []), ("cfg(b)".toList, .tbl [])] failingWorld).bind
    (fun r => shownErr (r, {})) = some "any(a\n   - unclosed parens".toList := by decide +kernel

/-- After an accepted key the compiler decides. -/
example : (outcomeOf [] "/w/.cargo/config".toList [("cfg(a)".toList, .tbl []), ("cfg(any(b)".toList, .tbl [])] failingWorld).bind
    (fun r => shownErr (r, {})) =
      some "process didn't exit successfully: `rustc --print cfg --target x-y` (exit status: 1)\n--- stderr\nbad option".toList := by
  decide +kernel

end sample

end CC
