import Verif.Spec.TargetFirst
import Verif.Lemmas.QueryCause
/-
Lemmas about the order of the variables of a target.
-/
namespace CC

/-- The error for a defect. -/
def TargetDefect.err : TargetDefect → Err
  | .notText n bytes => .envNotUnicode n (.invalid bytes)
  | .blankRunner => .context "invalid length 0, expected at least one element".toList [] [] none

theorem blankMessage : fill "invalid length 0, expected at least one element".toList [] =
    "invalid length 0, expected at least one element".toList := fill_plain _ (by decide +kernel) _

theorem TargetDefect.err_display (d : TargetDefect) (sh : Shown) : d.err.display sh = d.message := by
  cases d with
  | notText n bytes => exact (var_names (env := [(n, .invalid bytes)]) (n := n) (by unfold Env.var Env.get; simp [List.find?]; rfl)).choose_spec.2.2 sh
  | blankRunner => exact (display_context _ _ _ _).trans blankMessage

theorem TargetDefect.err_source (d : TargetDefect) : d.err.source = d.cause := by
  cases d <;> rfl

/-- A variable is read. -/
theorem var_defect (env : Env) (triple : Str) (what : String) :
    match Env.get env (targetEnvName triple what) with
    | none => env.var (targetVar triple what.toList) = .ok none
    | some (.unicode s) => env.var (targetVar triple what.toList) = .ok (some ⟨s, some (.environment (targetEnvName triple what))⟩)
    | some (.invalid b) => env.var (targetVar triple what.toList) = .err (TargetDefect.notText (targetEnvName triple what) b).err := by
  rw [targetVar_eq]
  unfold Env.var
  cases Env.get env (targetEnvName triple what) with
  | none => rfl
  | some v => cases v <;> rfl

theorem envRunner_defect (old : Option PathAndArgs) (s : Str) (d : Option Definition) :
    if wordsIn s = [] then envRunner old (some ⟨s, d⟩) = .err TargetDefect.blankRunner.err else ∃ r, envRunner old (some ⟨s, d⟩) = .ok r := by
  have h := fromString_words s d
  unfold envRunner
  dsimp only
  split
  · rename_i hw
    rw [if_pos hw] at h
    cases hp : PathAndArgs.fromString s d with
    | none => rfl
    | some x => rw [hp] at h; cases h
  · rename_i hw
    rw [if_neg hw] at h
    cases hp : PathAndArgs.fromString s d with
    | none => rw [hp] at h; cases h
    | some x => exact ⟨_, rfl⟩

theorem applyEnv_first {look : Str → Option OsStr} {env : Env} (hl : Env.get env = look) (a : TargetAcc) (triple : Str) :
    match firstTargetDefect look triple with
    | some d => a.applyEnv env triple = .err d.err
    | none => ∃ a', a.applyEnv env triple = .ok a' := by
  subst hl
  have h1 := var_defect env triple "LINKER"
  have h2 := var_defect env triple "RUNNER"
  have h3 := var_defect env triple "RUSTFLAGS"
  have h4 := var_defect env triple "RUSTDOCFLAGS"
  have n1 : ("LINKER" = "RUNNER") = False := by simp
  have n3 : ("RUSTFLAGS" = "RUNNER") = False := by simp
  have n4 : ("RUSTDOCFLAGS" = "RUNNER") = False := by simp
  have tail : ∀ r x, match firstSome (["RUSTFLAGS", "RUSTDOCFLAGS"].map (targetDefect (Env.get env) triple)) with
      | some d => (do
          let x3 ← env.var (targetVar triple "RUSTFLAGS".toList)
          let x4 ← env.var (targetVar triple "RUSTDOCFLAGS".toList)
          pure { linker := envLinker a.linker x, runner := r, rustflags := envFlags a.rustflags x3,
                 rustdocflags := envFlags a.rustdocflags x4 } : Res TargetAcc) = .err d.err
      | none => ∃ a', (do
          let x3 ← env.var (targetVar triple "RUSTFLAGS".toList)
          let x4 ← env.var (targetVar triple "RUSTDOCFLAGS".toList)
          pure { linker := envLinker a.linker x, runner := r, rustflags := envFlags a.rustflags x3,
                 rustdocflags := envFlags a.rustdocflags x4 } : Res TargetAcc) = .ok a' := by
    intro r x
    simp only [List.map, targetDefect, n3, n4, false_and, if_false]
    cases g3 : Env.get env (targetEnvName triple "RUSTFLAGS") with
    | none =>
      rw [g3] at h3
      cases g4 : Env.get env (targetEnvName triple "RUSTDOCFLAGS") with
      | none => rw [g4] at h4; rw [h3, h4]; exact ⟨_, rfl⟩
      | some v => cases v <;> (rw [g4] at h4; rw [h3, h4]) <;> first | exact ⟨_, rfl⟩ | rfl
    | some v =>
      cases v with
      | invalid b => rw [g3] at h3; rw [h3]; rfl
      | unicode y =>
        rw [g3] at h3
        cases g4 : Env.get env (targetEnvName triple "RUSTDOCFLAGS") with
        | none => rw [g4] at h4; rw [h3, h4]; exact ⟨_, rfl⟩
        | some v => cases v <;> (rw [g4] at h4; rw [h3, h4]) <;> first | exact ⟨_, rfl⟩ | rfl
  have mid : ∀ x, match firstSome (["RUNNER", "RUSTFLAGS", "RUSTDOCFLAGS"].map (targetDefect (Env.get env) triple)) with
      | some d => (do
          let x2 ← env.var (targetVar triple "RUNNER".toList)
          let runner ← envRunner a.runner x2
          let x3 ← env.var (targetVar triple "RUSTFLAGS".toList)
          let x4 ← env.var (targetVar triple "RUSTDOCFLAGS".toList)
          pure { linker := envLinker a.linker x, runner := runner, rustflags := envFlags a.rustflags x3,
                 rustdocflags := envFlags a.rustdocflags x4 } : Res TargetAcc) = .err d.err
      | none => ∃ a', (do
          let x2 ← env.var (targetVar triple "RUNNER".toList)
          let runner ← envRunner a.runner x2
          let x3 ← env.var (targetVar triple "RUSTFLAGS".toList)
          let x4 ← env.var (targetVar triple "RUSTDOCFLAGS".toList)
          pure { linker := envLinker a.linker x, runner := runner, rustflags := envFlags a.rustflags x3,
                 rustdocflags := envFlags a.rustdocflags x4 } : Res TargetAcc) = .ok a' := by
    intro x
    rw [List.map_cons]
    cases g2 : Env.get env (targetEnvName triple "RUNNER") with
    | none =>
      have hd : targetDefect (Env.get env) triple "RUNNER" = none := by unfold targetDefect; rw [g2]
      rw [g2] at h2
      rw [hd, h2]
      exact tail a.runner x
    | some v =>
      cases v with
      | invalid b =>
        have hd : targetDefect (Env.get env) triple "RUNNER" = some (.notText (targetEnvName triple "RUNNER") b) := by
          unfold targetDefect; rw [g2]
        rw [g2] at h2
        rw [hd, h2]
        rfl
      | unicode y =>
        rw [g2] at h2
        have hr := envRunner_defect a.runner y (some (.environment (targetEnvName triple "RUNNER")))
        by_cases hw : wordsIn y = []
        · have hd : targetDefect (Env.get env) triple "RUNNER" = some .blankRunner := by
            unfold targetDefect; rw [g2]; exact if_pos ⟨rfl, hw⟩
          rw [if_pos hw] at hr
          rw [hd, h2]
          show (envRunner a.runner _ >>= _) = _
          rw [hr]
          rfl
        · have hd : targetDefect (Env.get env) triple "RUNNER" = none := by
            unfold targetDefect; rw [g2]; exact if_neg (fun h => hw h.2)
          rw [if_neg hw] at hr
          obtain ⟨r, hr⟩ := hr
          have ht := tail r x
          rw [hd, h2]
          show match firstSome (["RUSTFLAGS", "RUSTDOCFLAGS"].map (targetDefect (Env.get env) triple)) with
            | some d => (envRunner a.runner _ >>= _) = _
            | none => ∃ a', (envRunner a.runner _ >>= _) = _
          rw [hr]
          exact ht
  unfold firstTargetDefect TargetAcc.applyEnv
  rw [List.map_cons]
  cases g1 : Env.get env (targetEnvName triple "LINKER") with
  | none =>
    have hd : targetDefect (Env.get env) triple "LINKER" = none := by unfold targetDefect; rw [g1]
    rw [g1] at h1
    rw [hd, h1]
    exact mid _
  | some v =>
    cases v with
    | invalid b =>
      have hd : targetDefect (Env.get env) triple "LINKER" = some (.notText (targetEnvName triple "LINKER") b) := by
        unfold targetDefect; rw [g1]
      rw [g1] at h1
      rw [hd, h1]
      rfl
    | unicode y =>
      have hd : targetDefect (Env.get env) triple "LINKER" = none := by
        unfold targetDefect; rw [g1]; exact if_neg (fun h => by simp at h)
      rw [g1] at h1
      rw [hd, h1]
      exact mid _

end CC
