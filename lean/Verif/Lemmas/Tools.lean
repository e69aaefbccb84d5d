import Verif.Lemmas.History
import Verif.Props.Version
import Verif.Props.Small
import Verif.Spec.Tools
/-
Lemmas on the queries that run `cargo -vV` and `rustc -vV`.
-/
namespace CC

variable {w : World} {s s' : Cells} {c : EConfig} {cm : Cmd}

theorem printed_iff {o : ProcOut} {out : Str} : Printed o out ↔ procRead cm o = .ok out := by
  constructor
  · rintro ⟨b, rfl, h1, h2⟩
    obtain ⟨t, b', h3, h4, h5, h6⟩ := C59_output_trimmed cm (out ++ b)
    rw [h3]
    have key : ∀ (a a' b b' : Str), a ++ b = a' ++ b' → (∀ c ∈ b, c = '\n' ∨ c = '\r') →
        (∀ c, a'.getLast? = some c → ¬ (c = '\n' ∨ c = '\r')) → ∃ r, a = a' ++ r := by
      intro a a' b b' he hb ha'
      rcases List.append_eq_append_iff.1 he with ⟨x, h7, h8⟩ | ⟨x, h7, h8⟩
      · rcases List.eq_nil_or_concat x with rfl | ⟨y, z, rfl⟩
        · exact ⟨[], by simpa using h7.symm⟩
        · exfalso
          rw [List.concat_eq_append] at h7 h8
          refine ha' z (by rw [h7]; simp) (hb z (by rw [h8]; simp))
      · exact ⟨x, h7⟩
    obtain ⟨r, hr⟩ := key out t b b' h4 h1 h6
    obtain ⟨r', hr'⟩ := key t out b' b h4.symm h5 h2
    have : r' = [] := by
      have := congrArg List.length hr
      rw [hr'] at this
      simp only [List.length_append] at this
      exact List.eq_nil_of_length_eq_zero (by omega)
    rw [hr', this, List.append_nil]
  · intro h
    obtain ⟨s, rfl⟩ := (C59_succeeds_iff cm o).1.1 ⟨_, h⟩
    obtain ⟨t, b', h3, h4, h5, h6⟩ := C59_output_trimmed cm s
    rw [h] at h3
    rw [← Res.ok.inj h3] at h4 h6
    exact ⟨b', by rw [h4], h5, h6⟩

theorem cargoTells_iff {o : ProcOut} {h : Str} : CargoTells o h ↔
    ∃ vv v, procRead cm o = .ok vv ∧ cargoVersionOf cm vv = .ok v ∧ hostTripleOf cm vv = .ok h := by
  unfold CargoTells
  simp only [C43_cargo_version, C43_host, printed_iff (cm := cm)]
  constructor
  · rintro ⟨out, rest, a, b, p, n, h1, h2, h3, h4⟩
    exact ⟨out, ⟨a, b, p, n⟩, h1, ⟨rest, h2, h3⟩, h4⟩
  · rintro ⟨out, v, h1, ⟨rest, h2, h3⟩, h4⟩
    exact ⟨out, rest, _, _, _, _, h1, h2, h3, h4⟩

theorem rustcTells_iff {o : ProcOut} {h : Str} : RustcTells o h ↔
    ∃ vv v, procRead cm o = .ok vv ∧ rustcVersionOf cm vv = .ok v ∧ hostTripleOf cm vv = .ok h := by
  unfold RustcTells
  simp only [C43_rustc_version, C43_host, printed_iff (cm := cm)]
  constructor
  · rintro ⟨out, rest, a, b, p, n, h1, h2, h3, h4⟩
    exact ⟨out, ⟨a, b, p, n⟩, h1, ⟨rest, h2, h3⟩, h4⟩
  · rintro ⟨out, v, h1, ⟨rest, h2, h3⟩, h4⟩
    exact ⟨out, rest, _, _, _, _, h1, h2, h3, h4⟩

theorem rustcReports_iff {o : ProcOut} {v : RustcVersion} : RustcReports o v ↔
    ∃ vv, procRead cm o = .ok vv ∧ rustcVersionOf cm vv = .ok v := by
  unfold RustcReports
  simp only [C43_rustc_version, printed_iff (cm := cm)]
  constructor
  · rintro ⟨out, rest, h1, h2, h3⟩; exact ⟨out, h1, rest, h2, h3⟩
  · rintro ⟨out, h1, rest, h2, h3⟩; exact ⟨out, rest, h1, h2, h3⟩

theorem cargoReports_iff {o : ProcOut} {v : CargoVersion} : CargoReports o v ↔
    ∃ vv, procRead cm o = .ok vv ∧ cargoVersionOf cm vv = .ok v := by
  unfold CargoReports
  simp only [C43_cargo_version, printed_iff (cm := cm)]
  constructor
  · rintro ⟨out, rest, h1, h2, h3⟩; exact ⟨out, h1, rest, h2, h3⟩
  · rintro ⟨out, h1, rest, h2, h3⟩; exact ⟨out, rest, h1, h2, h3⟩

theorem isRustc_found (c : EConfig) (exist : Path → Bool) : IsRustc c exist (rustcFound c.cx c.build exist) := by
  unfold rustcFound
  cases h : c.build.rustc with
  | some p => exact .given p h
  | none =>
    dsimp only
    cases he : exist (Path.join (Path.pop c.cx.cargo.path) "rustc".toList) with
    | true => rw [if_pos rfl]; exact .sibling h he
    | false => rw [if_neg (by decide)]; exact .plain h he

theorem isRustc_unique {exist : Path → Bool} {p : Path} (h : IsRustc c exist p) : p = rustcFound c.cx c.build exist := by
  unfold rustcFound
  cases h with
  | given p h => rw [h]
  | sibling h he => rw [h]; dsimp only; rw [if_pos he]
  | plain h he => rw [h]; dsimp only; rw [if_neg (by rw [he]; decide)]

theorem wrapped_line (ws : List Path) (p : Path) : (wrapped ws p).line = ws ++ [p] := by
  cases ws <;> rfl

theorem cmd_line (x : EPathAndArgs) (more : List Str) : (x.cmd more).line = x.line ++ more := rfl

/-- The compiler asked for its version. -/
def rustcVV (c : EConfig) (exist : Path → Bool) : Cmd :=
  (wrapped c.build.rustcWrapper.toList (rustcFound c.cx c.build exist)).cmd ["-vV".toList]

theorem isRustcVV (c : EConfig) (exist : Path → Bool) : IsRustcVV c exist (rustcVV c exist) :=
  ⟨_, isRustc_found c exist, by rw [rustcVV, cmd_line, wrapped_line]; simp⟩

theorem line_inj {x y : Cmd} (h : x.line = y.line) : x = y := by
  cases x; cases y
  unfold Cmd.line at h
  dsimp only at h
  obtain ⟨rfl, rfl⟩ := List.cons.inj h
  rfl

theorem isRustcVV_unique {exist : Path → Bool} {x : Cmd} (h : IsRustcVV c exist x) : x = rustcVV c exist := by
  obtain ⟨p, hp, hx⟩ := h
  refine line_inj ?_
  rw [hx, isRustc_unique hp, rustcVV, cmd_line, wrapped_line]
  simp

/-! ### The parts of `host_triple` -/

/-- What remains when the output was read: check the version, store it, read the host. -/
def cargoPart (w : World) (cm : Cmd) (o : ProcOut) (s : Cells) : Res Str × Cells :=
  match procRead cm o with
  | .err e => (.err e, s)
  | .panic => (.panic, s)
  | .ok vv =>
    match cargoVersionOf cm vv with
    | .err e => (.err e, s)
    | .panic => (.panic, s)
    | .ok v =>
      match s.cargoVersion with
      | some _ => (if w.checks then .panic else hostTripleOf cm vv, s)
      | none => (hostTripleOf cm vv, { s with cargoVersion := some v })

theorem hostFromCargo_eq (c : EConfig) (w : World) (s : Cells) : hostFromCargo c.cx w s =
    cargoPart w (cargoVV c) (w.run s.clock (cargoVV c)) { s with clock := s.clock + 1, trace := s.trace ++ [cargoVV c] } := by
  unfold hostFromCargo cargoPart verboseVersion
  have hc : EPathAndArgs.vvCmd { path := c.cx.cargo.path, args := [] } = cargoVV c := rfl
  rw [hc, Act.bind_def, Act.read_def]
  generalize w.run s.clock (cargoVV c) = o
  generalize cargoVV c = cm
  cases procRead cm o with
  | err e => rfl
  | panic => rfl
  | ok vv =>
    dsimp only
    rw [Act.lift_bind]
    cases cargoVersionOf cm vv with
    | err e => rfl
    | panic => rfl
    | ok v =>
      dsimp only
      unfold setCargoVersion
      rw [Act.bind_def, Act.cells_bind]
      dsimp only
      cases s.cargoVersion with
      | some x => cases hw : w.checks <;> simp [Act.debugAssert, Act.lift, hw]
      | none => rfl

/-- The same for the compiler. -/
def rustcPart (w : World) (cm : Cmd) (o : ProcOut) (s : Cells) : Res Str × Cells :=
  match procRead cm o with
  | .err e => (.err e, s)
  | .panic => (.panic, s)
  | .ok vv =>
    match rustcVersionOf cm vv with
    | .err e => (.err e, s)
    | .panic => (.panic, s)
    | .ok v =>
      match s.rustcVersion with
      | some _ => (if w.checks then .panic else hostTripleOf cm vv, s)
      | none => (hostTripleOf cm vv, { s with rustcVersion := some v })

theorem hostFromRustc_eq (c : EConfig) (w : World) (s : Cells) : ∃ n, s.clock ≤ n ∧ hostFromRustc c.cx c.build w s =
    rustcPart w (rustcVV c (w.exist s.clock)) (w.run n (rustcVV c (w.exist s.clock)))
      { s with clock := n + 1, trace := s.trace ++ [rustcVV c (w.exist s.clock)] } := by
  obtain ⟨n, hn, h⟩ := rustcForVersion_eq c.cx c.build w s
  refine ⟨n, hn, ?_⟩
  unfold hostFromRustc rustcPart verboseVersion
  rw [Act.bind_of_ok h]
  have hc : (wrapped c.build.rustcWrapper.toList (rustcFound c.cx c.build (w.exist s.clock))).vvCmd =
    rustcVV c (w.exist s.clock) := rfl
  rw [hc, Act.bind_def, Act.read_def]
  dsimp only
  generalize w.run n (rustcVV c (w.exist s.clock)) = o
  generalize rustcVV c (w.exist s.clock) = cm
  cases procRead cm o with
  | err e => rfl
  | panic => rfl
  | ok vv =>
    dsimp only
    rw [Act.lift_bind]
    cases rustcVersionOf cm vv with
    | err e => rfl
    | panic => rfl
    | ok v =>
      dsimp only
      unfold setRustcVersion
      rw [Act.bind_def, Act.cells_bind]
      dsimp only
      cases s.rustcVersion with
      | some x => cases hw : w.checks <;> simp [Act.debugAssert, Act.lift, hw]
      | none => rfl

/-- Version queries do not panic in this state: without debug assertions, or if no version is stored. -/
def CanSet (w : World) (s : Cells) : Prop := w.checks = false ∨ (s.cargoVersion = none ∧ s.rustcVersion = none)

theorem version_no_panic (vv : Str) :
    rustcVersionOf cm vv ≠ .panic ∧ cargoVersionOf cm vv ≠ .panic ∧ hostTripleOf cm vv ≠ .panic := by
  have key : ∀ {α : Type} (e : Err) (o : Option α), Res.ofOption e o ≠ .panic := by
    intro α e o h
    cases o <;> cases h
  exact ⟨key _ _, key _ _, key _ _⟩

theorem cargoPart_cases (o : ProcOut) (h : w.checks = false ∨ s.cargoVersion = none) :
    ((∃ x, (cargoPart w cm o s).1 = .ok x ∧ CargoTells o x) ∨
      (∃ e, (cargoPart w cm o s).1 = .err e) ∧ ∀ x, ¬ CargoTells o x) ∧
    (cargoPart w cm o s).2.rustcVersion = s.rustcVersion ∧ (cargoPart w cm o s).2.hostTriple = s.hostTriple ∧
    (∀ v, (cargoPart w cm o s).2.cargoVersion = some v → s.cargoVersion = some v ∨ CargoReports o v) := by
  simp only [cargoTells_iff (cm := cm), cargoReports_iff (cm := cm)]
  unfold cargoPart
  have hp := (C59_succeeds_iff cm o).2
  cases ho : procRead cm o with
  | panic => exact absurd ho hp
  | err e => exact ⟨Or.inr ⟨⟨e, rfl⟩, by rintro x ⟨vv, v, hv, _⟩; cases hv⟩, rfl, rfl, fun v hv => Or.inl hv⟩
  | ok vv =>
    dsimp only
    have hn := version_no_panic (cm := cm) vv
    cases hv : cargoVersionOf cm vv with
    | panic => exact absurd hv hn.2.1
    | err e =>
      refine ⟨Or.inr ⟨⟨e, rfl⟩, ?_⟩, rfl, rfl, fun v hv => Or.inl hv⟩
      rintro x ⟨vv', v, h1, h2, _⟩
      cases h1
      rw [hv] at h2; cases h2
    | ok v =>
      have hh : (∃ x, hostTripleOf cm vv = .ok x ∧ ∃ vv', ∃ v, Res.ok vv = .ok vv' ∧ cargoVersionOf cm vv' = .ok v ∧ hostTripleOf cm vv' = .ok x) ∨
          (∃ e, hostTripleOf cm vv = .err e) ∧ ∀ x, ¬ ∃ vv', ∃ v, Res.ok vv = .ok vv' ∧ cargoVersionOf cm vv' = .ok v ∧ hostTripleOf cm vv' = .ok x := by
        cases ht : hostTripleOf cm vv with
        | panic => exact absurd ht hn.2.2
        | ok x => exact Or.inl ⟨x, rfl, vv, v, rfl, hv, ht⟩
        | err e =>
          refine Or.inr ⟨⟨e, rfl⟩, ?_⟩
          rintro x ⟨vv', v, h1, h2, h3⟩
          cases h1
          rw [ht] at h3; cases h3
      dsimp only
      cases hs : s.cargoVersion with
      | some y =>
        rcases h with h | h
        · dsimp only
          rw [if_neg (by rw [h]; decide)]
          exact ⟨hh, rfl, rfl, fun v hv => Or.inl (by rw [← hs]; exact hv)⟩
        · rw [hs] at h; cases h
      | none => exact ⟨hh, rfl, rfl, fun v' hv' => Or.inr ⟨vv, rfl, by cases hv'; exact hv⟩⟩

theorem rustcPart_cases (o : ProcOut) (h : w.checks = false ∨ s.rustcVersion = none) :
    ((∃ x, (rustcPart w cm o s).1 = .ok x ∧ RustcTells o x) ∨
      (∃ e, (rustcPart w cm o s).1 = .err e) ∧ ∀ x, ¬ RustcTells o x) ∧
    (rustcPart w cm o s).2.cargoVersion = s.cargoVersion ∧ (rustcPart w cm o s).2.hostTriple = s.hostTriple ∧
    (∀ v, (rustcPart w cm o s).2.rustcVersion = some v → s.rustcVersion = some v ∨ RustcReports o v) := by
  simp only [rustcTells_iff (cm := cm), rustcReports_iff (cm := cm)]
  unfold rustcPart
  have hp := (C59_succeeds_iff cm o).2
  cases ho : procRead cm o with
  | panic => exact absurd ho hp
  | err e => exact ⟨Or.inr ⟨⟨e, rfl⟩, by rintro x ⟨vv, v, hv, _⟩; cases hv⟩, rfl, rfl, fun v hv => Or.inl hv⟩
  | ok vv =>
    dsimp only
    have hn := version_no_panic (cm := cm) vv
    cases hv : rustcVersionOf cm vv with
    | panic => exact absurd hv hn.1
    | err e =>
      refine ⟨Or.inr ⟨⟨e, rfl⟩, ?_⟩, rfl, rfl, fun v hv => Or.inl hv⟩
      rintro x ⟨vv', v, h1, h2, _⟩
      cases h1
      rw [hv] at h2; cases h2
    | ok v =>
      have hh : (∃ x, hostTripleOf cm vv = .ok x ∧ ∃ vv', ∃ v, Res.ok vv = .ok vv' ∧ rustcVersionOf cm vv' = .ok v ∧ hostTripleOf cm vv' = .ok x) ∨
          (∃ e, hostTripleOf cm vv = .err e) ∧ ∀ x, ¬ ∃ vv', ∃ v, Res.ok vv = .ok vv' ∧ rustcVersionOf cm vv' = .ok v ∧ hostTripleOf cm vv' = .ok x := by
        cases ht : hostTripleOf cm vv with
        | panic => exact absurd ht hn.2.2
        | ok x => exact Or.inl ⟨x, rfl, vv, v, rfl, hv, ht⟩
        | err e =>
          refine Or.inr ⟨⟨e, rfl⟩, ?_⟩
          rintro x ⟨vv', v, h1, h2, h3⟩
          cases h1
          rw [ht] at h3; cases h3
      dsimp only
      cases hs : s.rustcVersion with
      | some y =>
        rcases h with h | h
        · dsimp only
          rw [if_neg (by rw [h]; decide)]
          exact ⟨hh, rfl, rfl, fun v hv => Or.inl (by rw [← hs]; exact hv)⟩
        · rw [hs] at h; cases h
      | none => exact ⟨hh, rfl, rfl, fun v' hv' => Or.inr ⟨vv, rfl, by cases hv'; exact hv⟩⟩

theorem cargoPart_io (o : ProcOut) : (cargoPart w cm o s).2.clock = s.clock ∧ (cargoPart w cm o s).2.trace = s.trace := by
  unfold cargoPart
  cases procRead cm o with
  | err e => exact ⟨rfl, rfl⟩
  | panic => exact ⟨rfl, rfl⟩
  | ok vv =>
    dsimp only
    cases cargoVersionOf cm vv with
    | err e => exact ⟨rfl, rfl⟩
    | panic => exact ⟨rfl, rfl⟩
    | ok v =>
      dsimp only
      cases s.cargoVersion <;> exact ⟨rfl, rfl⟩

theorem rustcPart_io (o : ProcOut) : (rustcPart w cm o s).2.clock = s.clock ∧ (rustcPart w cm o s).2.trace = s.trace := by
  unfold rustcPart
  cases procRead cm o with
  | err e => exact ⟨rfl, rfl⟩
  | panic => exact ⟨rfl, rfl⟩
  | ok vv =>
    dsimp only
    cases rustcVersionOf cm vv with
    | err e => exact ⟨rfl, rfl⟩
    | panic => exact ⟨rfl, rfl⟩
    | ok v =>
      dsimp only
      cases s.rustcVersion <;> exact ⟨rfl, rfl⟩

/-- `findHost`: the rule, what is stored, and what is run. -/
theorem findHost_rule (c : EConfig) (w : World) (s : Cells) (h : CanSet w s) :
    ∃ n, s.clock < n ∧ HostRule (w.run s.clock (cargoVV c)) (w.run n (rustcVV c (w.exist (s.clock + 1))))
        (findHost c.cx c.build w s).1 ∧
      (∀ v, (findHost c.cx c.build w s).2.cargoVersion = some v →
        s.cargoVersion = some v ∨ CargoReports (w.run s.clock (cargoVV c)) v) ∧
      (∀ v, (findHost c.cx c.build w s).2.rustcVersion = some v →
        s.rustcVersion = some v ∨ RustcReports (w.run n (rustcVV c (w.exist (s.clock + 1)))) v) ∧
      ((findHost c.cx c.build w s).2.trace = s.trace ++ [cargoVV c] ∧ (∃ x, CargoTells (w.run s.clock (cargoVV c)) x) ∨
        (findHost c.cx c.build w s).2.trace = s.trace ++ [cargoVV c, rustcVV c (w.exist (s.clock + 1))]) := by
  have h1 : w.checks = false ∨ s.cargoVersion = none := h.imp id And.left
  have h2 : w.checks = false ∨ s.rustcVersion = none := h.imp id And.right
  unfold findHost
  rw [Act.bind_def]
  unfold Act.attempt
  rw [hostFromCargo_eq]
  obtain ⟨hc, hr, -, hv⟩ := cargoPart_cases (w := w) (cm := cargoVV c) (s := { s with clock := s.clock + 1, trace := s.trace ++ [cargoVV c] })
    (w.run s.clock (cargoVV c)) h1
  have hio := cargoPart_io (w := w) (cm := cargoVV c) (s := { s with clock := s.clock + 1, trace := s.trace ++ [cargoVV c] })
    (w.run s.clock (cargoVV c))
  generalize cargoPart w (cargoVV c) (w.run s.clock (cargoVV c)) { s with clock := s.clock + 1, trace := s.trace ++ [cargoVV c] } = x
    at hc hr hv hio
  obtain ⟨r, s1⟩ := x
  rcases hc with ⟨x, hx, ht⟩ | ⟨⟨e, hx⟩, ht⟩
  · dsimp only at hx hio
    subst hx
    exact ⟨s.clock + 1, Nat.lt_succ_self _, .cargo x ht, hv, fun v hv => Or.inl (by rw [← hr]; exact hv), Or.inl ⟨hio.2, x, ht⟩⟩
  · dsimp only at hx hio
    subst hx
    dsimp only
    obtain ⟨n, hn, hrc⟩ := hostFromRustc_eq c w s1
    rw [hio.1] at hn hrc
    refine ⟨n, hn, ?_⟩
    dsimp only at hr
    have h3 : w.checks = false ∨ s1.rustcVersion = none := by rw [hr]; exact h2
    obtain ⟨hc', hr', -, hv'⟩ := rustcPart_cases (w := w) (cm := rustcVV c (w.exist (s.clock + 1)))
      (s := { s1 with clock := n + 1, trace := s1.trace ++ [rustcVV c (w.exist (s.clock + 1))] })
      (w.run n (rustcVV c (w.exist (s.clock + 1)))) h3
    have hio' := rustcPart_io (w := w) (cm := rustcVV c (w.exist (s.clock + 1)))
      (s := { s1 with clock := n + 1, trace := s1.trace ++ [rustcVV c (w.exist (s.clock + 1))] })
      (w.run n (rustcVV c (w.exist (s.clock + 1))))
    rw [hrc]
    generalize rustcPart w (rustcVV c (w.exist (s.clock + 1))) (w.run n (rustcVV c (w.exist (s.clock + 1))))
      { s1 with clock := n + 1, trace := s1.trace ++ [rustcVV c (w.exist (s.clock + 1))] } = y at hc' hr' hv' hio'
    obtain ⟨r, s2⟩ := y
    dsimp only at hr' hv' hv hc' hio' ⊢
    refine ⟨?_, fun v hv2 => hv v (by rw [← hr']; exact hv2), fun v hv2 => (by rw [hr] at hv'; exact hv' v hv2), Or.inr ?_⟩
    · rcases hc' with ⟨x, rfl, ht'⟩ | ⟨⟨e, rfl⟩, ht'⟩
      · exact .rustc x ht ht'
      · exact .neither e ht ht'
    · rw [hio'.2, hio.2]; simp

/-! ### Asking for the versions -/

theorem askRustcVersion_cases (c : EConfig) (w : World) (s : Cells) : ∃ n, s.clock ≤ n ∧
    ((∃ v, (askRustcVersion c.cx c.build w s).1 = .ok v ∧ RustcReports (w.run n (rustcVV c (w.exist s.clock))) v) ∨
      (∃ e, (askRustcVersion c.cx c.build w s).1 = .err e) ∧ ∀ v, ¬ RustcReports (w.run n (rustcVV c (w.exist s.clock))) v) ∧
    (askRustcVersion c.cx c.build w s).2 = { s with clock := n + 1, trace := s.trace ++ [rustcVV c (w.exist s.clock)] } := by
  obtain ⟨n, hn, h⟩ := rustcForVersion_eq c.cx c.build w s
  refine ⟨n, hn, ?_⟩
  simp only [rustcReports_iff (cm := rustcVV c (w.exist s.clock))]
  unfold askRustcVersion verboseVersion
  rw [Act.bind_of_ok h]
  have hc : (wrapped c.build.rustcWrapper.toList (rustcFound c.cx c.build (w.exist s.clock))).vvCmd =
    rustcVV c (w.exist s.clock) := rfl
  rw [hc, Act.bind_def, Act.read_def]
  dsimp only
  have hp := (C59_succeeds_iff (rustcVV c (w.exist s.clock)) (w.run n (rustcVV c (w.exist s.clock)))).2
  cases ho : procRead (rustcVV c (w.exist s.clock)) (w.run n (rustcVV c (w.exist s.clock))) with
  | panic => exact absurd ho hp
  | err e => exact ⟨Or.inr ⟨⟨e, rfl⟩, by rintro v ⟨vv, hv, _⟩; cases hv⟩, rfl⟩
  | ok vv =>
    dsimp only [Act.lift_def]
    cases hv : rustcVersionOf (rustcVV c (w.exist s.clock)) vv with
    | panic => exact absurd hv (version_no_panic vv).1
    | err e =>
      refine ⟨Or.inr ⟨⟨e, rfl⟩, ?_⟩, rfl⟩
      rintro v ⟨vv', h1, h2⟩
      cases h1
      rw [hv] at h2; cases h2
    | ok v => exact ⟨Or.inl ⟨v, rfl, vv, rfl, hv⟩, rfl⟩

theorem askCargoVersion_cases (c : EConfig) (w : World) (s : Cells) :
    ((∃ v, (askCargoVersion c.cx w s).1 = .ok v ∧ CargoReports (w.run s.clock (cargoVV c)) v) ∨
      (∃ e, (askCargoVersion c.cx w s).1 = .err e) ∧ ∀ v, ¬ CargoReports (w.run s.clock (cargoVV c)) v) ∧
    (askCargoVersion c.cx w s).2 = { s with clock := s.clock + 1, trace := s.trace ++ [cargoVV c] } := by
  simp only [cargoReports_iff (cm := cargoVV c)]
  unfold askCargoVersion verboseVersion
  have hc : EPathAndArgs.vvCmd { path := c.cx.cargo.path, args := [] } = cargoVV c := rfl
  rw [hc, Act.bind_def, Act.read_def]
  have hp := (C59_succeeds_iff (cargoVV c) (w.run s.clock (cargoVV c))).2
  cases ho : procRead (cargoVV c) (w.run s.clock (cargoVV c)) with
  | panic => exact absurd ho hp
  | err e => exact ⟨Or.inr ⟨⟨e, rfl⟩, by rintro v ⟨vv, hv, _⟩; cases hv⟩, rfl⟩
  | ok vv =>
    dsimp only [Act.lift_def]
    cases hv : cargoVersionOf (cargoVV c) vv with
    | panic => exact absurd hv (version_no_panic vv).2.1
    | err e =>
      refine ⟨Or.inr ⟨⟨e, rfl⟩, ?_⟩, rfl⟩
      rintro v ⟨vv', h1, h2⟩
      cases h1
      rw [hv] at h2; cases h2
    | ok v => exact ⟨Or.inl ⟨v, rfl, vv, rfl, hv⟩, rfl⟩

/-! ### What is stored, in any state -/

theorem cargoPart_version (o : ProcOut) : (cargoPart w cm o s).2.rustcVersion = s.rustcVersion := by
  unfold cargoPart
  cases procRead cm o with
  | err e => rfl
  | panic => rfl
  | ok vv =>
    dsimp only
    cases cargoVersionOf cm vv with
    | err e => rfl
    | panic => rfl
    | ok v =>
      dsimp only
      cases s.cargoVersion <;> rfl

theorem rustcPart_version (o : ProcOut) (v : RustcVersion) (h : (rustcPart w cm o s).2.rustcVersion = some v) :
    s.rustcVersion = some v ∨ RustcReports o v := by
  rw [rustcReports_iff (cm := cm)]
  unfold rustcPart at h
  cases ho : procRead cm o with
  | err e => rw [ho] at h; exact Or.inl h
  | panic => rw [ho] at h; exact Or.inl h
  | ok vv =>
    rw [ho] at h
    dsimp only at h
    cases hv : rustcVersionOf cm vv with
    | err e => rw [hv] at h; exact Or.inl h
    | panic => rw [hv] at h; exact Or.inl h
    | ok v' =>
      rw [hv] at h
      dsimp only at h
      cases hs : s.rustcVersion with
      | some x => rw [hs] at h; dsimp only at h; rw [hs] at h; exact Or.inl h
      | none => rw [hs] at h; cases h; exact Or.inr ⟨vv, rfl, hv⟩

theorem queryHostTriple_version (c : EConfig) (w : World) (s : Cells) (v : RustcVersion)
    (h : (queryHostTriple c.cx c.build w s).2.rustcVersion = some v) :
    s.rustcVersion = some v ∨ ∃ n k, RustcReports (w.run n (rustcVV c (w.exist k))) v := by
  cases hs : s.hostTriple with
  | some x => rw [queryHostTriple_set hs] at h; exact Or.inl h
  | none =>
    rw [queryHostTriple_unset hs] at h
    have h1 : (findHost c.cx c.build w s).2.rustcVersion = some v := by
      generalize findHost c.cx c.build w s = x at h
      obtain ⟨r, s1⟩ := x
      cases r <;> exact h
    unfold findHost at h1
    rw [Act.bind_def] at h1
    unfold Act.attempt at h1
    rw [hostFromCargo_eq] at h1
    have h2 := cargoPart_version (w := w) (cm := cargoVV c) (s := { s with clock := s.clock + 1, trace := s.trace ++ [cargoVV c] })
      (w.run s.clock (cargoVV c))
    generalize cargoPart w (cargoVV c) (w.run s.clock (cargoVV c)) { s with clock := s.clock + 1, trace := s.trace ++ [cargoVV c] } = x
      at h1 h2
    obtain ⟨r, s1⟩ := x
    dsimp only at h2
    cases r with
    | ok x => left; rw [← h2]; exact h1
    | panic => left; rw [← h2]; exact h1
    | err e =>
      dsimp only at h1
      obtain ⟨n, -, h3⟩ := hostFromRustc_eq c w s1
      rw [h3] at h1
      rcases rustcPart_version _ _ h1 with h4 | h4
      · left; rw [← h2]; exact h4
      · exact Or.inr ⟨_, _, h4⟩

/-- The version stored by a query is one that the compiler reported. -/
theorem ask_version (c : EConfig) (q : Query) (w : World) (s : Cells) (v : RustcVersion)
    (h : (c.ask q w s).2.rustcVersion = some v) :
    s.rustcVersion = some v ∨ ∃ n k, RustcReports (w.run n (rustcVV c (w.exist k))) v := by
  have hhost := queryHostTriple_version c w s v
  cases ht : q.targetOf with
  | some t =>
    left
    rw [ask_target ht, map_snd] at h
    obtain ⟨s1, h1, h2⟩ := target_cells c t w s
    have h3 : s1.rustcVersion = some v := by
      rcases h2 with ⟨h2, -⟩ | ⟨e, -, -, h2⟩ <;> rw [h2] at h <;> exact h
    rcases h1 with rfl | ⟨-, -, rfl⟩
    · exact h3
    · rw [← (cfgOf_target w s).2.2.1]; exact h3
  | none =>
    cases q with
    | target t => cases ht
    | linker t => cases ht
    | runner t => cases ht
    | rustflags t => cases ht
    | rustdocflags t => cases ht
    | rustc =>
      left
      obtain ⟨r, n, h4⟩ := queryRustc_total c.cx c.build w s
      have : (Act.map Answer.rustc (queryRustc c.cx c.build) w s).2.rustcVersion = some v := h
      rw [map_snd, h4] at this
      exact this
    | hostTriple =>
      have : (Act.map Answer.host (queryHostTriple c.cx c.build) w s).2.rustcVersion = some v := h
      rw [map_snd] at this
      exact hhost this
    | rustcVersion =>
      have h : (Act.map Answer.rustcVersion (queryRustcVersion c.cx c.build) w s).2.rustcVersion = some v := h
      rw [map_snd] at h
      cases hs : s.rustcVersion with
      | some v' => rw [queryRustcVersion_set hs] at h; left; rw [← hs]; exact h
      | none =>
        rw [queryRustcVersion_unset hs] at h
        rw [← hs]
        unfold Act.attempt at h
        generalize queryHostTriple c.cx c.build w s = x at h hhost
        obtain ⟨r, s1⟩ := x
        have key : (match s1.rustcVersion with
            | some v => ((.ok v : Res RustcVersion), s1)
            | none =>
              match askRustcVersion c.cx c.build w s1 with
              | (.ok v, s2) => (.ok v, { s2 with rustcVersion := some v })
              | (.err e, s2) => (.err e, s2)
              | (.panic, s2) => (.panic, s2)).2.rustcVersion = some v →
            s.rustcVersion = some v ∨ ∃ n k, RustcReports (w.run n (rustcVV c (w.exist k))) v := by
          intro h
          cases hv : s1.rustcVersion with
          | some v' => rw [hv] at h; exact hhost h
          | none =>
            rw [hv] at h
            dsimp only at h
            obtain ⟨n, -, h1, h2⟩ := askRustcVersion_cases c w s1
            generalize askRustcVersion c.cx c.build w s1 = y at h h1 h2
            obtain ⟨r, s2⟩ := y
            dsimp only at h1 h2
            rcases h1 with ⟨v', rfl, h3⟩ | ⟨⟨e, rfl⟩, -⟩
            · cases h; exact Or.inr ⟨_, _, h3⟩
            · dsimp only at h; rw [h2] at h; dsimp only at h; rw [hv] at h; cases h
        cases r with
        | ok x => exact key h
        | err e => exact key h
        | panic => exact hhost h
    | cargoVersion =>
      have h : (Act.map Answer.cargoVersion (queryCargoVersion c.cx c.build) w s).2.rustcVersion = some v := h
      rw [map_snd] at h
      cases hs : s.cargoVersion with
      | some v' => rw [queryCargoVersion_set hs] at h; left; exact h
      | none =>
        rw [queryCargoVersion_unset hs] at h
        unfold Act.attempt at h
        generalize queryHostTriple c.cx c.build w s = x at h hhost
        obtain ⟨r, s1⟩ := x
        have key : (match s1.cargoVersion with
            | some v => ((.ok v : Res CargoVersion), s1)
            | none =>
              match askCargoVersion c.cx w s1 with
              | (.ok v, s2) => (.ok v, { s2 with cargoVersion := some v })
              | (.err e, s2) => (.err e, s2)
              | (.panic, s2) => (.panic, s2)).2.rustcVersion = some v →
            s.rustcVersion = some v ∨ ∃ n k, RustcReports (w.run n (rustcVV c (w.exist k))) v := by
          intro h
          cases hv : s1.cargoVersion with
          | some v' => rw [hv] at h; exact hhost h
          | none =>
            rw [hv] at h
            dsimp only at h
            obtain ⟨-, h2⟩ := askCargoVersion_cases c w s1
            generalize askCargoVersion c.cx w s1 = y at h h2
            obtain ⟨r, s2⟩ := y
            dsimp only at h2
            subst h2
            cases r <;> exact hhost h
        cases r with
        | ok x => exact key h
        | err e => exact key h
        | panic => exact hhost h
    | buildTargetForConfig ts =>
      have h : (Act.map Answer.targets (c.buildTargetForConfig ts) w s).2.rustcVersion = some v := h
      rw [map_snd] at h
      unfold EConfig.buildTargetForConfig at h
      split at h
      · exact Or.inl h
      · dsimp only at h
        split at h
        · exact Or.inl h
        · rw [Act.bind_def] at h
          unfold EConfig.hostTriple at h
          generalize queryHostTriple c.cx c.build w s = x at h hhost
          obtain ⟨r, s1⟩ := x
          cases r with
          | ok x =>
            dsimp only at h
            rw [Act.lift_bind] at h
            generalize TargetTriple.ofStr x = y at h
            cases y <;> exact hhost h
          | err e => exact hhost h
          | panic => exact hhost h
    | buildTargetForCli ts =>
      have h : (Act.map Answer.strings (c.buildTargetForCli ts) w s).2.rustcVersion = some v := h
      rw [map_snd] at h
      unfold EConfig.buildTargetForCli at h
      split at h
      · exact Or.inl h
      · dsimp only at h
        split at h <;> exact Or.inl h

end CC
