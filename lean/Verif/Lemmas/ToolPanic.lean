import Verif.Props.Tools
/-
Lemmas for the exact condition of C46: when storing a version panics.
-/
namespace CC

variable {w : World} {s : Cells} {c : EConfig} {cm : Cmd}

theorem cargoPart_some (o : ProcOut) (hw : w.checks = true) (hs : s.cargoVersion ≠ none) :
    ((cargoPart w cm o s).1 = .panic ∧ ∃ v, CargoReports o v) ∨
    ((∃ e, (cargoPart w cm o s).1 = .err e) ∧ ¬ (∃ v, CargoReports o v)) ∧ (cargoPart w cm o s).2 = s := by
  simp only [cargoReports_iff (cm := cm)]
  unfold cargoPart
  have hp := (C59_succeeds_iff cm o).2
  cases ho : procRead cm o with
  | panic => exact absurd ho hp
  | err e => exact Or.inr ⟨⟨⟨e, rfl⟩, by rintro ⟨v, vv, hv, _⟩; cases hv⟩, rfl⟩
  | ok vv =>
    dsimp only
    cases hv : cargoVersionOf cm vv with
    | panic => exact absurd hv (version_no_panic (cm := cm) vv).2.1
    | err e =>
      refine Or.inr ⟨⟨⟨e, rfl⟩, ?_⟩, rfl⟩
      rintro ⟨v, vv', h1, h2⟩
      cases h1
      rw [hv] at h2; cases h2
    | ok v =>
      left
      cases hc : s.cargoVersion with
      | none => exact absurd hc hs
      | some y => exact ⟨by simp [hw], v, vv, rfl, hv⟩

theorem rustcPart_some (o : ProcOut) (hw : w.checks = true) (hs : s.rustcVersion ≠ none) :
    (rustcPart w cm o s).1 = .panic ↔ ∃ v, RustcReports o v := by
  simp only [rustcReports_iff (cm := cm)]
  unfold rustcPart
  have hp := (C59_succeeds_iff cm o).2
  cases ho : procRead cm o with
  | panic => exact absurd ho hp
  | err e => exact ⟨fun h => (nomatch h), by rintro ⟨v, vv, hv, _⟩; cases hv⟩
  | ok vv =>
    dsimp only
    cases hv : rustcVersionOf cm vv with
    | panic => exact absurd hv (version_no_panic (cm := cm) vv).1
    | err e =>
      refine ⟨fun h => (nomatch h), ?_⟩
      rintro ⟨v, vv', h1, h2⟩
      cases h1
      rw [hv] at h2; cases h2
    | ok v =>
      cases hc : s.rustcVersion with
      | none => exact absurd hc hs
      | some y => exact ⟨fun _ => ⟨v, vv, rfl, hv⟩, fun _ => by simp [hw]⟩

theorem cargoTells_reports {o : ProcOut} {h : Str} (ht : CargoTells o h) : ∃ v, CargoReports o v := by
  obtain ⟨out, rest, a, b, p, m, h1, h2, h3, h4⟩ := ht
  exact ⟨⟨a, b, p, m⟩, out, rest, h1, h2, h3⟩

/-- When `findHost` panics. -/
theorem findHost_panics (c : EConfig) (w : World) (s : Cells) (hw : w.checks = true) :
    ∃ n, s.clock < n ∧ ((findHost c.cx c.build w s).1 = .panic ↔
      (s.cargoVersion ≠ none ∧ ∃ v, CargoReports (w.run s.clock (cargoVV c)) v) ∨
      (s.rustcVersion ≠ none ∧ (∃ v, RustcReports (w.run n (rustcVV c (w.exist (s.clock + 1)))) v) ∧
        ∀ h, ¬ CargoTells (w.run s.clock (cargoVV c)) h)) := by
  unfold findHost
  rw [Act.bind_def]
  unfold Act.attempt
  rw [hostFromCargo_eq]
  have hio := cargoPart_io (w := w) (cm := cargoVV c) (s := { s with clock := s.clock + 1, trace := s.trace ++ [cargoVV c] })
    (w.run s.clock (cargoVV c))
  have hver := cargoPart_version (w := w) (cm := cargoVV c) (s := { s with clock := s.clock + 1, trace := s.trace ++ [cargoVV c] })
    (w.run s.clock (cargoVV c))
  -- the second part, after cargo did not tell
  have second : ∀ s1 : Cells, s1.clock = s.clock + 1 → s1.rustcVersion = s.rustcVersion → ∃ n, s.clock < n ∧
      ((hostFromRustc c.cx c.build w s1).1 = .panic ↔
        s.rustcVersion ≠ none ∧ ∃ v, RustcReports (w.run n (rustcVV c (w.exist (s.clock + 1)))) v) := by
    intro s1 hk hr
    obtain ⟨n, hn, hrc⟩ := hostFromRustc_eq c w s1
    rw [hk] at hn hrc
    refine ⟨n, hn, ?_⟩
    rw [hrc]
    by_cases hs : s.rustcVersion = none
    · obtain ⟨h1, -⟩ := rustcPart_cases (w := w) (cm := rustcVV c (w.exist (s.clock + 1)))
        (s := { s1 with clock := n + 1, trace := s1.trace ++ [rustcVV c (w.exist (s.clock + 1))] })
        (w.run n (rustcVV c (w.exist (s.clock + 1)))) (Or.inr (by rw [← hs, ← hr]))
      constructor
      · intro h
        rw [h] at h1
        rcases h1 with ⟨x, hx, -⟩ | ⟨⟨e, hx⟩, -⟩ <;> cases hx
      · exact fun h => absurd hs h.1
    · rw [rustcPart_some _ hw (by show s1.rustcVersion ≠ none; rw [hr]; exact hs)]
      exact ⟨fun h => ⟨hs, h⟩, And.right⟩
  by_cases hs : s.cargoVersion = none
  · obtain ⟨hc, -⟩ := cargoPart_cases (w := w) (cm := cargoVV c)
      (s := { s with clock := s.clock + 1, trace := s.trace ++ [cargoVV c] }) (w.run s.clock (cargoVV c)) (Or.inr hs)
    generalize cargoPart w (cargoVV c) (w.run s.clock (cargoVV c)) { s with clock := s.clock + 1, trace := s.trace ++ [cargoVV c] } = x
      at hc hio hver
    obtain ⟨r, s1⟩ := x
    rcases hc with ⟨x, hx, ht⟩ | ⟨⟨e, hx⟩, ht⟩
    · dsimp only at hx
      subst hx
      refine ⟨s.clock + 1, Nat.lt_succ_self _, fun h => (nomatch h), ?_⟩
      rintro (⟨h, -⟩ | ⟨-, -, h⟩)
      · exact absurd hs h
      · exact absurd ht (h x)
    · dsimp only at hx hio hver
      subst hx
      obtain ⟨n, hn, h⟩ := second s1 hio.1 hver
      refine ⟨n, hn, ?_⟩
      dsimp only
      rw [h]
      exact ⟨fun h => Or.inr ⟨h.1, h.2, ht⟩, fun h => h.elim (fun h => absurd hs h.1) fun h => ⟨h.1, h.2.1⟩⟩
  · have hc := cargoPart_some (w := w) (cm := cargoVV c)
      (s := { s with clock := s.clock + 1, trace := s.trace ++ [cargoVV c] }) (w.run s.clock (cargoVV c)) hw hs
    generalize cargoPart w (cargoVV c) (w.run s.clock (cargoVV c)) { s with clock := s.clock + 1, trace := s.trace ++ [cargoVV c] } = x
      at hc hio hver
    obtain ⟨r, s1⟩ := x
    rcases hc with ⟨hx, hv⟩ | ⟨⟨⟨e, hx⟩, hv⟩, -⟩
    · dsimp only at hx
      subst hx
      exact ⟨s.clock + 1, Nat.lt_succ_self _, fun _ => Or.inl ⟨hs, hv⟩, fun _ => rfl⟩
    · dsimp only at hx hio hver
      subst hx
      obtain ⟨n, hn, h⟩ := second s1 hio.1 hver
      refine ⟨n, hn, ?_⟩
      dsimp only
      rw [h]
      constructor
      · exact fun h => Or.inr ⟨h.1, h.2, fun y hy => hv (cargoTells_reports hy)⟩
      · rintro (⟨-, h⟩ | ⟨h, h', -⟩)
        · exact absurd h hv
        · exact ⟨h, h'⟩

theorem rustcVersion_panic (hs : s.rustcVersion = none) (hh : (queryHostTriple c.cx c.build w s).1 = .panic) :
    (c.rustcVersion w s).1 = .panic := by
  unfold EConfig.rustcVersion
  rw [queryRustcVersion_unset hs]
  unfold Act.attempt
  generalize queryHostTriple c.cx c.build w s = x at hh
  obtain ⟨r, s1⟩ := x
  dsimp only at hh
  subst hh
  rfl

theorem cargoVersion_panic (hs : s.cargoVersion = none) (hh : (queryHostTriple c.cx c.build w s).1 = .panic) :
    (c.cargoVersion w s).1 = .panic := by
  unfold EConfig.cargoVersion
  rw [queryCargoVersion_unset hs]
  unfold Act.attempt
  generalize queryHostTriple c.cx c.build w s = x at hh
  obtain ⟨r, s1⟩ := x
  dsimp only at hh
  subst hh
  rfl

end CC
