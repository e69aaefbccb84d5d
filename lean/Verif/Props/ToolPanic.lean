import Verif.Lemmas.ToolPanic
/-
Exactly when a query for the host triple or a version panics: C46.
-/
namespace CC

variable {w : World} {s : Cells} {c : EConfig}

/-- The answer to the query is stored. -/
def Query.Stored (q : Query) (s : Cells) : Prop :=
  (q = .hostTriple ∧ s.hostTriple ≠ none) ∨ (q = .rustcVersion ∧ s.rustcVersion ≠ none) ∨ (q = .cargoVersion ∧ s.cargoVersion ≠ none)

/-- C46, exactly: in whatever state, a query for the host triple or a version panics if and only if the library was built with debug
assertions, neither the answer nor the host triple is stored, and a tool that is now asked for the host reports a version although one
of this tool is already stored.  Cargo is asked, and then the compiler unless cargo told the host. -/
theorem C46_panics_iff (c : EConfig) (w : World) (s : Cells) {q : Query} (hq : q.IsVersion) :
    ∃ n x, s.clock < n ∧ IsRustcVV c (w.exist (s.clock + 1)) x ∧
      ((c.ask q w s).1 = .panic ↔ w.checks = true ∧ ¬ q.Stored s ∧ s.hostTriple = none ∧
        ((s.cargoVersion ≠ none ∧ ∃ v, CargoReports (w.run s.clock (cargoVV c)) v) ∨
          (s.rustcVersion ≠ none ∧ (∃ v, RustcReports (w.run n x) v) ∧ ∀ h, ¬ CargoTells (w.run s.clock (cargoVV c)) h))) := by
  by_cases hw : w.checks = true
  case neg =>
    have hw : w.checks = false := by simpa using hw
    refine ⟨s.clock + 1, _, Nat.lt_succ_self _, isRustcVV c _, fun h => absurd h (C46_release hw c s hq), ?_⟩
    rintro ⟨h, -⟩
    rw [hw] at h; cases h
  case pos =>
    obtain ⟨n, hn, hf⟩ := findHost_panics c w s hw
    refine ⟨n, _, hn, isRustcVV c _, ?_⟩
    have hh : (queryHostTriple c.cx c.build w s).1 = .panic ↔ s.hostTriple = none ∧ (findHost c.cx c.build w s).1 = .panic := by
      cases hs : s.hostTriple with
      | some x => rw [queryHostTriple_set hs]; exact ⟨fun h => (nomatch h), fun h => (nomatch h.1)⟩
      | none =>
        rw [queryHostTriple_unset hs]
        generalize findHost c.cx c.build w s = x
        obtain ⟨r, s1⟩ := x
        cases r with
        | ok x => exact ⟨fun h => (nomatch h), fun h => (nomatch h.2)⟩
        | err x => exact ⟨fun h => (nomatch h), fun h => (nomatch h.2)⟩
        | panic => exact ⟨fun _ => ⟨rfl, rfl⟩, fun _ => rfl⟩
    rw [hf] at hh
    have key : (c.ask q w s).1 = .panic ↔ ¬ q.Stored s ∧ (queryHostTriple c.cx c.build w s).1 = .panic := by
      have hmap : ∀ {α : Type} (f : α → Answer) (m : Act α), (Act.map f m w s).1 = .panic ↔ (m w s).1 = .panic := by
        intro α f m
        rw [map_fst]
        generalize (m w s).1 = r
        cases r <;> constructor <;> intro h <;> first | rfl | cases h
      constructor
      · intro h
        refine ⟨?_, Classical.not_not.mp fun hn => ask_no_panic hn hq h⟩
        rintro (⟨rfl, h1⟩ | ⟨rfl, h1⟩ | ⟨rfl, h1⟩)
        · exact h1 (hh.mp ((hmap _ _).mp h)).1
        · cases hs : s.rustcVersion with
          | none => exact h1 hs
          | some v =>
            have := (hmap _ _).mp h
            rw [EConfig.rustcVersion, queryRustcVersion_set hs] at this
            cases this
        · cases hs : s.cargoVersion with
          | none => exact h1 hs
          | some v =>
            have := (hmap _ _).mp h
            rw [EConfig.cargoVersion, queryCargoVersion_set hs] at this
            cases this
      · rintro ⟨h1, h2⟩
        rcases hq with rfl | rfl | rfl
        · exact (hmap _ _).mpr h2
        · exact (hmap _ _).mpr (rustcVersion_panic (Classical.not_not.mp fun h => h1 (Or.inr (Or.inl ⟨rfl, h⟩))) h2)
        · exact (hmap _ _).mpr (cargoVersion_panic (Classical.not_not.mp fun h => h1 (Or.inr (Or.inr ⟨rfl, h⟩))) h2)
    rw [key, hh]
    exact ⟨fun h => ⟨hw, h.1, h.2⟩, fun h => h.2⟩

/-- The first alternative occurs: cargo reports a version but no host, twice (see `C46_fails`). -/
example : (plainConfig.hostTriple noHostWorld {}).2.cargoVersion = some ⟨1, 84, 0, false⟩ ∧
    (plainConfig.hostTriple noHostWorld {}).2.hostTriple = none ∧
    ((plainConfig.ask .hostTriple noHostWorld (plainConfig.hostTriple noHostWorld {}).2).1.isPanic = true) := by decide +kernel
/-- The second one as well (see `C46_flaky_fails`). -/
example : (plainConfig.rustcVersion flakyWorld {}).2.rustcVersion = some ⟨1, 84, some 0, false⟩ ∧
    (plainConfig.rustcVersion flakyWorld {}).2.cargoVersion = none ∧
    ((plainConfig.ask .cargoVersion flakyWorld (plainConfig.rustcVersion flakyWorld {}).2).1.isPanic = true) := by decide +kernel
/-- A stored answer is safe even in that state. -/
example : (plainConfig.ask .rustcVersion flakyWorld (plainConfig.rustcVersion flakyWorld {}).2).1.isOk = true := by decide +kernel

end CC
