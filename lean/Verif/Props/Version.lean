import Verif.Lemmas.Version
/-
Reading the output of `rustc -vV` and `cargo -vV`: C43.
-/
namespace CC

/-- C43: the rustc version is read from the first `release: ` line, which must be of the form `MAJOR.MINOR[.PATCH][-CHANNEL]`. -/
theorem C43_rustc_version (cm : Cmd) (out : Str) (v : RustcVersion) :
    rustcVersionOf cm out = .ok v ↔
      ∃ rest, FirstLine out "release: ".toList rest ∧ IsRelease rest v.major v.minor v.patch v.nightly := by
  rw [← parseVersion_iff]
  unfold rustcVersionOf
  cases h : parseVersion out with
  | none => simp [Res.ofOption]
  | some p =>
    obtain ⟨a, b, c, n⟩ := p
    obtain ⟨a', b', c', n'⟩ := v
    simp [Res.ofOption]

/-- C43: the same for cargo, where the patch version is required. -/
theorem C43_cargo_version (cm : Cmd) (out : Str) (v : CargoVersion) :
    cargoVersionOf cm out = .ok v ↔
      ∃ rest, FirstLine out "release: ".toList rest ∧ IsRelease rest v.major v.minor (some v.patch) v.nightly := by
  rw [← parseVersion_iff]
  unfold cargoVersionOf
  cases h : parseVersion out with
  | none => simp [Res.ofOption]
  | some p =>
    obtain ⟨a, b, c, n⟩ := p
    obtain ⟨a', b', c', n'⟩ := v
    cases c with
    | none => simp [Res.ofOption]
    | some c => simp [Res.ofOption]

/-- C43: the host is the rest of the first `host: ` line. -/
theorem C43_host (cm : Cmd) (out h : Str) : hostTripleOf cm out = .ok h ↔ FirstLine out "host: ".toList h := by
  rw [← findLine_lines]
  unfold hostTripleOf
  cases findLine "host: ".toList (lines out) with
  | none => simp [Res.ofOption]
  | some p => simp [Res.ofOption]

/-- C43: in all other cases there is an error, never a panic. -/
theorem C43_otherwise_error (cm : Cmd) (out : Str) :
    ((∀ v, rustcVersionOf cm out ≠ .ok v) → (rustcVersionOf cm out).isErr = true) ∧
    ((∀ v, cargoVersionOf cm out ≠ .ok v) → (cargoVersionOf cm out).isErr = true) ∧
    ((∀ h, hostTripleOf cm out ≠ .ok h) → (hostTripleOf cm out).isErr = true) := by
  have key : ∀ {α : Type} (e : Err) (o : Option α), (∀ v, Res.ofOption e o ≠ .ok v) → (Res.ofOption e o).isErr = true := by
    intro α e o h
    cases o with
    | none => rfl
    | some a => exact absurd rfl (h a)
  exact ⟨key _ _, key _ _, key _ _⟩

/-- C43: a text determines at most one version, and numbers are determined by their digits. -/
theorem C43_unique (s : Str) (n m : Nat) (h : IsU32 s n) (h' : IsU32 s m) : n = m := by
  rw [← parseU32_iff] at h h'
  exact Option.some.inj (h.symm.trans h')

/-- C43: the comparison `version.major_minor() < (a, b)` that the documentation recommends holds exactly for versions before a.b, with
any patch version and channel. -/
theorem C43_major_minor (cm : Cmd) (out rest : Str) (hl : FirstLine out "release: ".toList rest) {major minor : Nat} {patch : Option Nat}
    {nightly : Bool} (hr : IsRelease rest major minor patch nightly) (a b : Nat) :
    (∃ v, rustcVersionOf cm out = .ok v ∧ (pairLt v.majorMinor (a, b) = true ↔ major < a ∨ (major = a ∧ minor < b))) ∧
    (patch ≠ none → ∃ v, cargoVersionOf cm out = .ok v ∧
      (pairLt v.majorMinor (a, b) = true ↔ major < a ∨ (major = a ∧ minor < b))) := by
  have key : (pairLt (major, minor) (a, b) = true ↔ major < a ∨ (major = a ∧ minor < b)) := by
    unfold pairLt
    dsimp only
    split <;> rw [decide_eq_true_eq] <;> omega
  refine ⟨⟨⟨major, minor, patch, nightly⟩, (C43_rustc_version cm out _).2 ⟨rest, hl, hr⟩, key⟩, fun hp => ?_⟩
  cases patch with
  | none => exact absurd rfl hp
  | some p => exact ⟨⟨major, minor, p, nightly⟩, (C43_cargo_version cm out _).2 ⟨rest, hl, hr⟩, key⟩

example : FirstLine "rustc 1.84.0 (x 2025)\r\nrelease: 1.84.0-nightly\nhost: x\nrelease: 2.0.0".toList "release: ".toList
    "1.84.0-nightly".toList := by
  rw [← findLine_lines]; decide +kernel
example : IsRelease "1.84.0-nightly".toList 1 84 (some 0) true := by rw [← parseRelease_iff]; decide +kernel
example : IsRelease "1.84-beta.2".toList 1 84 none false := by rw [← parseRelease_iff]; decide +kernel
/-- There is no such reading of texts with a fourth number, an empty number, or a number that is too large. -/
example : ∀ p n, ¬ IsRelease "1.2.3.4".toList 1 2 p n ∧ ¬ IsRelease "1..3".toList 1 0 p n ∧
    ¬ IsRelease "1.4294967296.3".toList 1 0 p n := by
  intro p n
  simp only [← parseRelease_iff]
  have h1 : parseRelease "1.2.3.4".toList = none := by decide +kernel
  have h2 : parseRelease "1..3".toList = none := by decide +kernel
  have h3 : parseRelease "1.4294967296.3".toList = none := by decide +kernel
  rw [h1, h2, h3]; simp
example (cm : Cmd) : rustcVersionOf cm "release: 1.84".toList = .ok ⟨1, 84, none, false⟩ ∧ (cargoVersionOf cm "release: 1.84".toList).isErr = true := by
  exact ⟨by rfl, by rfl⟩

/-- C43 applied: the first `release: ` line counts, and what precedes it does not. -/
example (cm : Cmd) : rustcVersionOf cm "rustc 1.85.0\nrelease: 1.84.2-beta.1\nrelease: 2.0.0".toList = .ok ⟨1, 84, some 2, false⟩ ∧
    hostTripleOf cm "host: a b\nhost: c".toList = .ok "a b".toList ∧ (hostTripleOf cm " host: a".toList).isErr = true :=
  ⟨rfl, rfl, rfl⟩

/-- Leading zeros and a plus sign are accepted in numbers. -/
example : IsU32 "007".toList 7 ∧ IsU32 "+7".toList 7 := by rw [← parseU32_iff, ← parseU32_iff]; decide +kernel

end CC
