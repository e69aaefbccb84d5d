import Verif.Lemmas.Act
/-
What queries do to the cells.
-/
namespace CC

/-! ### Relations kept by actions -/

/-- Every run of the action relates the cells before and after by `P`. -/
def Keeps {α : Type} (P : Cells → Cells → Prop) (m : Act α) : Prop := ∀ w s, P s (m w s).2

/-- A reflexive and transitive relation. -/
structure Pre (P : Cells → Cells → Prop) : Prop where
  refl : ∀ s, P s s
  trans : ∀ {a b c}, P a b → P b c → P a c

namespace Keeps
variable {α β : Type} {P : Cells → Cells → Prop}

theorem bind (hP : Pre P) {m : Act α} {f : α → Act β} (h1 : Keeps P m) (h2 : ∀ a, Keeps P (f a)) : Keeps P (m >>= f) := by
  intro w s
  have := h1 w s
  rw [Act.bind_def]
  generalize m w s = x at this
  obtain ⟨r, s1⟩ := x
  cases r with
  | ok a => exact hP.trans this (h2 a w s1)
  | err e => exact this
  | panic => exact this

theorem pure (hP : Pre P) (a : α) : Keeps P (Pure.pure a : Act α) := fun _ s => hP.refl s
theorem lift (hP : Pre P) (r : Res α) : Keeps P (Act.lift r) := fun _ s => hP.refl s
theorem cells_bind (_ : Pre P) {f : Cells → Act β} (h : ∀ w s, P s (f s w s).2) : Keeps P (Act.cells >>= f) :=
  fun w s => h w s
theorem attempt {m : Act α} (h : Keeps P m) : Keeps P (Act.attempt m) := by
  intro w s
  have := h w s
  unfold Act.attempt
  generalize m w s = x at this
  obtain ⟨r, s1⟩ := x
  cases r <;> exact this
theorem map {m : Act α} (h : Keeps P m) (f : α → β) : Keeps P (Act.map f m) := by
  intro w s
  have := h w s
  unfold Act.map
  generalize m w s = x at this
  obtain ⟨r, s1⟩ := x
  cases r <;> exact this
theorem debugAssert (hP : Pre P) (b : Bool) : Keeps P (Act.debugAssert b) := fun _ s => hP.refl s

end Keeps

/-! ### Cells once set keep their value -/

/-- Cells that are set stay as they are, and commands are only added. -/
structure Grows (s s' : Cells) : Prop where
  rustc : ∀ r, s.rustc = some r → s'.rustc = some r
  cargoHome : s'.cargoHome = s.cargoHome
  hostTriple : ∀ h, s.hostTriple = some h → s'.hostTriple = some h
  rustcVersion : ∀ v, s.rustcVersion = some v → s'.rustcVersion = some v
  cargoVersion : ∀ v, s.cargoVersion = some v → s'.cargoVersion = some v
  cfg : ∀ k c, s.cfg.get k = some c → s'.cfg.get k = some c
  target : ∀ k e, s.target.get k = some e → s'.target.get k = some e
  trace : ∃ l, s'.trace = s.trace ++ l

theorem grows_pre : Pre Grows where
  refl s := ⟨fun _ h => h, rfl, fun _ h => h, fun _ h => h, fun _ h => h, fun _ _ h => h, fun _ _ h => h, [], by simp⟩
  trans h1 h2 := ⟨fun r h => h2.rustc r (h1.rustc r h), h2.cargoHome.trans h1.cargoHome,
    fun r h => h2.hostTriple r (h1.hostTriple r h), fun r h => h2.rustcVersion r (h1.rustcVersion r h),
    fun r h => h2.cargoVersion r (h1.cargoVersion r h), fun k r h => h2.cfg k r (h1.cfg k r h),
    fun k r h => h2.target k r (h1.target k r h), by
      obtain ⟨l1, e1⟩ := h1.trace
      obtain ⟨l2, e2⟩ := h2.trace
      exact ⟨l1 ++ l2, by rw [e2, e1, List.append_assoc]⟩⟩

/-- Only the clock and the trace change. -/
theorem grows_io {s : Cells} {n : Nat} {l : List Cmd} : Grows s { s with clock := n, trace := s.trace ++ l } :=
  ⟨fun _ h => h, rfl, fun _ h => h, fun _ h => h, fun _ h => h, fun _ _ h => h, fun _ _ h => h, l, rfl⟩

theorem grows_exist (p : Path) : Keeps Grows (Act.exist p) := fun w s => by
  have := grows_io (s := s) (n := s.clock + 1) (l := [])
  rw [List.append_nil] at this
  exact this
theorem grows_read (c : Cmd) : Keeps Grows (Act.read c) := fun w s => by rw [Act.read_def]; exact grows_io

theorem grows_rustcPath (p : Path) : Keeps Grows (rustcPath p) := by
  unfold rustcPath
  refine .bind grows_pre (grows_exist _) fun b => ?_
  split <;> exact .pure grows_pre _

theorem grows_rustcProgram (cx : Ctx) (b : EBuild) : Keeps Grows (rustcProgram cx b) := by
  unfold rustcProgram
  split
  · exact .pure grows_pre _
  · exact grows_rustcPath _

theorem grows_rustcForVersion (cx : Ctx) (b : EBuild) : Keeps Grows (rustcForVersion cx b) :=
  .bind grows_pre (grows_rustcProgram cx b) fun _ => .pure grows_pre _

/-- An assignment to a cell that is not set, after further steps that do not set it. -/
theorem grows_queryRustc (cx : Ctx) (b : EBuild) : Keeps Grows (queryRustc cx b) := by
  intro w s
  obtain ⟨r, n, h⟩ := queryRustc_total cx b w s
  rw [h]
  refine ⟨fun r' hr => ?_, rfl, fun _ h => h, fun _ h => h, fun _ h => h, fun _ _ h => h, fun _ _ h => h, [], by simp⟩
  have : queryRustc cx b w s = (.ok r', s) := by
    unfold queryRustc
    rw [Act.cells_bind, hr]
    rfl
  rw [this] at h
  rw [Res.ok.inj (Prod.mk.inj h).1]

theorem grows_setCargoVersion (v : CargoVersion) : Keeps Grows (setCargoVersion v) := by
  refine .cells_bind grows_pre fun w s => ?_
  cases h : s.cargoVersion with
  | some v' => exact grows_pre.refl s
  | none =>
    exact ⟨fun _ h => h, rfl, fun _ h => h, fun _ h => h, fun v' hv => (by rw [h] at hv; cases hv), fun _ _ h => h,
      fun _ _ h => h, [], (List.append_nil _).symm⟩

theorem grows_setRustcVersion (v : RustcVersion) : Keeps Grows (setRustcVersion v) := by
  refine .cells_bind grows_pre fun w s => ?_
  cases h : s.rustcVersion with
  | some v' => exact grows_pre.refl s
  | none =>
    exact ⟨fun _ h => h, rfl, fun _ h => h, fun v' hv => (by rw [h] at hv; cases hv), fun _ h => h, fun _ _ h => h,
      fun _ _ h => h, [], (List.append_nil _).symm⟩

theorem grows_hostFromCargo (cx : Ctx) : Keeps Grows (hostFromCargo cx) :=
  .bind grows_pre (grows_read _) fun _ => .bind grows_pre (.lift grows_pre _) fun _ =>
    .bind grows_pre (grows_setCargoVersion _) fun _ => .lift grows_pre _

theorem grows_hostFromRustc (cx : Ctx) (b : EBuild) : Keeps Grows (hostFromRustc cx b) :=
  .bind grows_pre (grows_rustcForVersion cx b) fun _ => .bind grows_pre (grows_read _) fun _ =>
    .bind grows_pre (.lift grows_pre _) fun _ => .bind grows_pre (grows_setRustcVersion _) fun _ => .lift grows_pre _

/-! ### Parts that a query does not touch -/

/-- The host triple cell is unchanged. -/
def SameHost (s s' : Cells) : Prop := s'.hostTriple = s.hostTriple
theorem sameHost_pre : Pre SameHost := ⟨fun _ => rfl, fun h1 h2 => Eq.trans h2 h1⟩

/-- The version cells are unchanged. -/
def SameVersions (s s' : Cells) : Prop := s'.rustcVersion = s.rustcVersion ∧ s'.cargoVersion = s.cargoVersion
theorem sameVersions_pre : Pre SameVersions :=
  ⟨fun _ => ⟨rfl, rfl⟩, fun h1 h2 => ⟨h2.1.trans h1.1, h2.2.trans h1.2⟩⟩

/-- The tables of cfg sets and resolved targets and the rustc cell are unchanged. -/
def SameTables (s s' : Cells) : Prop := s'.cfg = s.cfg ∧ s'.target = s.target ∧ s'.rustc = s.rustc
theorem sameTables_pre : Pre SameTables :=
  ⟨fun _ => ⟨rfl, rfl, rfl⟩, fun h1 h2 => ⟨h2.1.trans h1.1, h2.2.1.trans h1.2.1, h2.2.2.trans h1.2.2⟩⟩

section
variable {P : Cells → Cells → Prop} (hP : Pre P) (hio : ∀ (s : Cells) n l, P s { s with clock := n, trace := l })
include hP hio

theorem keeps_exist (p : Path) : Keeps P (Act.exist p) := fun _ s => hio s (s.clock + 1) s.trace
theorem keeps_read (c : Cmd) : Keeps P (Act.read c) := fun w s => by rw [Act.read_def]; exact hio _ _ _
theorem keeps_rustcProgram (cx : Ctx) (b : EBuild) : Keeps P (rustcProgram cx b) := by
  unfold rustcProgram
  split
  · exact .pure hP _
  · unfold rustcPath
    refine .bind hP (keeps_exist hP hio _) fun b => ?_
    split <;> exact .pure hP _
theorem keeps_rustcForVersion (cx : Ctx) (b : EBuild) : Keeps P (rustcForVersion cx b) :=
  .bind hP (keeps_rustcProgram hP hio cx b) fun _ => .pure hP _

theorem keeps_hostFromCargo (hc : ∀ v, Keeps P (setCargoVersion v)) (cx : Ctx) : Keeps P (hostFromCargo cx) :=
  .bind hP (keeps_read hP hio _) fun _ => .bind hP (.lift hP _) fun _ => .bind hP (hc _) fun _ => .lift hP _

theorem keeps_hostFromRustc (hr : ∀ v, Keeps P (setRustcVersion v)) (cx : Ctx) (b : EBuild) : Keeps P (hostFromRustc cx b) :=
  .bind hP (keeps_rustcForVersion hP hio cx b) fun _ => .bind hP (keeps_read hP hio _) fun _ =>
    .bind hP (.lift hP _) fun _ => .bind hP (hr _) fun _ => .lift hP _
end

theorem sameHost_setCargoVersion (v : CargoVersion) : Keeps SameHost (setCargoVersion v) := by
  refine .cells_bind sameHost_pre fun w s => ?_
  cases s.cargoVersion <;> exact Eq.refl _
theorem sameHost_setRustcVersion (v : RustcVersion) : Keeps SameHost (setRustcVersion v) := by
  refine .cells_bind sameHost_pre fun w s => ?_
  cases s.rustcVersion <;> exact Eq.refl _
theorem sameTables_setCargoVersion (v : CargoVersion) : Keeps SameTables (setCargoVersion v) := by
  refine .cells_bind sameTables_pre fun w s => ?_
  cases s.cargoVersion <;> exact ⟨rfl, rfl, rfl⟩
theorem sameTables_setRustcVersion (v : RustcVersion) : Keeps SameTables (setRustcVersion v) := by
  refine .cells_bind sameTables_pre fun w s => ?_
  cases s.rustcVersion <;> exact ⟨rfl, rfl, rfl⟩

/-! ### The queries -/

/-- The part of `host_triple` that runs when the cell is empty. -/
def findHost (cx : Ctx) (b : EBuild) : Act Str := do
  let cargoHost ← Act.attempt (hostFromCargo cx)
  match cargoHost with
  | some h => pure h
  | none => hostFromRustc cx b

theorem queryHostTriple_set {cx : Ctx} {b : EBuild} {w : World} {s : Cells} {h : Str} (hs : s.hostTriple = some h) :
    queryHostTriple cx b w s = (.ok h, s) := by
  unfold queryHostTriple
  rw [Act.cells_bind, hs]
  rfl

theorem queryHostTriple_unset {cx : Ctx} {b : EBuild} {w : World} {s : Cells} (hs : s.hostTriple = none) :
    queryHostTriple cx b w s = match findHost cx b w s with
      | (.ok h, s') => (.ok h, { s' with hostTriple := some h })
      | (.err e, s') => (.err e, s')
      | (.panic, s') => (.panic, s') := by
  unfold queryHostTriple findHost
  rw [Act.cells_bind, hs]
  dsimp only
  rw [Act.bind_def, Act.bind_def]
  cases hx : Act.attempt (hostFromCargo cx) w s with
  | mk r s1 =>
    cases r with
    | err e => rfl
    | panic => rfl
    | ok o =>
      cases o with
      | some h => rfl
      | none =>
        simp only
        rw [Act.bind_def]
        cases hostFromRustc cx b w s1 with
        | mk r s2 => cases r <;> rfl

theorem keeps_findHost {P : Cells → Cells → Prop} (hP : Pre P) {cx : Ctx} {b : EBuild} (h1 : Keeps P (hostFromCargo cx))
    (h2 : Keeps P (hostFromRustc cx b)) : Keeps P (findHost cx b) := by
  unfold findHost
  refine .bind hP (.attempt h1) fun o => ?_
  cases o with
  | none => exact h2
  | some h => exact .pure hP _

theorem grows_findHost (cx : Ctx) (b : EBuild) : Keeps Grows (findHost cx b) :=
  keeps_findHost grows_pre (grows_hostFromCargo cx) (grows_hostFromRustc cx b)

theorem sameHost_findHost (cx : Ctx) (b : EBuild) : Keeps SameHost (findHost cx b) :=
  keeps_findHost sameHost_pre (keeps_hostFromCargo sameHost_pre (fun _ _ _ => Eq.refl _) sameHost_setCargoVersion cx)
    (keeps_hostFromRustc sameHost_pre (fun _ _ _ => Eq.refl _) sameHost_setRustcVersion cx b)

theorem sameTables_findHost (cx : Ctx) (b : EBuild) : Keeps SameTables (findHost cx b) :=
  keeps_findHost sameTables_pre (keeps_hostFromCargo sameTables_pre (fun _ _ _ => ⟨rfl, rfl, rfl⟩) sameTables_setCargoVersion cx)
    (keeps_hostFromRustc sameTables_pre (fun _ _ _ => ⟨rfl, rfl, rfl⟩) sameTables_setRustcVersion cx b)

theorem grows_setHost {s : Cells} (h : s.hostTriple = none) (x : Str) : Grows s { s with hostTriple := some x } :=
  ⟨fun _ h => h, rfl, fun _ h' => (by rw [h] at h'; cases h'), fun _ h => h, fun _ h => h, fun _ _ h => h, fun _ _ h => h, [],
    (List.append_nil _).symm⟩

theorem grows_queryHostTriple (cx : Ctx) (b : EBuild) : Keeps Grows (queryHostTriple cx b) := by
  intro w s
  cases hs : s.hostTriple with
  | some h => rw [queryHostTriple_set hs]; exact grows_pre.refl s
  | none =>
    rw [queryHostTriple_unset hs]
    have h1 := grows_findHost cx b w s
    have h2 := sameHost_findHost cx b w s
    generalize findHost cx b w s = x at h1 h2
    obtain ⟨r, s1⟩ := x
    cases r with
    | ok h => exact grows_pre.trans h1 (grows_setHost (by rw [← hs]; exact h2) h)
    | err e => exact h1
    | panic => exact h1

theorem sameTables_queryHostTriple (cx : Ctx) (b : EBuild) : Keeps SameTables (queryHostTriple cx b) := by
  intro w s
  cases hs : s.hostTriple with
  | some h => rw [queryHostTriple_set hs]; exact sameTables_pre.refl s
  | none =>
    rw [queryHostTriple_unset hs]
    have h1 := sameTables_findHost cx b w s
    generalize findHost cx b w s = x at h1
    obtain ⟨r, s1⟩ := x
    cases r <;> exact h1

/-- The last part of `rustc_version`: ask rustc. -/
def askRustcVersion (cx : Ctx) (b : EBuild) : Act RustcVersion := do
  let r ← rustcForVersion cx b
  let vv ← verboseVersion r
  Act.lift (rustcVersionOf r.vvCmd vv)

theorem queryRustcVersion_set {cx : Ctx} {b : EBuild} {w : World} {s : Cells} {v : RustcVersion} (hs : s.rustcVersion = some v) :
    queryRustcVersion cx b w s = (.ok v, s) := by
  unfold queryRustcVersion
  rw [Act.cells_bind, hs]
  rfl

theorem queryRustcVersion_unset {cx : Ctx} {b : EBuild} {w : World} {s : Cells} (hs : s.rustcVersion = none) :
    queryRustcVersion cx b w s = match Act.attempt (queryHostTriple cx b) w s with
      | (.ok _, s1) =>
        match s1.rustcVersion with
        | some v => (.ok v, s1)
        | none =>
          match askRustcVersion cx b w s1 with
          | (.ok v, s2) => (.ok v, { s2 with rustcVersion := some v })
          | (.err e, s2) => (.err e, s2)
          | (.panic, s2) => (.panic, s2)
      | (.err e, s1) => (.err e, s1)
      | (.panic, s1) => (.panic, s1) := by
  unfold queryRustcVersion askRustcVersion
  rw [Act.cells_bind, hs]
  dsimp only
  rw [Act.bind_def]
  cases Act.attempt (queryHostTriple cx b) w s with
  | mk r s1 =>
    cases r with
    | err e => rfl
    | panic => rfl
    | ok o =>
      dsimp only
      rw [Act.cells_bind]
      cases s1.rustcVersion with
      | some v => rfl
      | none =>
        dsimp only
        rw [Act.bind_def, Act.bind_def]
        cases rustcForVersion cx b w s1 with
        | mk r s2 =>
          cases r with
          | err e => rfl
          | panic => rfl
          | ok r =>
            dsimp only
            rw [Act.bind_def, Act.bind_def]
            cases verboseVersion r w s2 with
            | mk r s3 =>
              cases r with
              | err e => rfl
              | panic => rfl
              | ok vv =>
                dsimp only
                rw [Act.lift_bind, Act.lift_def]
                cases rustcVersionOf _ vv <;> rfl

/-- The last part of `cargo_version`: ask cargo. -/
def askCargoVersion (cx : Ctx) : Act CargoVersion := do
  let vv ← verboseVersion { path := cx.cargo.path, args := [] }
  Act.lift (cargoVersionOf (EPathAndArgs.vvCmd { path := cx.cargo.path, args := [] }) vv)

theorem queryCargoVersion_set {cx : Ctx} {b : EBuild} {w : World} {s : Cells} {v : CargoVersion} (hs : s.cargoVersion = some v) :
    queryCargoVersion cx b w s = (.ok v, s) := by
  unfold queryCargoVersion
  rw [Act.cells_bind, hs]
  rfl

theorem queryCargoVersion_unset {cx : Ctx} {b : EBuild} {w : World} {s : Cells} (hs : s.cargoVersion = none) :
    queryCargoVersion cx b w s = match Act.attempt (queryHostTriple cx b) w s with
      | (.ok _, s1) =>
        match s1.cargoVersion with
        | some v => (.ok v, s1)
        | none =>
          match askCargoVersion cx w s1 with
          | (.ok v, s2) => (.ok v, { s2 with cargoVersion := some v })
          | (.err e, s2) => (.err e, s2)
          | (.panic, s2) => (.panic, s2)
      | (.err e, s1) => (.err e, s1)
      | (.panic, s1) => (.panic, s1) := by
  unfold queryCargoVersion askCargoVersion
  rw [Act.cells_bind, hs]
  dsimp only
  rw [Act.bind_def]
  cases Act.attempt (queryHostTriple cx b) w s with
  | mk r s1 =>
    cases r with
    | err e => rfl
    | panic => rfl
    | ok o =>
      dsimp only
      rw [Act.cells_bind]
      cases s1.cargoVersion with
      | some v => rfl
      | none =>
        dsimp only
        rw [Act.bind_def, Act.bind_def]
        cases verboseVersion { path := cx.cargo.path, args := [] } w s1 with
        | mk r s3 =>
          cases r with
          | err e => rfl
          | panic => rfl
          | ok vv =>
            dsimp only
            rw [Act.lift_bind, Act.lift_def]
            cases cargoVersionOf _ vv <;> rfl

theorem grows_askRustcVersion (cx : Ctx) (b : EBuild) : Keeps Grows (askRustcVersion cx b) :=
  .bind grows_pre (grows_rustcForVersion cx b) fun _ => .bind grows_pre (grows_read _) fun _ => .lift grows_pre _
theorem grows_askCargoVersion (cx : Ctx) : Keeps Grows (askCargoVersion cx) :=
  .bind grows_pre (grows_read _) fun _ => .lift grows_pre _
theorem sameVersions_askRustcVersion (cx : Ctx) (b : EBuild) : Keeps SameVersions (askRustcVersion cx b) :=
  .bind sameVersions_pre (keeps_rustcForVersion sameVersions_pre (fun _ _ _ => ⟨rfl, rfl⟩) cx b) fun _ =>
    .bind sameVersions_pre (keeps_read sameVersions_pre (fun _ _ _ => ⟨rfl, rfl⟩) _) fun _ => .lift sameVersions_pre _
theorem sameVersions_askCargoVersion (cx : Ctx) : Keeps SameVersions (askCargoVersion cx) :=
  .bind sameVersions_pre (keeps_read sameVersions_pre (fun _ _ _ => ⟨rfl, rfl⟩) _) fun _ => .lift sameVersions_pre _
theorem sameTables_askRustcVersion (cx : Ctx) (b : EBuild) : Keeps SameTables (askRustcVersion cx b) :=
  .bind sameTables_pre (keeps_rustcForVersion sameTables_pre (fun _ _ _ => ⟨rfl, rfl, rfl⟩) cx b) fun _ =>
    .bind sameTables_pre (keeps_read sameTables_pre (fun _ _ _ => ⟨rfl, rfl, rfl⟩) _) fun _ => .lift sameTables_pre _
theorem sameTables_askCargoVersion (cx : Ctx) : Keeps SameTables (askCargoVersion cx) :=
  .bind sameTables_pre (keeps_read sameTables_pre (fun _ _ _ => ⟨rfl, rfl, rfl⟩) _) fun _ => .lift sameTables_pre _

theorem grows_queryRustcVersion (cx : Ctx) (b : EBuild) : Keeps Grows (queryRustcVersion cx b) := by
  intro w s
  cases hs : s.rustcVersion with
  | some h => rw [queryRustcVersion_set hs]; exact grows_pre.refl s
  | none =>
    rw [queryRustcVersion_unset hs]
    have h1 := Keeps.attempt (grows_queryHostTriple cx b) w s
    generalize Act.attempt (queryHostTriple cx b) w s = x at h1
    obtain ⟨r, s1⟩ := x
    cases r with
    | err e => exact h1
    | panic => exact h1
    | ok o =>
      dsimp only
      cases hv : s1.rustcVersion with
      | some v => exact h1
      | none =>
        dsimp only
        have h2 := grows_askRustcVersion cx b w s1
        have h3 := sameVersions_askRustcVersion cx b w s1
        generalize askRustcVersion cx b w s1 = y at h2 h3
        obtain ⟨r, s2⟩ := y
        cases r with
        | err e => exact grows_pre.trans h1 h2
        | panic => exact grows_pre.trans h1 h2
        | ok v =>
          refine grows_pre.trans (grows_pre.trans h1 h2) ?_
          have hn : s2.rustcVersion = none := by rw [← hv]; exact h3.1
          exact ⟨fun _ h => h, rfl, fun _ h => h, fun v' hv => (by rw [hn] at hv; cases hv), fun _ h => h, fun _ _ h => h,
            fun _ _ h => h, [], (List.append_nil _).symm⟩

theorem grows_queryCargoVersion (cx : Ctx) (b : EBuild) : Keeps Grows (queryCargoVersion cx b) := by
  intro w s
  cases hs : s.cargoVersion with
  | some h => rw [queryCargoVersion_set hs]; exact grows_pre.refl s
  | none =>
    rw [queryCargoVersion_unset hs]
    have h1 := Keeps.attempt (grows_queryHostTriple cx b) w s
    generalize Act.attempt (queryHostTriple cx b) w s = x at h1
    obtain ⟨r, s1⟩ := x
    cases r with
    | err e => exact h1
    | panic => exact h1
    | ok o =>
      dsimp only
      cases hv : s1.cargoVersion with
      | some v => exact h1
      | none =>
        dsimp only
        have h2 := grows_askCargoVersion cx w s1
        have h3 := sameVersions_askCargoVersion cx w s1
        generalize askCargoVersion cx w s1 = y at h2 h3
        obtain ⟨r, s2⟩ := y
        cases r with
        | err e => exact grows_pre.trans h1 h2
        | panic => exact grows_pre.trans h1 h2
        | ok v =>
          refine grows_pre.trans (grows_pre.trans h1 h2) ?_
          have hn : s2.cargoVersion = none := by rw [← hv]; exact h3.2
          exact ⟨fun _ h => h, rfl, fun _ h => h, fun _ h => h, fun v' hv => (by rw [hn] at hv; cases hv), fun _ _ h => h,
            fun _ _ h => h, [], (List.append_nil _).symm⟩

theorem sameTables_queryRustcVersion (cx : Ctx) (b : EBuild) : Keeps SameTables (queryRustcVersion cx b) := by
  intro w s
  cases hs : s.rustcVersion with
  | some h => rw [queryRustcVersion_set hs]; exact sameTables_pre.refl s
  | none =>
    rw [queryRustcVersion_unset hs]
    have h1 := Keeps.attempt (sameTables_queryHostTriple cx b) w s
    generalize Act.attempt (queryHostTriple cx b) w s = x at h1
    obtain ⟨r, s1⟩ := x
    cases r with
    | err e => exact h1
    | panic => exact h1
    | ok o =>
      dsimp only
      cases hv : s1.rustcVersion with
      | some v => exact h1
      | none =>
        dsimp only
        have h2 := sameTables_askRustcVersion cx b w s1
        generalize askRustcVersion cx b w s1 = y at h2
        obtain ⟨r, s2⟩ := y
        cases r <;> exact sameTables_pre.trans h1 h2

theorem sameTables_queryCargoVersion (cx : Ctx) (b : EBuild) : Keeps SameTables (queryCargoVersion cx b) := by
  intro w s
  cases hs : s.cargoVersion with
  | some h => rw [queryCargoVersion_set hs]; exact sameTables_pre.refl s
  | none =>
    rw [queryCargoVersion_unset hs]
    have h1 := Keeps.attempt (sameTables_queryHostTriple cx b) w s
    generalize Act.attempt (queryHostTriple cx b) w s = x at h1
    obtain ⟨r, s1⟩ := x
    cases r with
    | err e => exact h1
    | panic => exact h1
    | ok o =>
      dsimp only
      cases hv : s1.cargoVersion with
      | some v => exact h1
      | none =>
        dsimp only
        have h2 := sameTables_askCargoVersion cx w s1
        generalize askCargoVersion cx w s1 = y at h2
        obtain ⟨r, s2⟩ := y
        cases r <;> exact sameTables_pre.trans h1 h2

end CC
