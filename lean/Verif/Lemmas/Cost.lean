import Verif.Lemmas.Tools
import Verif.Lemmas.History
import Verif.Spec.Cost
/-
The number of processes started by queries.
-/
namespace CC

/-- The action starts at most `n` processes. -/
def Costs {α : Type} (n : Nat) (m : Act α) : Prop := ∀ w s, (m w s).2.trace.length ≤ s.trace.length + n

namespace Costs
variable {α β : Type} {n k : Nat}

theorem bind {m : Act α} {f : α → Act β} (h1 : Costs n m) (h2 : ∀ a, Costs k (f a)) : Costs (n + k) (m >>= f) := by
  intro w s
  have h3 := h1 w s
  rw [Act.bind_def]
  generalize m w s = x at h3
  obtain ⟨r, s1⟩ := x
  cases r with
  | ok a =>
    have := h2 a w s1
    dsimp only at h3 this ⊢
    omega
  | err e => dsimp only at h3 ⊢; omega
  | panic => dsimp only at h3 ⊢; omega

theorem pure (a : α) : Costs 0 (Pure.pure a : Act α) := fun _ _ => Nat.le_refl _
theorem lift (r : Res α) : Costs 0 (Act.lift r) := fun _ _ => Nat.le_refl _
theorem read (c : Cmd) : Costs 1 (Act.read c) := fun w s => by
  rw [Act.read_def]; simp
theorem attempt {m : Act α} (h : Costs n m) : Costs n (Act.attempt m) := by
  intro w s
  have := h w s
  unfold Act.attempt
  generalize m w s = x at this
  obtain ⟨r, s1⟩ := x
  cases r <;> exact this
theorem same {m : Act α} (h : ∀ w s, (m w s).2.trace = s.trace) : Costs 0 m := fun w s => by rw [h]; exact Nat.le_refl _

end Costs

theorem costs_setCargoVersion (v : CargoVersion) : Costs 0 (setCargoVersion v) := by
  refine .same fun w s => ?_
  unfold setCargoVersion
  rw [Act.cells_bind]
  cases s.cargoVersion <;> rfl

theorem costs_setRustcVersion (v : RustcVersion) : Costs 0 (setRustcVersion v) := by
  refine .same fun w s => ?_
  unfold setRustcVersion
  rw [Act.cells_bind]
  cases s.rustcVersion <;> rfl

theorem costs_rustcForVersion (cx : Ctx) (b : EBuild) : Costs 0 (rustcForVersion cx b) := by
  refine .same fun w s => ?_
  obtain ⟨n, hn, h⟩ := rustcForVersion_eq cx b w s
  rw [h]

theorem costs_hostFromCargo (cx : Ctx) : Costs 1 (hostFromCargo cx) :=
  .bind (k := 0) (.read _) fun _ => .bind (k := 0) (.lift _) fun _ => .bind (costs_setCargoVersion _) fun _ => .lift _

theorem costs_hostFromRustc (cx : Ctx) (b : EBuild) : Costs 1 (hostFromRustc cx b) :=
  .bind (n := 0) (k := 1) (costs_rustcForVersion cx b) fun _ => .bind (k := 0) (.read _) fun _ => .bind (k := 0) (.lift _) fun _ =>
    .bind (costs_setRustcVersion _) fun _ => .lift _

theorem costs_findHost (cx : Ctx) (b : EBuild) : Costs 2 (findHost cx b) := by
  unfold findHost
  refine .bind (n := 1) (k := 1) (.attempt (costs_hostFromCargo cx)) fun o => ?_
  cases o with
  | none => exact costs_hostFromRustc cx b
  | some h => exact fun _ _ => Nat.le_succ _

theorem costs_queryHostTriple (cx : Ctx) (b : EBuild) : Costs 2 (queryHostTriple cx b) := by
  intro w s
  cases hs : s.hostTriple with
  | some h => rw [queryHostTriple_set hs]; exact Nat.le_add_right _ _
  | none =>
    rw [queryHostTriple_unset hs]
    have h1 := costs_findHost cx b w s
    generalize findHost cx b w s = x at h1
    obtain ⟨r, s1⟩ := x
    cases r <;> exact h1

theorem costs_askRustcVersion (cx : Ctx) (b : EBuild) : Costs 1 (askRustcVersion cx b) :=
  .bind (n := 0) (k := 1) (costs_rustcForVersion cx b) fun _ => .bind (k := 0) (.read _) fun _ => .lift _

theorem costs_askCargoVersion (cx : Ctx) : Costs 1 (askCargoVersion cx) := .bind (k := 0) (.read _) fun _ => .lift _

/-- What `queryRustcVersion` does after looking for the host. -/
def rustcVersionTail (cx : Ctx) (b : EBuild) (w : World) (s : Cells) : Res RustcVersion × Cells :=
  match s.rustcVersion with
  | some v => (.ok v, s)
  | none =>
    match askRustcVersion cx b w s with
    | (.ok v, s2) => (.ok v, { s2 with rustcVersion := some v })
    | (.err e, s2) => (.err e, s2)
    | (.panic, s2) => (.panic, s2)

theorem rustcVersionTail_cost (cx : Ctx) (b : EBuild) (w : World) (s : Cells) :
    (rustcVersionTail cx b w s).2.trace.length ≤ s.trace.length + (if s.rustcVersion.isSome then 0 else 1) ∧
      ((rustcVersionTail cx b w s).1.isOk = true → (rustcVersionTail cx b w s).2.rustcVersion.isSome = true) := by
  unfold rustcVersionTail
  cases hv : s.rustcVersion with
  | some v => exact ⟨Nat.le_refl _, fun _ => by rw [hv]; rfl⟩
  | none =>
    dsimp only
    have h2 := costs_askRustcVersion cx b w s
    generalize askRustcVersion cx b w s = y at h2
    obtain ⟨r, s2⟩ := y
    cases r with
    | ok v => exact ⟨h2, fun _ => rfl⟩
    | err e => exact ⟨h2, nofun⟩
    | panic => exact ⟨h2, nofun⟩

theorem queryRustcVersion_tail (cx : Ctx) (b : EBuild) (w : World) (s : Cells) (hs : s.rustcVersion = none) :
    (queryRustcVersion cx b w s).1.isOk = false ∧ (queryRustcVersion cx b w s).2 = (queryHostTriple cx b w s).2 ∧ (queryHostTriple cx b w s).1 = .panic ∨
      queryRustcVersion cx b w s = rustcVersionTail cx b w (queryHostTriple cx b w s).2 ∧ (queryHostTriple cx b w s).1 ≠ .panic := by
  rw [queryRustcVersion_unset hs]
  unfold Act.attempt
  generalize queryHostTriple cx b w s = x
  obtain ⟨r, s1⟩ := x
  cases r with
  | ok h => exact .inr ⟨rfl, nofun⟩
  | err e => exact .inr ⟨rfl, nofun⟩
  | panic => exact .inl ⟨rfl, rfl, rfl⟩

/-- What `queryCargoVersion` does after looking for the host. -/
def cargoVersionTail (cx : Ctx) (w : World) (s : Cells) : Res CargoVersion × Cells :=
  match s.cargoVersion with
  | some v => (.ok v, s)
  | none =>
    match askCargoVersion cx w s with
    | (.ok v, s2) => (.ok v, { s2 with cargoVersion := some v })
    | (.err e, s2) => (.err e, s2)
    | (.panic, s2) => (.panic, s2)

theorem cargoVersionTail_cost (cx : Ctx) (w : World) (s : Cells) :
    (cargoVersionTail cx w s).2.trace.length ≤ s.trace.length + (if s.cargoVersion.isSome then 0 else 1) ∧
      ((cargoVersionTail cx w s).1.isOk = true → (cargoVersionTail cx w s).2.cargoVersion.isSome = true) := by
  unfold cargoVersionTail
  cases hv : s.cargoVersion with
  | some v => exact ⟨Nat.le_refl _, fun _ => by rw [hv]; rfl⟩
  | none =>
    dsimp only
    have h2 := costs_askCargoVersion cx w s
    generalize askCargoVersion cx w s = y at h2
    obtain ⟨r, s2⟩ := y
    cases r with
    | ok v => exact ⟨h2, fun _ => rfl⟩
    | err e => exact ⟨h2, nofun⟩
    | panic => exact ⟨h2, nofun⟩

theorem queryCargoVersion_tail (cx : Ctx) (b : EBuild) (w : World) (s : Cells) (hs : s.cargoVersion = none) :
    (queryCargoVersion cx b w s).1.isOk = false ∧ (queryCargoVersion cx b w s).2 = (queryHostTriple cx b w s).2 ∧ (queryHostTriple cx b w s).1 = .panic ∨
      queryCargoVersion cx b w s = cargoVersionTail cx w (queryHostTriple cx b w s).2 ∧ (queryHostTriple cx b w s).1 ≠ .panic := by
  rw [queryCargoVersion_unset hs]
  unfold Act.attempt
  generalize queryHostTriple cx b w s = x
  obtain ⟨r, s1⟩ := x
  cases r with
  | ok h => exact .inr ⟨rfl, nofun⟩
  | err e => exact .inr ⟨rfl, nofun⟩
  | panic => exact .inl ⟨rfl, rfl, rfl⟩


/-! ### Any tools -/

/-- What the queries for versions may still cost. -/
def versionCost (s : Cells) : Nat :=
  (if s.hostTriple.isSome then 0 else 2) + (if s.rustcVersion.isSome then 0 else 3) + (if s.cargoVersion.isSome then 0 else 3)

theorem Grows.isSome {s s' : Cells} (h : Grows s s') : (s.hostTriple.isSome = true → s'.hostTriple.isSome = true) ∧
    (s.rustcVersion.isSome = true → s'.rustcVersion.isSome = true) ∧ (s.cargoVersion.isSome = true → s'.cargoVersion.isSome = true) := by
  refine ⟨fun hs => ?_, fun hs => ?_, fun hs => ?_⟩
  · obtain ⟨x, hx⟩ := Option.isSome_iff_exists.1 hs
    rw [h.hostTriple x hx]; rfl
  · obtain ⟨x, hx⟩ := Option.isSome_iff_exists.1 hs
    rw [h.rustcVersion x hx]; rfl
  · obtain ⟨x, hx⟩ := Option.isSome_iff_exists.1 hs
    rw [h.cargoVersion x hx]; rfl

theorem versionCost_le {s s' : Cells} (h : Grows s s') : versionCost s' ≤ versionCost s := by
  obtain ⟨h1, h2, h3⟩ := h.isSome
  unfold versionCost
  revert h1 h2 h3
  generalize s.hostTriple.isSome = a
  generalize s.rustcVersion.isSome = b
  generalize s.cargoVersion.isSome = c
  generalize s'.hostTriple.isSome = a'
  generalize s'.rustcVersion.isSome = b'
  generalize s'.cargoVersion.isSome = c'
  revert a b c a' b' c'
  decide

/-- Three facts about the flags, used for `omega`. -/
theorem versionCost_host {s s' : Cells} (h : Grows s s') (hs : s.hostTriple.isSome = false) (hs' : s'.hostTriple.isSome = true) :
    versionCost s' + 2 ≤ versionCost s := by
  obtain ⟨_, h2, h3⟩ := h.isSome
  unfold versionCost
  rw [hs, hs']
  revert h2 h3
  generalize s.rustcVersion.isSome = b
  generalize s.cargoVersion.isSome = c
  generalize s'.rustcVersion.isSome = b'
  generalize s'.cargoVersion.isSome = c'
  revert b c b' c'
  decide

theorem versionCost_rustc {s s' : Cells} (h : Grows s s') (hs : s.rustcVersion.isSome = false) (hs' : s'.rustcVersion.isSome = true) :
    versionCost s' + 3 ≤ versionCost s := by
  obtain ⟨h1, _, h3⟩ := h.isSome
  unfold versionCost
  rw [hs, hs']
  revert h1 h3
  generalize s.hostTriple.isSome = b
  generalize s.cargoVersion.isSome = c
  generalize s'.hostTriple.isSome = b'
  generalize s'.cargoVersion.isSome = c'
  revert b c b' c'
  decide

theorem versionCost_cargo {s s' : Cells} (h : Grows s s') (hs : s.cargoVersion.isSome = false) (hs' : s'.cargoVersion.isSome = true) :
    versionCost s' + 3 ≤ versionCost s := by
  obtain ⟨h1, h2, _⟩ := h.isSome
  unfold versionCost
  rw [hs, hs']
  revert h1 h2
  generalize s.hostTriple.isSome = b
  generalize s.rustcVersion.isSome = c
  generalize s'.hostTriple.isSome = b'
  generalize s'.rustcVersion.isSome = c'
  revert b c b' c'
  decide

theorem isSome_false_of_none {α : Type} {o : Option α} (h : o = none) : o.isSome = false := by rw [h]; rfl

/-- The number 1 for a failure. -/
abbrev fails {α : Type} (r : Res α) : Nat := if r.isOk then 0 else 1

theorem queryHostTriple_isSome (cx : Ctx) (b : EBuild) (w : World) (s : Cells) (h : (queryHostTriple cx b w s).1.isOk = true) :
    (queryHostTriple cx b w s).2.hostTriple.isSome = true := by
  cases hs : s.hostTriple with
  | some h => rw [queryHostTriple_set hs]; dsimp only; rw [hs]; rfl
  | none =>
    rw [queryHostTriple_unset hs] at h ⊢
    generalize findHost cx b w s = x at h
    obtain ⟨r, s1⟩ := x
    cases r with
    | ok h => rfl
    | err e => cases h
    | panic => cases h

theorem host_cost (cx : Ctx) (b : EBuild) (w : World) (s : Cells) :
    (queryHostTriple cx b w s).2.trace.length + versionCost (queryHostTriple cx b w s).2 ≤
      s.trace.length + versionCost s + 3 * fails (queryHostTriple cx b w s).1 := by
  cases hs : s.hostTriple with
  | some h => rw [queryHostTriple_set hs]; exact Nat.le_add_right _ _
  | none =>
    have h1 := costs_queryHostTriple cx b w s
    have h2 := grows_queryHostTriple cx b w s
    by_cases hok : (queryHostTriple cx b w s).1.isOk = true
    · have := versionCost_host h2 (isSome_false_of_none hs) (queryHostTriple_isSome cx b w s hok)
      omega
    · have := versionCost_le h2
      simp only [fails, if_neg hok]
      omega

theorem rustcVersion_cost (cx : Ctx) (b : EBuild) (w : World) (s : Cells) :
    (queryRustcVersion cx b w s).2.trace.length + versionCost (queryRustcVersion cx b w s).2 ≤
      s.trace.length + versionCost s + 3 * fails (queryRustcVersion cx b w s).1 := by
  cases hs : s.rustcVersion with
  | some h => rw [queryRustcVersion_set hs]; exact Nat.le_add_right _ _
  | none =>
    have h1 := costs_queryHostTriple cx b w s
    have h2 := grows_queryRustcVersion cx b w s
    have h3 := versionCost_le h2
    rcases queryRustcVersion_tail cx b w s hs with ⟨h4, h5, _⟩ | ⟨h4, _⟩
    · simp only [fails, h4, h5] at h3 ⊢
      simp only [Bool.false_eq_true, if_false]
      omega
    · obtain ⟨h5, h6⟩ := rustcVersionTail_cost cx b w (queryHostTriple cx b w s).2
      rw [← h4] at h5 h6
      have h7 : (if (queryHostTriple cx b w s).2.rustcVersion.isSome = true then 0 else 1) ≤ 1 := by split <;> omega
      by_cases hok : (queryRustcVersion cx b w s).1.isOk = true
      · have := versionCost_rustc h2 (isSome_false_of_none hs) (h6 hok)
        omega
      · simp only [fails, if_neg hok]
        omega

theorem cargoVersion_cost (cx : Ctx) (b : EBuild) (w : World) (s : Cells) :
    (queryCargoVersion cx b w s).2.trace.length + versionCost (queryCargoVersion cx b w s).2 ≤
      s.trace.length + versionCost s + 3 * fails (queryCargoVersion cx b w s).1 := by
  cases hs : s.cargoVersion with
  | some h => rw [queryCargoVersion_set hs]; exact Nat.le_add_right _ _
  | none =>
    have h1 := costs_queryHostTriple cx b w s
    have h2 := grows_queryCargoVersion cx b w s
    have h3 := versionCost_le h2
    rcases queryCargoVersion_tail cx b w s hs with ⟨h4, h5, _⟩ | ⟨h4, _⟩
    · simp only [fails, h4, h5] at h3 ⊢
      simp only [Bool.false_eq_true, if_false]
      omega
    · obtain ⟨h5, h6⟩ := cargoVersionTail_cost cx w (queryHostTriple cx b w s).2
      rw [← h4] at h5 h6
      have h7 : (if (queryHostTriple cx b w s).2.cargoVersion.isSome = true then 0 else 1) ≤ 1 := by split <;> omega
      by_cases hok : (queryCargoVersion cx b w s).1.isOk = true
      · have := versionCost_cargo h2 (isSome_false_of_none hs) (h6 hok)
        omega
      · simp only [fails, if_neg hok]
        omega

theorem map_isOk {α β : Type} (f : α → β) (m : Act α) (w : World) (s : Cells) : (m.map f w s).1.isOk = (m w s).1.isOk := by
  unfold Act.map
  generalize m w s = x
  obtain ⟨r, s1⟩ := x
  cases r <;> rfl

/-- What a query for the targets to build costs is what the query for the host does. -/
theorem buildTarget_cost (c : EConfig) (ts : List TargetTriple) (w : World) (s : Cells) :
    (c.buildTargetForConfig ts w s).2 = s ∨ (c.buildTargetForConfig ts w s).2 = (queryHostTriple c.cx c.build w s).2 ∧
      ((c.buildTargetForConfig ts w s).1.isOk = true → (queryHostTriple c.cx c.build w s).1.isOk = true) := by
  unfold EConfig.buildTargetForConfig
  split
  · exact .inl rfl
  · dsimp only
    split
    · exact .inl rfl
    · right
      unfold EConfig.hostTriple
      rw [Act.bind_def]
      generalize queryHostTriple c.cx c.build w s = x
      obtain ⟨r, s1⟩ := x
      cases r with
      | err e => exact ⟨rfl, id⟩
      | panic => exact ⟨rfl, id⟩
      | ok h =>
        dsimp only
        rw [Act.lift_bind]
        cases TargetTriple.ofStr h <;> exact ⟨rfl, fun _ => rfl⟩

theorem fails_le {α β : Type} {a : Res α} {b : Res β} (h : b.isOk = true → a.isOk = true) : fails a ≤ fails b := by
  unfold fails
  revert h
  generalize a.isOk = x
  generalize b.isOk = y
  revert x y
  decide

/-- A query that is not about a target. -/
theorem other_cost {c : EConfig} {q : Query} (h : q.targetOf = none) (w : World) (s : Cells) :
    (c.ask q w s).2.trace.length + versionCost (c.ask q w s).2 ≤ s.trace.length + versionCost s + 3 * fails (c.ask q w s).1 := by
  cases q with
  | target t => cases h
  | linker t => cases h
  | runner t => cases h
  | rustflags t => cases h
  | rustdocflags t => cases h
  | rustc =>
    obtain ⟨r, n, h4⟩ := queryRustc_total c.cx c.build w s
    have : (c.ask .rustc w s).2 = { s with rustc := some r, clock := n } := by
      show (Act.map _ (queryRustc c.cx c.build) w s).2 = _
      rw [map_snd, h4]
    rw [this]
    exact Nat.le_add_right _ _
  | hostTriple =>
    simp only [EConfig.ask, map_snd, fails, map_isOk]
    exact host_cost c.cx c.build w s
  | rustcVersion =>
    simp only [EConfig.ask, map_snd, fails, map_isOk]
    exact rustcVersion_cost c.cx c.build w s
  | cargoVersion =>
    simp only [EConfig.ask, map_snd, fails, map_isOk]
    exact cargoVersion_cost c.cx c.build w s
  | buildTargetForConfig ts =>
    simp only [EConfig.ask, map_snd, fails, map_isOk]
    rcases buildTarget_cost c ts w s with h1 | ⟨h1, h2⟩
    · rw [h1]; exact Nat.le_add_right _ _
    · rw [h1]
      have h3 := host_cost c.cx c.build w s
      have h4 := fails_le h2
      simp only [fails] at h3 h4
      omega
  | buildTargetForCli ts =>
    have : (c.ask (.buildTargetForCli ts) w s).2 = s := by
      show (Act.map _ (c.buildTargetForCli ts) w s).2 = s
      rw [map_snd]
      unfold EConfig.buildTargetForCli
      split
      · rfl
      · dsimp only
        split <;> rfl
    rw [this]
    exact Nat.le_add_right _ _

/-! ### Targets -/

/-- Whether nothing is known about the target. -/
def unknownTarget (s : Cells) (k : Str) : Bool := !(s.cfg.get k).isSome && !(s.target.get k).isSome

/-- The number of targets about which nothing is known. -/
def targetCost (ts : List Str) (s : Cells) : Nat := ts.countP (unknownTarget s)

theorem unknown_grows {s s' : Cells} (h : Grows s s') (k : Str) (hk : unknownTarget s' k = true) : unknownTarget s k = true := by
  cases hu : unknownTarget s k with
  | true => rfl
  | false =>
    have : Known k s := by
      unfold unknownTarget at hu
      unfold Known
      revert hu
      generalize (s.cfg.get k).isSome = a
      generalize (s.target.get k).isSome = b
      revert a b
      decide
    have := known_grows h this
    unfold unknownTarget at hk
    unfold Known at this
    revert hk this
    generalize (s'.cfg.get k).isSome = a
    generalize (s'.target.get k).isSome = b
    revert a b
    decide

theorem targetCost_le {s s' : Cells} (h : Grows s s') (ts : List Str) : targetCost ts s' ≤ targetCost ts s :=
  List.countP_mono_left fun k _ hk => unknown_grows h k hk

theorem targetCost_lt {s s' : Cells} (h : Grows s s') {ts : List Str} {k : Str} (hm : k ∈ ts) (h1 : unknownTarget s k = true)
    (h2 : unknownTarget s' k = false) : targetCost ts s' + 1 ≤ targetCost ts s := by
  unfold targetCost
  induction ts with
  | nil => cases hm
  | cons x ts ih =>
    rw [List.countP_cons, List.countP_cons]
    have hle : ts.countP (unknownTarget s') ≤ ts.countP (unknownTarget s) := targetCost_le h ts
    by_cases e : x = k
    · subst e
      rw [h1, h2]
      simp only [if_true, Bool.false_eq_true, if_false]
      omega
    · have := ih ((List.mem_cons.1 hm).resolve_left fun e' => e e'.symm)
      have hx := unknown_grows h x
      cases hx' : unknownTarget s' x with
      | false => simp only [Bool.false_eq_true, if_false]; omega
      | true => rw [hx hx']; simp only [if_true]; omega

/-- A query about a target. -/
theorem target_cost {c : EConfig} {q : Query} {t : TargetTriple} (ht : q.targetOf = some t) {ts : List Str} (hm : t.cliTarget ∈ ts)
    (w : World) (s : Cells) :
    (c.ask q w s).2.trace.length + targetCost ts (c.ask q w s).2 ≤ s.trace.length + targetCost ts s + fails (c.ask q w s).1 := by
  have hg := grows_ask c q w s
  have hle := targetCost_le hg ts
  rw [ask_target ht] at hg hle ⊢
  simp only [fails, map_isOk, map_snd] at hg hle ⊢
  obtain ⟨s1, h1, h2⟩ := target_cells c t w s
  have htr : (c.target t w s).2.trace = s1.trace := by
    rcases h2 with ⟨h2, -⟩ | ⟨e, -, -, h2⟩ <;> rw [h2]
  rcases h1 with rfl | ⟨-, hn, rfl⟩
  · rw [htr]; omega
  · cases hc : s.cfg.get t.cliTarget with
    | some y =>
      rw [cfgOf_cached hc] at htr
      rw [htr]; dsimp only; omega
    | none =>
      obtain ⟨r, n, -, h5⟩ := cfgOf_fresh (cx := c.cx) (b := c.build) (w := w) hc
      have hlen : (c.target t w s).2.trace.length = s.trace.length + 1 := by rw [htr, h5]; simp
      by_cases hok : (c.target t w s).1.isOk = true
      · have hu : unknownTarget s t.cliTarget = true := by unfold unknownTarget; rw [hc, hn]; rfl
        have hk : unknownTarget (c.target t w s).2 t.cliTarget = false := by
          rcases h2 with ⟨_, h2⟩ | ⟨e, -, -, h2⟩
          · cases hr : (c.target t w s).1 with
            | ok e => rw [h2 e hr] at hn; cases hn
            | err e => rw [hr] at hok; cases hok
            | panic => rw [hr] at hok; cases hok
          · unfold unknownTarget
            rw [h2]
            dsimp only
            rw [BMap.get_insert, if_pos rfl]
            simp
        have := targetCost_lt hg hm hu hk
        omega
      · rw [if_neg hok]; omega

/-! ### Histories -/

theorem history_cost (w : World) {ts : List Str} (qs : List (EConfig × Query)) (hts : AsksAbout ts qs) (s : Cells) :
    (afterQueries w qs s).trace.length + versionCost (afterQueries w qs s) + targetCost ts (afterQueries w qs s) ≤
      s.trace.length + versionCost s + targetCost ts s + 3 * failedQueries w qs s := by
  induction qs generalizing s with
  | nil => exact Nat.le_add_right _ _
  | cons x qs ih =>
    obtain ⟨c, q⟩ := x
    have h1 := ih (fun c q t h => hts c q t (List.mem_cons_of_mem _ h)) (c.ask q w s).2
    have hg := grows_ask c q w s
    simp only [afterQueries, failedQueries]
    cases hq : q.targetOf with
    | none =>
      have h2 := other_cost (c := c) hq w s
      have h3 := targetCost_le hg ts
      simp only [fails] at h2
      omega
    | some t =>
      have h2 := target_cost (c := c) hq (hts c q t (List.mem_cons_self ..) hq) w s
      have h3 := versionCost_le hg
      simp only [fails] at h2
      omega

/-! ### Tools that work -/

/-- What the queries for versions may still cost if cargo tells version and host. -/
def workingCost (s : Cells) : Nat := (if s.rustcVersion.isSome then 0 else 1) + (if s.cargoVersion.isSome then 0 else 1)

/-- No version of cargo is stored while the host triple is not. -/
def CargoAfterHost (s : Cells) : Prop := s.hostTriple = none → s.cargoVersion = none

theorem host_working {c : EConfig} {w : World} (hw : ∀ n, ∃ h, CargoTells (w.run n (cargoVV c)) h) {s : Cells} (hs : s.hostTriple = none)
    (hc : s.cargoVersion = none) : ∃ h v, queryHostTriple c.cx c.build w s =
      (.ok h, { s with clock := s.clock + 1, trace := s.trace ++ [cargoVV c], hostTriple := some h, cargoVersion := some v }) := by
  obtain ⟨h, ht⟩ := hw s.clock
  obtain ⟨vv, v, h1, h2, h3⟩ := (cargoTells_iff (cm := cargoVV c)).1 ht
  refine ⟨h, v, ?_⟩
  rw [queryHostTriple_unset hs]
  unfold findHost
  rw [Act.bind_def]
  unfold Act.attempt
  rw [hostFromCargo_eq]
  unfold cargoPart
  rw [h1]
  dsimp only
  rw [h2]
  dsimp only
  rw [hc]
  dsimp only
  rw [h3]
  rfl


theorem workingCost_le {s s' : Cells} (h : Grows s s') : workingCost s' ≤ workingCost s := by
  obtain ⟨_, h2, h3⟩ := h.isSome
  unfold workingCost
  revert h2 h3
  generalize s.rustcVersion.isSome = b
  generalize s.cargoVersion.isSome = c
  generalize s'.rustcVersion.isSome = b'
  generalize s'.cargoVersion.isSome = c'
  revert b c b' c'
  decide

/-- What is needed of a step: it costs at most what becomes known, and the version of cargo is not stored before the host triple. -/
structure Works {α : Type} (s : Cells) (x : Res α × Cells) : Prop where
  cost : x.2.trace.length + workingCost x.2 ≤ s.trace.length + workingCost s + fails x.1
  after : CargoAfterHost x.2

theorem cargoAfterHost_of_set {s : Cells} (h : s.hostTriple.isSome = true) : CargoAfterHost s :=
  fun h' => by rw [h'] at h; cases h

variable {c : EConfig} {w : World} {s : Cells}

theorem works_host (hw : s.hostTriple = none → ∀ n, ∃ h, CargoTells (w.run n (cargoVV c)) h) (hs : CargoAfterHost s) :
    Works s (queryHostTriple c.cx c.build w s) ∧ (queryHostTriple c.cx c.build w s).2.hostTriple.isSome = true ∧
      (queryHostTriple c.cx c.build w s).1.isOk = true := by
  cases hh : s.hostTriple with
  | some h => rw [queryHostTriple_set hh]; exact ⟨⟨Nat.le_add_right _ _, hs⟩, by dsimp only; rw [hh]; rfl, rfl⟩
  | none =>
    obtain ⟨h, v, e⟩ := host_working (hw hh) hh (hs hh)
    rw [e]
    refine ⟨⟨?_, nofun⟩, rfl, rfl⟩
    simp only [workingCost, hs hh, List.length_append, List.length_singleton, Option.isSome_some, Option.isSome_none, if_true,
      Bool.false_eq_true, if_false, fails, Res.isOk]
    omega

theorem grows_rustcVersionTail (cx : Ctx) (b : EBuild) (w : World) (s : Cells) : Grows s (rustcVersionTail cx b w s).2 := by
  unfold rustcVersionTail
  cases hv : s.rustcVersion with
  | some v => exact grows_pre.refl s
  | none =>
    dsimp only
    have h2 := grows_askRustcVersion cx b w s
    have h3 := sameVersions_askRustcVersion cx b w s
    generalize askRustcVersion cx b w s = y at h2 h3
    obtain ⟨r, s2⟩ := y
    cases r with
    | err e => exact h2
    | panic => exact h2
    | ok v =>
      refine grows_pre.trans h2 ?_
      have hn : s2.rustcVersion = none := by rw [← hv]; exact h3.1
      exact ⟨fun _ h => h, rfl, fun _ h => h, fun v' hv => (by rw [hn] at hv; cases hv), fun _ h => h, fun _ _ h => h,
        fun _ _ h => h, [], (List.append_nil _).symm⟩

theorem grows_cargoVersionTail (cx : Ctx) (w : World) (s : Cells) : Grows s (cargoVersionTail cx w s).2 := by
  unfold cargoVersionTail
  cases hv : s.cargoVersion with
  | some v => exact grows_pre.refl s
  | none =>
    dsimp only
    have h2 := grows_askCargoVersion cx w s
    have h3 := sameVersions_askCargoVersion cx w s
    generalize askCargoVersion cx w s = y at h2 h3
    obtain ⟨r, s2⟩ := y
    cases r with
    | err e => exact h2
    | panic => exact h2
    | ok v =>
      refine grows_pre.trans h2 ?_
      have hn : s2.cargoVersion = none := by rw [← hv]; exact h3.2
      exact ⟨fun _ h => h, rfl, fun _ h => h, fun _ h => h, fun v' hv => (by rw [hn] at hv; cases hv), fun _ _ h => h,
        fun _ _ h => h, [], (List.append_nil _).symm⟩

theorem works_rustcVersionTail (cx : Ctx) (b : EBuild) (w : World) (s : Cells) :
    (rustcVersionTail cx b w s).2.trace.length + workingCost (rustcVersionTail cx b w s).2 ≤
      s.trace.length + workingCost s + fails (rustcVersionTail cx b w s).1 := by
  obtain ⟨h1, h2⟩ := rustcVersionTail_cost cx b w s
  have hg := grows_rustcVersionTail cx b w s
  have hle := workingCost_le hg
  cases hv : s.rustcVersion with
  | some v =>
    rw [hv] at h1
    simp only [Option.isSome_some, if_true] at h1
    omega
  | none =>
    rw [hv] at h1
    simp only [Option.isSome_none, Bool.false_eq_true, if_false] at h1
    by_cases hok : (rustcVersionTail cx b w s).1.isOk = true
    · have h3 := h2 hok
      have h4 := hg.isSome.2.2
      generalize rustcVersionTail cx b w s = x at *
      have : workingCost x.2 + 1 ≤ workingCost s := by
        unfold workingCost
        rw [h3, hv]
        revert h4
        generalize x.2.cargoVersion.isSome = a
        generalize s.cargoVersion.isSome = a'
        revert a a'
        decide
      omega
    · simp only [fails, if_neg hok]
      omega

theorem works_rustcVersion (hw : s.hostTriple = none → ∀ n, ∃ h, CargoTells (w.run n (cargoVV c)) h) (hs : CargoAfterHost s) :
    Works s (queryRustcVersion c.cx c.build w s) := by
  cases hv : s.rustcVersion with
  | some h => rw [queryRustcVersion_set hv]; exact ⟨Nat.le_add_right _ _, hs⟩
  | none =>
    obtain ⟨⟨h1, -⟩, h2, h3⟩ := works_host hw hs
    rcases queryRustcVersion_tail c.cx c.build w s hv with ⟨_, _, h4⟩ | ⟨h4, _⟩
    · rw [h4] at h3; cases h3
    · rw [h4]
      have hl := works_rustcVersionTail c.cx c.build w (queryHostTriple c.cx c.build w s).2
      have hg := grows_rustcVersionTail c.cx c.build w (queryHostTriple c.cx c.build w s).2
      refine ⟨?_, cargoAfterHost_of_set (hg.isSome.1 h2)⟩
      simp only [fails, if_pos h3] at h1
      omega

theorem works_cargoVersionTail (cx : Ctx) (w : World) (s : Cells) :
    (cargoVersionTail cx w s).2.trace.length + workingCost (cargoVersionTail cx w s).2 ≤
      s.trace.length + workingCost s + fails (cargoVersionTail cx w s).1 := by
  obtain ⟨h1, h2⟩ := cargoVersionTail_cost cx w s
  have hg := grows_cargoVersionTail cx w s
  have hle := workingCost_le hg
  cases hv : s.cargoVersion with
  | some v =>
    rw [hv] at h1
    simp only [Option.isSome_some, if_true] at h1
    omega
  | none =>
    rw [hv] at h1
    simp only [Option.isSome_none, Bool.false_eq_true, if_false] at h1
    by_cases hok : (cargoVersionTail cx w s).1.isOk = true
    · have h3 := h2 hok
      have h4 := hg.isSome.2.1
      generalize cargoVersionTail cx w s = x at *
      have : workingCost x.2 + 1 ≤ workingCost s := by
        unfold workingCost
        rw [h3, hv]
        revert h4
        generalize x.2.rustcVersion.isSome = a
        generalize s.rustcVersion.isSome = a'
        revert a a'
        decide
      omega
    · simp only [fails, if_neg hok]
      omega

theorem works_cargoVersion (hw : s.hostTriple = none → ∀ n, ∃ h, CargoTells (w.run n (cargoVV c)) h) (hs : CargoAfterHost s) :
    Works s (queryCargoVersion c.cx c.build w s) := by
  cases hv : s.cargoVersion with
  | some h => rw [queryCargoVersion_set hv]; exact ⟨Nat.le_add_right _ _, hs⟩
  | none =>
    obtain ⟨⟨h1, -⟩, h2, h3⟩ := works_host hw hs
    rcases queryCargoVersion_tail c.cx c.build w s hv with ⟨_, _, h4⟩ | ⟨h4, _⟩
    · rw [h4] at h3; cases h3
    · rw [h4]
      have hl := works_cargoVersionTail c.cx w (queryHostTriple c.cx c.build w s).2
      have hg := grows_cargoVersionTail c.cx w (queryHostTriple c.cx c.build w s).2
      refine ⟨?_, cargoAfterHost_of_set (hg.isSome.1 h2)⟩
      simp only [fails, if_pos h3] at h1
      omega

/-- A query that is not about a target. -/
theorem works_other {q : Query} (h : q.targetOf = none) (hw : s.hostTriple = none → ∀ n, ∃ h, CargoTells (w.run n (cargoVV c)) h) (hs : CargoAfterHost s) :
    Works s (c.ask q w s) := by
  cases q with
  | target t => cases h
  | linker t => cases h
  | runner t => cases h
  | rustflags t => cases h
  | rustdocflags t => cases h
  | rustc =>
    obtain ⟨r, n, h4⟩ := queryRustc_total c.cx c.build w s
    have : (c.ask .rustc w s).2 = { s with rustc := some r, clock := n } := by
      show (Act.map _ (queryRustc c.cx c.build) w s).2 = _
      rw [map_snd, h4]
    constructor
    · rw [this]
      exact Nat.le_add_right _ _
    · rw [this]
      exact hs
  | hostTriple =>
    obtain ⟨⟨h1, h2⟩, -⟩ := works_host hw hs
    constructor <;> simp only [EConfig.ask, map_snd, fails, map_isOk]
    · exact h1
    · exact h2
  | rustcVersion =>
    obtain ⟨h1, h2⟩ := works_rustcVersion hw hs
    constructor <;> simp only [EConfig.ask, map_snd, fails, map_isOk]
    · exact h1
    · exact h2
  | cargoVersion =>
    obtain ⟨h1, h2⟩ := works_cargoVersion hw hs
    constructor <;> simp only [EConfig.ask, map_snd, fails, map_isOk]
    · exact h1
    · exact h2
  | buildTargetForConfig ts =>
    obtain ⟨⟨h1, h2⟩, -⟩ := works_host hw hs
    constructor <;> simp only [EConfig.ask, map_snd, fails, map_isOk]
    · rcases buildTarget_cost c ts w s with h3 | ⟨h3, h4⟩
      · rw [h3]; exact Nat.le_add_right _ _
      · rw [h3]
        have h4 := fails_le h4
        simp only [fails] at h1 h4
        omega
    · rcases buildTarget_cost c ts w s with h3 | ⟨h3, h4⟩
      · rw [h3]; exact hs
      · rw [h3]; exact h2
  | buildTargetForCli ts =>
    have : (c.ask (.buildTargetForCli ts) w s).2 = s := by
      show (Act.map _ (c.buildTargetForCli ts) w s).2 = s
      rw [map_snd]
      unfold EConfig.buildTargetForCli
      split
      · rfl
      · dsimp only
        split <;> rfl
    constructor
    · rw [this]
      exact Nat.le_add_right _ _
    · rw [this]
      exact hs

/-- A query about a target does not touch the host triple and the version of cargo. -/
theorem cargoAfterHost_target {q : Query} {t : TargetTriple} (ht : q.targetOf = some t) (hs : CargoAfterHost s) :
    CargoAfterHost (c.ask q w s).2 := by
  rw [ask_target ht, map_snd]
  obtain ⟨s1, h1, h2⟩ := target_cells c t w s
  have h3 : s1.hostTriple = s.hostTriple ∧ s1.cargoVersion = s.cargoVersion := by
    rcases h1 with rfl | ⟨-, hn, rfl⟩
    · exact ⟨rfl, rfl⟩
    · cases hc : s.cfg.get t.cliTarget with
      | some y => rw [cfgOf_cached hc]; exact ⟨rfl, rfl⟩
      | none =>
        obtain ⟨r, n, -, h5⟩ := cfgOf_fresh (cx := c.cx) (b := c.build) (w := w) hc
        rw [h5]; exact ⟨rfl, rfl⟩
  unfold CargoAfterHost
  rcases h2 with ⟨h2, -⟩ | ⟨e, -, -, h2⟩
  · rw [h2, h3.1, h3.2]; exact hs
  · rw [h2]; dsimp only; rw [h3.1, h3.2]; exact hs

theorem history_working {ts : List Str} (qs : List (EConfig × Query)) (hts : AsksAbout ts qs)
    (s : Cells) (hw : s.hostTriple = none → ∀ c q n, (c, q) ∈ qs → ∃ h, CargoTells (w.run n (cargoVV c)) h) (hs : CargoAfterHost s) :
    (afterQueries w qs s).trace.length + workingCost (afterQueries w qs s) + targetCost ts (afterQueries w qs s) ≤
      s.trace.length + workingCost s + targetCost ts s + failedQueries w qs s := by
  induction qs generalizing s with
  | nil => exact Nat.le_add_right _ _
  | cons x qs ih =>
    obtain ⟨c, q⟩ := x
    have hg := grows_ask c q w s
    have hn : (c.ask q w s).2.hostTriple = none → s.hostTriple = none := fun h => by
      cases hh : s.hostTriple with
      | none => rfl
      | some y => rw [hg.hostTriple y hh] at h; cases h
    have ih := ih (fun c q t h => hts c q t (List.mem_cons_of_mem _ h)) (c.ask q w s).2
      (fun hh c q n h => hw (hn hh) c q n (List.mem_cons_of_mem _ h))
    simp only [afterQueries, failedQueries]
    cases hq : q.targetOf with
    | none =>
      obtain ⟨h1, h2⟩ := works_other hq (fun hh n => hw hh c q n (List.mem_cons_self ..)) hs
      have h3 := targetCost_le hg ts
      have h4 := ih h2
      simp only [fails] at h1
      omega
    | some t =>
      have h1 := target_cost (c := c) hq (hts c q t (List.mem_cons_self ..) hq) w s
      have h2 := ih (cargoAfterHost_target hq hs)
      have h3 := workingCost_le hg
      simp only [fails] at h1
      omega

end CC
