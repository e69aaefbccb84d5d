import Verif.Lemmas.MovedResolve
/-
Lemmas on moving the config files: queries.
-/
namespace CC

/-- Commands with the same words, up to the place of paths. -/
def WordsRel (base : Path → Path → Prop) (x x' : EPathAndArgs) : Prop := ListRel (MovedPath base) (x.path :: x.args) (x'.path :: x'.args)

/-- Related cells. -/
structure CellsRel (base : Path → Path → Prop) (s s' : Cells) : Prop where
  rustc : OptionRel (WordsRel base) s.rustc s'.rustc
  hostTriple : s.hostTriple = s'.hostTriple
  rustcVersion : s.rustcVersion = s'.rustcVersion
  cargoVersion : s.cargoVersion = s'.cargoVersion
  cfg : s.cfg = s'.cfg
  target : MapRel (MovedSettings base) s.target s'.target
  clock : s.clock = s'.clock
  trace : ListRel (fun x x' => ListRel (MovedPath base) (x.program :: x.args) (x'.program :: x'.args)) s.trace s'.trace

/-- Related computations. -/
def ActRel (base : Path → Path → Prop) {α β : Type} (R : α → β → Prop) (m : Act α) (m' : Act β) : Prop :=
  ∀ w w' s s', SameTools base w w' → CellsRel base s s' → Alike R (m w s).1 (m' w' s').1 ∧ CellsRel base (m w s).2 (m' w' s').2

section
variable {base : Path → Path → Prop} {α α' β β' : Type}

theorem ActRel.bind {R : α → α' → Prop} {S : β → β' → Prop} {m : Act α} {m' : Act α'} {f : α → Act β} {f' : α' → Act β'}
    (h : ActRel base R m m') (hf : ∀ a a', R a a' → ActRel base S (f a) (f' a')) : ActRel base S (m >>= f) (m' >>= f') := by
  intro w w' s s' hw hs
  show Alike S (Act.bind m f w s).1 (Act.bind m' f' w' s').1 ∧ CellsRel base (Act.bind m f w s).2 (Act.bind m' f' w' s').2
  unfold Act.bind
  obtain ⟨h1, h2⟩ := h w w' s s' hw hs
  generalize m w s = x at h1 h2 ⊢
  generalize m' w' s' = x' at h1 h2 ⊢
  obtain ⟨r, s⟩ := x
  obtain ⟨r', s'⟩ := x'
  cases r <;> cases r' <;> first | exact h1.elim | skip
  · exact hf _ _ h1 _ _ _ _ hw h2
  · exact ⟨trivial, h2⟩
  · exact ⟨trivial, h2⟩

theorem ActRel.pure {R : α → α' → Prop} {a : α} {a' : α'} (h : R a a') : ActRel base R (Pure.pure a) (Pure.pure a') :=
  fun _ _ _ _ _ hs => ⟨h, hs⟩

theorem ActRel.lift {R : α → α' → Prop} {a : Res α} {a' : Res α'} (h : Alike R a a') : ActRel base R (Act.lift a) (Act.lift a') :=
  fun _ _ _ _ _ hs => ⟨h, hs⟩

theorem ActRel.cells : ActRel base (CellsRel base) Act.cells Act.cells := fun _ _ _ _ _ hs => ⟨hs, hs⟩

theorem ActRel.modify {f f' : Cells → Cells} (h : ∀ s s', CellsRel base s s' → CellsRel base (f s) (f' s')) :
    ActRel base (fun _ _ => True) (Act.modify f) (Act.modify f') := fun _ _ _ _ _ hs => ⟨trivial, h _ _ hs⟩

theorem ActRel.attempt {R : α → α' → Prop} {m : Act α} {m' : Act α'} (h : ActRel base R m m') :
    ActRel base (OptionRel R) m.attempt m'.attempt := by
  intro w w' s s' hw hs
  unfold Act.attempt
  obtain ⟨h1, h2⟩ := h w w' s s' hw hs
  generalize m w s = x at h1 h2 ⊢
  generalize m' w' s' = x' at h1 h2 ⊢
  obtain ⟨r, s⟩ := x
  obtain ⟨r', s'⟩ := x'
  cases r <;> cases r' <;> first | exact h1.elim | skip
  · exact ⟨OptionRel.some h1, h2⟩
  · exact ⟨OptionRel.none, h2⟩
  · exact ⟨trivial, h2⟩

theorem ActRel.map {R : α → α' → Prop} {S : β → β' → Prop} {m : Act α} {m' : Act α'} {f : α → β} {f' : α' → β'} (h : ActRel base R m m')
    (hf : ∀ a a', R a a' → S (f a) (f' a')) : ActRel base S (m.map f) (m'.map f') := by
  intro w w' s s' hw hs
  unfold Act.map
  obtain ⟨h1, h2⟩ := h w w' s s' hw hs
  generalize m w s = x at h1 h2 ⊢
  generalize m' w' s' = x' at h1 h2 ⊢
  obtain ⟨r, s⟩ := x
  obtain ⟨r', s'⟩ := x'
  cases r <;> cases r' <;> first | exact h1.elim | skip
  · exact ⟨hf _ _ h1, h2⟩
  · exact ⟨trivial, h2⟩
  · exact ⟨trivial, h2⟩

theorem ActRel.exist (p : Path) : ActRel base Eq (Act.exist p) (Act.exist p) := by
  intro w w' s s' hw hs
  refine ⟨?_, { hs with clock := by show s.clock + 1 = s'.clock + 1; rw [hs.clock] }⟩
  show w.exist s.clock p = w'.exist s'.clock p
  rw [hs.clock, hw.exist]

theorem ActRel.debugAssert (b : Bool) : ActRel base (fun _ _ => True) (Act.debugAssert b) (Act.debugAssert b) := by
  intro w w' s s' hw hs
  refine ⟨?_, hs⟩
  unfold Act.debugAssert
  rw [hw.checks]
  split
  · trivial
  · trivial

theorem procRead_rel (c c' : Cmd) (o : ProcOut) : Alike Eq (procRead c o) (procRead c' o) := by
  unfold procRead
  refine .bind (R := Eq) ?_ fun a a' ha => ?_
  · cases o
    · trivial
    · rfl
    · trivial
  · subst ha
    exact .bind ((Alike.refl (R := Eq) (fun _ => rfl) _).withContext _ _ _ _ _ _) fun b b' hb => by subst hb; rfl

theorem ActRel.read {c c' : Cmd} (h : ListRel (MovedPath base) (c.program :: c.args) (c'.program :: c'.args)) :
    ActRel base Eq (Act.read c) (Act.read c') := by
  refine .bind (R := Eq) ?_ fun o o' ho => ?_
  · intro w w' s s' hw hs
    refine ⟨?_, { hs with clock := by show s.clock + 1 = s'.clock + 1; rw [hs.clock], trace := hs.trace.append (.cons h .nil) }⟩
    show w.run s.clock c = w'.run s'.clock c'
    rw [hs.clock, hw.run _ _ _ h]
  · subst ho
    exact .lift (procRead_rel c c' o)

theorem ofOption_rel {α : Type} (e e' : Err) (o : Option α) : Alike Eq (Res.ofOption e o) (Res.ofOption e' o) := by
  cases o
  · trivial
  · rfl

theorem movedPath_refl (l : List Path) : ListRel (MovedPath base) l l := .refl (fun p => .same p) l

theorem wordsRel_append {x x' : EPathAndArgs} (h : WordsRel base x x') (l : List Str) :
    ListRel (MovedPath base) ((x.cmd l).program :: (x.cmd l).args) ((x'.cmd l).program :: (x'.cmd l).args) :=
  ListRel.append h (movedPath_refl l)

/-! ### Versions and rustc -/

theorem rustcPath_rel (p : Path) : ActRel base (MovedPath base) (rustcPath p) (rustcPath p) := by
  unfold rustcPath
  refine .bind (.exist _) fun b b' hb => ?_
  subst hb
  split
  · exact .pure (.same _)
  · exact .pure (.same _)

variable {cx cx' : Ctx} {b b' : EBuild}

theorem rustcProgram_rel (hc : cx.cargo = cx'.cargo) (hb : OptionRel (MovedPath base) b.rustc b'.rustc) :
    ActRel base (MovedPath base) (rustcProgram cx b) (rustcProgram cx' b') := by
  unfold rustcProgram
  rw [hc]
  generalize b.rustc = o at hb
  generalize b'.rustc = o' at hb
  cases hb with
  | none => exact rustcPath_rel _
  | some h => exact .pure h

theorem wrapped_rel {l l' : List Path} (h : ListRel (MovedPath base) l l') {r r' : Path} (hr : MovedPath base r r') :
    WordsRel base (wrapped l r) (wrapped l' r') := by
  cases h with
  | nil => exact .cons hr .nil
  | cons h hs => exact .cons h (hs.append (.cons hr .nil))

theorem toList_rel {R : α → α' → Prop} {o : Option α} {o' : Option α'} (h : OptionRel R o o') : ListRel R o.toList o'.toList := by
  cases h with
  | none => exact .nil
  | some h => exact .cons h .nil

variable (hc : cx.cargo = cx'.cargo) (hb : MovedBuild base b b')
include hc hb

theorem queryRustc_rel : ActRel base (WordsRel base) (queryRustc cx b) (queryRustc cx' b') := by
  unfold queryRustc
  refine .bind .cells fun s s' hs => ?_
  have := hs.rustc
  generalize s.rustc = o at this
  generalize s'.rustc = o' at this
  cases this with
  | some h => exact .pure h
  | none =>
    refine .bind (rustcProgram_rel hc hb.rustc) fun r r' hr => ?_
    have hw := wrapped_rel (ListRel.append (toList_rel hb.rustcWrapper) (toList_rel hb.rustcWorkspaceWrapper)) hr
    refine .bind (.modify fun s s' hs => ?_) fun _ _ _ => .pure hw
    exact { hs with rustc := .some hw }

theorem rustcForVersion_rel : ActRel base (WordsRel base) (rustcForVersion cx b) (rustcForVersion cx' b') :=
  .bind (rustcProgram_rel hc hb.rustc) fun _ _ hr => .pure (wrapped_rel (toList_rel hb.rustcWrapper) hr)

omit hc hb in
theorem verboseVersion_rel {x x' : EPathAndArgs} (h : WordsRel base x x') : ActRel base Eq (verboseVersion x) (verboseVersion x') :=
  .read (wordsRel_append h _)

omit hc hb in
theorem setCargoVersion_rel (v : CargoVersion) : ActRel base (fun _ _ => True) (setCargoVersion v) (setCargoVersion v) := by
  unfold setCargoVersion
  refine .bind .cells fun s s' hs => ?_
  rw [hs.cargoVersion]
  split
  · exact .debugAssert false
  · exact .modify fun s s' hs => { hs with cargoVersion := rfl }

omit hc hb in
theorem setRustcVersion_rel (v : RustcVersion) : ActRel base (fun _ _ => True) (setRustcVersion v) (setRustcVersion v) := by
  unfold setRustcVersion
  refine .bind .cells fun s s' hs => ?_
  rw [hs.rustcVersion]
  split
  · exact .debugAssert false
  · exact .modify fun s s' hs => { hs with rustcVersion := rfl }

omit hb in
theorem hostFromCargo_rel : ActRel base Eq (hostFromCargo cx) (hostFromCargo cx') := by
  unfold hostFromCargo
  rw [hc]
  refine .bind (verboseVersion_rel (movedPath_refl _)) fun vv vv' hv => ?_
  subst hv
  refine .bind (.lift (ofOption_rel _ _ _)) fun v v' hv => ?_
  subst hv
  exact .bind (setCargoVersion_rel v) fun _ _ _ => .lift (ofOption_rel _ _ _)

theorem hostFromRustc_rel : ActRel base Eq (hostFromRustc cx b) (hostFromRustc cx' b') := by
  unfold hostFromRustc
  refine .bind (rustcForVersion_rel hc hb) fun r r' hr => ?_
  refine .bind (verboseVersion_rel hr) fun vv vv' hv => ?_
  subst hv
  refine .bind (.lift (ofOption_rel _ _ _)) fun v v' hv => ?_
  subst hv
  exact .bind (setRustcVersion_rel v) fun _ _ _ => .lift (ofOption_rel _ _ _)

theorem queryHostTriple_rel : ActRel base Eq (queryHostTriple cx b) (queryHostTriple cx' b') := by
  unfold queryHostTriple
  refine .bind .cells fun s s' hs => ?_
  rw [hs.hostTriple]
  split
  · exact .pure rfl
  · refine .bind (.attempt (hostFromCargo_rel hc)) fun o o' ho => ?_
    have := ho.eq
    subst this
    have last : ∀ h : Str, ActRel base Eq
        (do Act.modify fun s => { s with hostTriple := some h }
            pure h)
        (do Act.modify fun s => { s with hostTriple := some h }
            pure h) := fun h =>
      .bind (.modify fun s s' hs => { hs with hostTriple := rfl }) fun _ _ _ => .pure rfl
    cases o with
    | none => exact .bind (hostFromRustc_rel hc hb) fun h h' hh => by subst hh; exact last h
    | some h => exact .bind (R := Eq) (.pure rfl) fun h h' hh => by subst hh; exact last h

theorem queryRustcVersion_rel : ActRel base Eq (queryRustcVersion cx b) (queryRustcVersion cx' b') := by
  unfold queryRustcVersion
  refine .bind .cells fun s s' hs => ?_
  rw [hs.rustcVersion]
  split
  · exact .pure rfl
  · refine .bind (.attempt (queryHostTriple_rel hc hb)) fun o o' ho => ?_
    refine .bind .cells fun s s' hs => ?_
    rw [hs.rustcVersion]
    split
    · exact .pure rfl
    · refine .bind (rustcForVersion_rel hc hb) fun r r' hr => ?_
      refine .bind (verboseVersion_rel hr) fun vv vv' hv => ?_
      subst hv
      refine .bind (.lift (ofOption_rel _ _ _)) fun v v' hv => ?_
      subst hv
      exact .bind (.modify fun s s' hs => { hs with rustcVersion := rfl }) fun _ _ _ => .pure rfl

theorem queryCargoVersion_rel : ActRel base Eq (queryCargoVersion cx b) (queryCargoVersion cx' b') := by
  unfold queryCargoVersion
  refine .bind .cells fun s s' hs => ?_
  rw [hs.cargoVersion]
  split
  · exact .pure rfl
  · refine .bind (.attempt (queryHostTriple_rel hc hb)) fun o o' ho => ?_
    refine .bind .cells fun s s' hs => ?_
    rw [hs.cargoVersion]
    split
    · exact .pure rfl
    · rw [hc]
      refine .bind (verboseVersion_rel (movedPath_refl _)) fun vv vv' hv => ?_
      subst hv
      refine .bind (.lift (ofOption_rel _ _ _)) fun v v' hv => ?_
      subst hv
      exact .bind (.modify fun s s' hs => { hs with cargoVersion := rfl }) fun _ _ _ => .pure rfl

/-! ### Targets -/

theorem cfgOf_rel (t : TargetTriple) : ActRel base Eq (cfgOf cx b t) (cfgOf cx' b' t) := by
  unfold cfgOf
  refine .bind .cells fun s s' hs => ?_
  rw [hs.cfg]
  split
  · exact .pure rfl
  · refine .bind (queryRustc_rel hc hb) fun r r' hr => ?_
    refine .bind (R := Eq) ?_ fun c c' hcc => ?_
    · unfold cfgFromRustc
      refine .bind (.read (wordsRel_append hr _)) fun l l' hl => ?_
      subst hl
      exact .lift (.refl (fun _ => rfl) _)
    · subst hcc
      exact .bind (.modify fun s s' hs => { hs with cfg := by show s.cfg.insert _ _ = s'.cfg.insert _ _; rw [hs.cfg] }) fun _ _ _ => .pure rfl

theorem evalCfg_rel (k : Str) (t : TargetTriple) : ActRel base Eq (evalCfg cx b k t) (evalCfg cx' b' k t) := by
  intro w w' s s' hw hs
  unfold evalCfg
  rw [hw.checks]
  have : ActRel base Eq (do
      let e ← Act.lift (Expression.parse w'.checks k)
      let c ← cfgOf cx b t
      Act.lift (Res.unwrap (e.eval boolLogic c.holds))) (do
      let e ← Act.lift (Expression.parse w'.checks k)
      let c ← cfgOf cx' b' t
      Act.lift (Res.unwrap (e.eval boolLogic c.holds))) := by
    refine .bind (R := Eq) (.lift (.refl (fun _ => rfl) _)) fun e e' he => ?_
    subst he
    refine .bind (cfgOf_rel hc hb t) fun c c' hcc => ?_
    subst hcc
    exact .lift (.refl (fun _ => rfl) _)
  exact this w w' s s' hw hs

end

section
variable {base : Path → Path → Prop} {D : Definition → Definition → Prop}

/-- Related local variables of `resolve_target`. -/
structure AccRel (D : Definition → Definition → Prop) (a a' : TargetAcc) : Prop where
  linker : ORel D a.linker a'.linker
  runner : OptionRel (PRel D) a.runner a'.runner
  rustflags : OptionRel (FRel D) a.rustflags a'.rustflags
  rustdocflags : OptionRel (FRel D) a.rustdocflags a'.rustdocflags

theorem extendFlags_rel {o o' : Option Flags} (h : OptionRel (FRel D) o o') {f f' : Flags} (hf : FRel D f f') :
    OptionRel (FRel D) (extendFlags o f) (extendFlags o' f') := by
  cases h with
  | none => exact .some hf
  | some h => exact .some ⟨h.1, h.2.append hf.2⟩

theorem start_rel {o o' : Option TargetConfig} (h : OptionRel (TRel D) o o') : AccRel D (.start o) (.start o') := by
  cases h with
  | none => exact ⟨.none, .none, .none, .none⟩
  | some h => exact ⟨h.linker, h.runner, h.rustflags, h.rustdocflags⟩

theorem envFlags_rel {o o' : Option Flags} (h : OptionRel (FRel D) o o') {x x' : Option (Val Str)} (hx : ORel D x x') :
    OptionRel (FRel D) (envFlags o x) (envFlags o' x') := by
  cases hx with
  | none => exact h
  | some hx =>
    refine extendFlags_rel h ⟨rfl, ?_⟩
    rename_i a b
    show ListRel _ ((splitSpaceSeparated a.val).map _) ((splitSpaceSeparated b.val).map _)
    rw [hx.1]
    exact valMap_rel hx.2 _

theorem accEnv_rel (hD : ∀ n, D (.environment n) (.environment n)) (env : Env) (t : Str) {a a' : TargetAcc} (h : AccRel D a a') :
    Alike (AccRel D) (a.applyEnv env t) (a'.applyEnv env t) := by
  unfold TargetAcc.applyEnv
  refine .bind (var_rel hD _ _) fun x1 y1 h1 => ?_
  refine .bind (var_rel hD _ _) fun x2 y2 h2 => ?_
  refine .bind (R := OptionRel (PRel D)) ?_ fun r r' hr => ?_
  · unfold envRunner
    cases h2 with
    | none => exact h.runner
    | some h2 =>
      have h2 := progOfString_rel h2
      dsimp only
      generalize PathAndArgs.fromString _ _ = o at h2
      generalize PathAndArgs.fromString _ _ = o' at h2
      cases h2 with
      | none => trivial
      | some h2 => exact OptionRel.some h2
  refine .bind (var_rel hD _ _) fun x3 y3 h3 => ?_
  refine .bind (var_rel hD _ _) fun x4 y4 h4 => ?_
  refine AccRel.mk ?_ hr (envFlags_rel h.rustflags h3) (envFlags_rel h.rustdocflags h4)
  cases h1 with
  | none => exact h.linker
  | some h1 => exact .some h1

theorem orElse_rel {α : Type} {R : α → α → Prop} {a a' b b' : Option α} (ha : OptionRel R a a') (hb : OptionRel R b b') :
    OptionRel R (a.or b) (a'.or b') := by
  cases ha with
  | none => exact hb
  | some h => exact .some h

theorem addCfg_eq' (a : TargetAcc) (v : TargetConfig) : a.addCfg v =
    ⟨a.linker.or v.linker, a.runner.or v.runner, (match v.rustflags with | some f => extendFlags a.rustflags f | none => a.rustflags),
      a.rustdocflags⟩ := by
  obtain ⟨l, r, f, d⟩ := a
  obtain ⟨l', r', f', d'⟩ := v
  cases l <;> cases r <;> cases l' <;> cases r' <;> cases f' <;> rfl

theorem addCfg_rel {a a' : TargetAcc} (h : AccRel D a a') {v v' : TargetConfig} (hv : TRel D v v') : AccRel D (a.addCfg v) (a'.addCfg v') := by
  rw [addCfg_eq', addCfg_eq']
  refine ⟨orElse_rel h.linker hv.linker, orElse_rel h.runner hv.runner, ?_, h.rustdocflags⟩
  have := hv.rustflags
  dsimp only
  generalize v.rustflags = o at this
  generalize v'.rustflags = o' at this
  cases this with
  | none => exact h.rustflags
  | some hf => exact extendFlags_rel h.rustflags hf

variable {cx cx' : Ctx} {b b' : EBuild}

theorem cfgTables_rel (hc : cx.cargo = cx'.cargo) (hb : MovedBuild base b b') (t : TargetTriple) {m m' : BMap TargetConfig}
    (h : MapRel (TRel D) m m') {a a' : TargetAcc} (ha : AccRel D a a') :
    ActRel base (AccRel D) (cfgTables cx b t m a) (cfgTables cx' b' t m' a') := by
  induction h generalizing a a' with
  | nil => exact .pure ha
  | @cons e e' es es' h hs ih =>
    obtain ⟨k1, v1⟩ := e
    obtain ⟨k2, v2⟩ := e'
    obtain ⟨h1, h2⟩ := h
    dsimp only at h1 h2
    subst h1
    unfold cfgTables
    split
    · exact ih ha
    · refine .bind (evalCfg_rel hc hb k1 t) fun x x' hx => ?_
      subst hx
      refine ih ?_
      split
      · exact addCfg_rel ha h2
      · exact ha

theorem chooseFlags_rel (o : Bool) {t t' b b' : Option Flags} (ht : OptionRel (FRel D) t t') (hb : OptionRel (FRel D) b b') :
    OptionRel (FRel D) (chooseFlags o t b) (chooseFlags o t' b') := by
  cases o
  · cases ht with
    | none => exact hb
    | some h => exact .some h
  · exact hb

variable {cwd cwd' : Path} {c c' : EConfig}

theorem initTarget_rel (hp : Places base cwd cwd' D) (h : MovedFull base D cwd cwd' c c') (t : TargetTriple) :
    ActRel base (fun _ _ => True) (c.initTarget t) (c'.initTarget t) := by
  unfold EConfig.initTarget
  refine .bind .cells fun s s' hs => ?_
  have := hs.target.get t.cliTarget
  generalize s.target.get t.cliTarget = o at this
  generalize s'.target.get t.cliTarget = o' at this
  cases this with
  | some _ => exact .pure trivial
  | none =>
    refine .bind (R := OptionRel (TRel D)) ?_ fun tc tc' htc => ?_
    · unfold resolveTarget
      split
      · exact .lift trivial
      · rw [h.env]
        refine .bind (.lift (accEnv_rel hp.env _ _ (start_rel (h.deTarget.get _)))) fun a a' ha => ?_
        refine .bind (cfgTables_rel h.cargo h.moved.build t h.deTarget ha) fun a a' ha => ?_
        refine .pure (.some ⟨ha.linker, ha.runner, ?_, ?_⟩)
        · rw [h.override]; exact chooseFlags_rel _ ha.rustflags h.deRustflags
        · rw [h.overrideDoc]; exact chooseFlags_rel _ ha.rustdocflags h.deRustdocflags
    · refine .bind (R := MovedSettings base) (.lift ?_) fun e e' he => ?_
      · rw [h.cwd, h.cwd']
        cases htc with
        | none => exact target_rel hp ⟨.none, .none, .none, .none⟩
        | some htc => exact target_rel hp htc
      · exact .modify fun s s' hs => { hs with target := hs.target.insert _ he }

theorem targetEntry_rel (hp : Places base cwd cwd' D) (h : MovedFull base D cwd cwd' c c') (t : TargetTriple) :
    ActRel base (MovedSettings base) (c.targetEntry t) (c'.targetEntry t) := by
  unfold EConfig.targetEntry
  refine .bind (initTarget_rel hp h t) fun _ _ _ => ?_
  refine .bind .cells fun s s' hs => ?_
  have := hs.target.get t.cliTarget
  generalize s.target.get t.cliTarget = o at this
  generalize s'.target.get t.cliTarget = o' at this
  cases this with
  | none => exact .lift trivial
  | some h => exact .lift h

theorem getD_rel {R : α → α → Prop} {o o' : Option (List α)} (h : OptionRel (ListRel R) o o') : ListRel R (o.getD []) (o'.getD []) := by
  cases h with
  | none => exact .nil
  | some h => exact h

theorem movedTriple_refl (t : TargetTriple) : MovedTriple base t t := ⟨rfl, .refl (fun p => .same p) _⟩

theorem cliTarget_rel {t t' : TargetTriple} (h : MovedTriple base t t') : MovedPath base t.cliTarget t'.cliTarget := by
  obtain ⟨t, p⟩ := t
  obtain ⟨t', p'⟩ := t'
  obtain ⟨h1, h2⟩ := h
  dsimp only at h1 h2
  subst h1
  cases h2 with
  | none => exact .same _
  | some h => exact h

theorem buildTargets_rel (h : MovedFull base D cwd cwd' c c') (ts : List TargetTriple) :
    ActRel base (ListRel (MovedTriple base)) (c.buildTargetForConfig ts) (c'.buildTargetForConfig ts) := by
  unfold EConfig.buildTargetForConfig
  split
  · exact .pure (.refl movedTriple_refl _)
  · dsimp only
    have := getD_rel h.moved.build.target
    generalize c.build.target.getD [] = l at this
    generalize c'.build.target.getD [] = l' at this
    cases this with
    | cons h hs => exact .pure (.cons h hs)
    | nil =>
      refine .bind (queryHostTriple_rel h.cargo h.moved.build) fun x x' hx => ?_
      subst hx
      refine .bind (R := Eq) (.lift (.refl (fun _ => rfl) _)) fun t t' ht => ?_
      subst ht
      exact .pure (.cons (movedTriple_refl t) .nil)

theorem cliTargets_rel (h : MovedFull base D cwd cwd' c c') (ts : List Str) :
    ActRel base (ListRel (MovedPath base)) (c.buildTargetForCli ts) (c'.buildTargetForCli ts) := by
  unfold EConfig.buildTargetForCli
  split
  · exact .pure (movedPath_refl _)
  · dsimp only
    have := getD_rel h.moved.build.target
    generalize c.build.target.getD [] = l at this
    generalize c'.build.target.getD [] = l' at this
    cases this with
    | cons h hs => exact .pure (ListRel.map (.cons h hs) fun _ _ h => cliTarget_rel h)
    | nil => exact .pure .nil

/-- Queries on related configs. -/
theorem ask_rel (hp : Places base cwd cwd' D) (h : MovedFull base D cwd cwd' c c') (q : Query) :
    ActRel base (MovedAnswer base) (c.ask q) (c'.ask q) := by
  cases q with
  | target t => exact (targetEntry_rel hp h t).map fun _ _ h => .target h
  | linker t => exact ActRel.map (.bind (targetEntry_rel hp h t) fun _ _ h => .pure h.linker) fun _ _ h => .path h
  | runner t => exact ActRel.map (.bind (targetEntry_rel hp h t) fun _ _ h => .pure h.runner) fun _ _ h => .prog h
  | rustflags t =>
    exact ActRel.map (R := Eq) (.bind (targetEntry_rel hp h t) fun _ _ h => .pure h.rustflags) fun _ _ h => by subst h; exact .flags _
  | rustdocflags t =>
    exact ActRel.map (R := Eq) (.bind (targetEntry_rel hp h t) fun _ _ h => .pure h.rustdocflags) fun _ _ h => by subst h; exact .flags _
  | rustc => exact (queryRustc_rel h.cargo h.moved.build).map fun _ _ h => .rustc h
  | hostTriple => exact (queryHostTriple_rel h.cargo h.moved.build).map fun _ _ h => by subst h; exact .host _
  | rustcVersion => exact (queryRustcVersion_rel h.cargo h.moved.build).map fun _ _ h => by subst h; exact .rustcVersion _
  | cargoVersion => exact (queryCargoVersion_rel h.cargo h.moved.build).map fun _ _ h => by subst h; exact .cargoVersion _
  | buildTargetForConfig ts => exact (buildTargets_rel h ts).map fun _ _ h => .targets h
  | buildTargetForCli ts => exact (cliTargets_rel h ts).map fun _ _ h => .strings h

theorem after_rel (hp : Places base cwd cwd' D) (h : MovedFull base D cwd cwd' c c') {w w' : World} (hw : SameTools base w w') (qs : List Query)
    {s s' : Cells} (hs : CellsRel base s s') :
    CellsRel base (afterQueries w (qs.map fun q => (c, q)) s) (afterQueries w' (qs.map fun q => (c', q)) s') := by
  induction qs generalizing s s' with
  | nil => exact hs
  | cons q qs ih => exact ih (ask_rel hp h q w w' s s' hw hs).2

end

end CC
