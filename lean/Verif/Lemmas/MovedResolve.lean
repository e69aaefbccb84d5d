import Verif.Lemmas.Moved
/-
Lemmas on moving the config files: applying the environment and resolving.
-/
namespace CC

/-- The definitions related by `D` have directories related by `base`. -/
structure Places (base : Path → Path → Prop) (cwd cwd' : Path) (D : Definition → Definition → Prop) : Prop where
  env : ∀ n, D (.environment n) (.environment n)
  root : ∀ d d', D d d' → ∃ b b', d.root cwd = some b ∧ d'.root cwd' = some b' ∧ base b b'

section
variable {D : Definition → Definition → Prop} (hD : ∀ n, D (.environment n) (.environment n))
include hD

/-! ### The environment -/

theorem var_rel (env : Env) (n : Str) : Alike (ORel D) (env.var n) (env.var n) := by
  unfold Env.var
  split
  · exact .none
  · split
    · exact .some ⟨rfl, .some (hD n)⟩
    · trivial

theorem varRedacted_rel (env : Env) (n : Str) : Alike (ORel D) (env.varRedacted n) (env.varRedacted n) := by
  unfold Env.varRedacted
  split
  · exact .none
  · split
    · exact .some ⟨rfl, .some (hD n)⟩
    · trivial

omit hD in
theorem valParse_rel {α : Type} (f : Str → Res α) {v v' : Val Str} (h : VRel D v v') : Alike (VRel D) (v.parse f) (v'.parse f) := by
  unfold Val.parse
  rw [h.1]
  exact .bind (.refl (R := Eq) (fun _ => rfl) _) fun a a' ha => ⟨ha, h.2⟩

theorem parse_rel {α : Type} (f : Str → Res α) (env : Env) (n : Str) : Alike (ORel D) (env.parse f n) (env.parse f n) := by
  unfold Env.parse
  refine .bind (var_rel hD env n) fun o o' ho => ?_
  cases ho with
  | none => exact .none
  | some h => exact .bind ((valParse_rel f h).withContext _ _ _ _ _ _) fun _ _ h => .some h

omit hD in
theorem ifSome_rel {α α' β β' : Type} {R : α → α' → Prop} {S : β → β' → Prop} {r : Res (Option α)} {r' : Res (Option α')} {b : β} {b' : β'}
    {f : α → β} {f' : α' → β'} (h : Alike (OptionRel R) r r') (hb : S b b') (hf : ∀ x y, R x y → S (f x) (f' y)) :
    Alike S (r.ifSome b f) (r'.ifSome b' f') := by
  refine .bind h fun o o' ho => ?_
  cases ho with
  | none => exact hb
  | some h => exact hf _ _ h

omit hD in
theorem ifSomeElse_rel {α β γ : Type} {R : α → α → Prop} {S : β → β → Prop} {T : γ → γ → Prop} {r r' : Res (Option α)} {s s' : Res (Option γ)}
    {b b' : β} {f f' : α → β} {g g' : γ → β} (h : Alike (OptionRel R) r r') (hs : Alike (OptionRel T) s s') (hb : S b b')
    (hf : ∀ x y, R x y → S (f x) (f' y)) (hg : ∀ x y, T x y → S (g x) (g' y)) :
    Alike S (r.ifSomeElse f s b g) (r'.ifSomeElse f' s' b' g') := by
  refine .bind h fun o o' ho => ?_
  cases ho with
  | none => exact ifSome_rel hs hb hg
  | some h => exact hf _ _ h

omit hD in
theorem wrapperOf_rel {v v' : Val Str} (h : VRel D v v') : ORel D (wrapperOf v) (wrapperOf v') := by
  unfold wrapperOf
  rw [h.1]
  split
  · exact .none
  · exact .some h

omit hD in
theorem valMap_rel {α : Type} {d d' : Option Definition} (h : OptionRel D d d') (l : List α) :
    ListRel (VRel D) (l.map fun s => (⟨s, d⟩ : Val α)) (l.map fun s => ⟨s, d'⟩) := by
  induction l with
  | nil => exact .nil
  | cons s l ih => exact .cons ⟨rfl, h⟩ ih

omit hD in
theorem some_rel {α : Type} : ∀ x y : Val α, VRel D x y → ORel D (some x) (some y) := fun _ _ h => .some h

theorem rustflags_rel (env : Env) (e p b : Str) {o o' : Option Flags} (h : OptionRel (FRel D) o o') :
    Alike (fun x y => OptionRel (FRel D) x.1 y.1 ∧ x.2 = y.2) (rustflagsFromEnv env e p b o) (rustflagsFromEnv env e p b o') := by
  unfold rustflagsFromEnv
  refine .bind (var_rel hD env e) fun v v' hv => ?_
  cases hv with
  | none =>
    refine ifSomeElse_rel (var_rel hD env p) (var_rel hD env b) ⟨h, rfl⟩ ?_ ?_
    · rintro ⟨x, dx⟩ ⟨y, dy⟩ ⟨h1, h2⟩
      cases h1
      exact ⟨.some ⟨rfl, valMap_rel h2 _⟩, rfl⟩
    · rintro ⟨x, dx⟩ ⟨y, dy⟩ ⟨h1, h2⟩
      cases h1
      exact ⟨.some ⟨rfl, valMap_rel h2 _⟩, rfl⟩
  | some hv =>
    rename_i x y
    obtain ⟨x, dx⟩ := x
    obtain ⟨y, dy⟩ := y
    obtain ⟨h1, h2⟩ := hv
    cases h1
    exact ⟨.some ⟨rfl, valMap_rel h2 _⟩, rfl⟩

theorem buildEnv_rel (env : Env) {b b' : BuildConfig} (h : BRel D b b') : Alike (BRel D) (b.applyEnv env) (b'.applyEnv env) := by
  unfold BuildConfig.applyEnv
  refine .bind (ifSome_rel (parse_rel hD _ _ _) h.jobs some_rel) fun _ _ h1 => ?_
  refine .bind (ifSomeElse_rel (var_rel hD _ _) (var_rel hD _ _) h.rustc some_rel some_rel) fun _ _ h2 => ?_
  refine .bind (ifSomeElse_rel (var_rel hD _ _) (var_rel hD _ _) h.rustcWrapper (fun _ _ => wrapperOf_rel) (fun _ _ => wrapperOf_rel)) fun _ _ h3 => ?_
  refine .bind (ifSomeElse_rel (var_rel hD _ _) (var_rel hD _ _) h.rustcWorkspaceWrapper (fun _ _ => wrapperOf_rel) (fun _ _ => wrapperOf_rel)) fun _ _ h4 => ?_
  refine .bind (ifSomeElse_rel (var_rel hD _ _) (var_rel hD _ _) h.rustdoc some_rel some_rel) fun _ _ h5 => ?_
  refine .bind (ifSome_rel (var_rel hD _ _) h.target (fun _ _ h => .some (.string h))) fun _ _ h6 => ?_
  refine .bind (ifSomeElse_rel (var_rel hD _ _) (var_rel hD _ _) h.targetDir some_rel some_rel) fun _ _ h7 => ?_
  refine .bind (rustflags_rel hD env _ _ _ h.rustflags) fun x x' h8 => ?_
  obtain ⟨f, o⟩ := x
  obtain ⟨f', o'⟩ := x'
  refine .bind (rustflags_rel hD env _ _ _ h.rustdocflags) fun x x' h9 => ?_
  obtain ⟨g, p⟩ := x
  obtain ⟨g', p'⟩ := x'
  refine .bind (ifSomeElse_rel (var_rel hD _ _) (parse_rel hD _ _ _) h.incremental
    (fun x y h => .some ⟨by rw [h.1], h.2⟩) some_rel) fun _ _ h10 => ?_
  refine .bind (ifSome_rel (var_rel hD _ _) h.depInfoBasedir some_rel) fun _ _ h11 => ?_
  exact BRel.mk h1 h2 h3 h4 h5 h6 h7 h8.1 h9.1 h10 h11 h8.2 h9.2

omit hD in
theorem progOfString_rel {v v' : Val Str} (h : VRel D v v') :
    OptionRel (PRel D) (PathAndArgs.fromString v.val v.defn) (PathAndArgs.fromString v'.val v'.defn) := by
  obtain ⟨v, d⟩ := v
  obtain ⟨v', d'⟩ := v'
  obtain ⟨h1, h2⟩ := h
  cases h1
  unfold PathAndArgs.fromString
  dsimp only
  cases splitSpaceSeparated v with
  | nil => exact .none
  | cons p as => exact .some ⟨rfl, ⟨rfl, h2⟩, valMap_rel h2 _⟩

theorem docEnv_rel (env : Env) {d d' : DocConfig} (h : OptionRel (PRel D) d.browser d'.browser) :
    Alike (fun x y => OptionRel (PRel D) x.browser y.browser) (d.applyEnv env) (d'.applyEnv env) := by
  obtain ⟨b⟩ := d
  obtain ⟨b'⟩ := d'
  unfold DocConfig.applyEnv
  dsimp only at h ⊢
  cases h with
  | some h => exact OptionRel.some h
  | none =>
    refine .bind (var_rel hD env _) fun o o' ho => ?_
    cases ho with
    | none => exact OptionRel.none
    | some h =>
      have h := progOfString_rel h
      dsimp only
      generalize PathAndArgs.fromString _ _ = o at h
      generalize PathAndArgs.fromString _ _ = o' at h
      cases h with
      | none => trivial
      | some h => exact OptionRel.some h

theorem firEnv_rel (env : Env) {d d' : FutureIncompatReportConfig} (h : ORel D d.frequency d'.frequency) :
    Alike (fun x y => ORel D x.frequency y.frequency) (d.applyEnv env) (d'.applyEnv env) :=
  .bind (ifSome_rel (parse_rel hD _ _ _) h some_rel) fun _ _ h => h

theorem httpEnv_rel (env : Env) {d d' : HttpConfig} (h : HRel D d d') : Alike (HRel D) (d.applyEnv env) (d'.applyEnv env) := by
  unfold HttpConfig.applyEnv
  refine .bind (ifSome_rel (parse_rel hD _ _ _) h.debug some_rel) fun _ _ h1 => ?_
  refine .bind (ifSome_rel (var_rel hD _ _) h.proxy some_rel) fun _ _ h2 => ?_
  refine .bind (ifSome_rel (parse_rel hD _ _ _) h.timeout some_rel) fun _ _ h3 => ?_
  refine .bind (ifSome_rel (var_rel hD _ _) h.cainfo some_rel) fun _ _ h4 => ?_
  refine .bind (ifSome_rel (parse_rel hD _ _ _) h.checkRevoke some_rel) fun _ _ h5 => ?_
  refine .bind (ifSome_rel (parse_rel hD _ _ _) h.lowSpeedLimit some_rel) fun _ _ h6 => ?_
  refine .bind (ifSome_rel (parse_rel hD _ _ _) h.multiplexing some_rel) fun _ _ h7 => ?_
  refine .bind (ifSome_rel (var_rel hD _ _) h.userAgent some_rel) fun _ _ h8 => ?_
  exact HRel.mk h1 h2 h3 h4 h5 h6 h7 h8

theorem netEnv_rel (env : Env) {d d' : NetConfig} (h : NRel D d d') : Alike (NRel D) (d.applyEnv env) (d'.applyEnv env) := by
  unfold NetConfig.applyEnv
  refine .bind (ifSome_rel (parse_rel hD _ _ _) h.retry some_rel) fun _ _ h1 => ?_
  refine .bind (ifSome_rel (parse_rel hD _ _ _) h.gitFetchWithCli some_rel) fun _ _ h2 => ?_
  refine .bind (ifSome_rel (parse_rel hD _ _ _) h.offline some_rel) fun _ _ h3 => ?_
  exact NRel.mk h1 h2 h3

theorem registryEnv_rel (env : Env) {d d' : RegistryConfig} (h : RgRel D d d') : Alike (RgRel D) (d.applyEnv env) (d'.applyEnv env) := by
  unfold RegistryConfig.applyEnv
  refine .bind (ifSome_rel (var_rel hD _ _) h.default some_rel) fun _ _ h1 => ?_
  refine .bind (ifSome_rel (varRedacted_rel hD _ _) h.token some_rel) fun _ _ h2 => ?_
  exact RgRel.mk h1 h2

theorem progressEnv_rel (env : Env) {d d' : TermProgress} (h : TpRel D d d') : Alike (TpRel D) (d.applyEnv env) (d'.applyEnv env) := by
  unfold TermProgress.applyEnv
  refine .bind (ifSome_rel (parse_rel hD _ _ _) h.when some_rel) fun _ _ h1 => ?_
  refine .bind (ifSome_rel (parse_rel hD _ _ _) h.width some_rel) fun _ _ h2 => ?_
  exact TpRel.mk h1 h2

theorem termEnv_rel (env : Env) {d d' : TermConfig} (h : TmRel D d d') : Alike (TmRel D) (d.applyEnv env) (d'.applyEnv env) := by
  unfold TermConfig.applyEnv
  refine .bind (ifSome_rel (parse_rel hD _ _ _) h.quiet some_rel) fun _ _ h1 => ?_
  refine .bind (ifSome_rel (parse_rel hD _ _ _) h.verbose some_rel) fun _ _ h2 => ?_
  refine .bind (ifSome_rel (parse_rel hD _ _ _) h.color some_rel) fun _ _ h3 => ?_
  refine .bind (progressEnv_rel hD env h.progress) fun _ _ h4 => ?_
  exact TmRel.mk h1 h2 h3 h4

omit hD in
theorem updRegistry_rel (k : Str) {upd upd' : RegistriesConfigValue → RegistriesConfigValue} (hu : ∀ x y, RsRel D x y → RsRel D (upd x) (upd' y))
    {m m' : BMap RegistriesConfigValue} (h : MapRel (RsRel D) m m') : MapRel (RsRel D) (updRegistry k upd m) (updRegistry k upd' m') := by
  unfold updRegistry
  have hg := h.get k
  generalize m.get k = o at hg
  generalize m'.get k = o' at hg
  cases hg with
  | none => exact h.insert k (hu _ _ ⟨.none, .none, .none⟩)
  | some hg => exact h.insert k (hu _ _ hg)

theorem applyVar_rel {c c' : Config} (h : CRel D c c') (n : Str) (v : OsStr) : Alike (CRel D) (c.applyVar n v) (c'.applyVar n v) := by
  unfold Config.applyVar
  split
  · split
    · exact { h with alias := h.alias.insert _ ⟨rfl, valMap_rel (.some (hD n)) _⟩ }
    · trivial
  · split
    · exact h
    · split
      · split
        · refine { h with registries := updRegistry_rel _ ?_ h.registries }
          exact fun _ _ hx => ⟨.some ⟨rfl, .some (hD n)⟩, hx.token, hx.protocol⟩
        · trivial
      · split
        · split
          · refine { h with registries := updRegistry_rel _ ?_ h.registries }
            exact fun _ _ hx => ⟨hx.index, .some ⟨rfl, .some (hD n)⟩, hx.protocol⟩
          · trivial
        · split
          · split
            · refine .bind (valParse_rel _ ⟨rfl, .some (hD n)⟩) fun p p' hp => ?_
              refine { h with registries := updRegistry_rel _ ?_ h.registries }
              exact fun _ _ hx => ⟨hx.index, hx.token, .some hp⟩
            · trivial
          · exact h

theorem applyVars_rel (env : Env) {c c' : Config} (h : CRel D c c') : Alike (CRel D) (c.applyVars env) (c'.applyVars env) := by
  induction env generalizing c c' with
  | nil => exact h
  | cons e env ih => exact .bind (applyVar_rel hD h e.1 e.2) fun _ _ h => ih h

theorem applyEnv_rel (env : Env) {c c' : Config} (h : CRel D c c') : Alike (CRel D) (c.applyEnv env) (c'.applyEnv env) := by
  unfold Config.applyEnv
  refine .bind (applyVars_rel hD env h) fun c c' h => ?_
  refine .bind (buildEnv_rel hD env h.build) fun _ _ h1 => ?_
  refine .bind (docEnv_rel hD env h.doc) fun _ _ h2 => ?_
  refine .bind (firEnv_rel hD env h.futureIncompatReport) fun _ _ h3 => ?_
  refine .bind (httpEnv_rel hD env h.http) fun _ _ h4 => ?_
  refine .bind (netEnv_rel hD env h.net) fun _ _ h5 => ?_
  refine .bind (registryEnv_rel hD env h.registry) fun _ _ h6 => ?_
  refine .bind (termEnv_rel hD env h.term) fun _ _ h7 => ?_
  exact CRel.mk h.alias h1 h2 h.env h3 h.cargoNew h4 h5 h.registries h6 h.target h7

end

/-! ### Resolving -/

section
variable {D : Definition → Definition → Prop}

theorem val_eq {α : Type} {v v' : Option (Val α)} (h : ORel D v v') : v.map Val.val = v'.map Val.val := by
  cases h with
  | none => rfl
  | some h => rw [Option.map_some, Option.map_some, h.1]

theorem vals_eq {v v' : List (Val Str)} (h : ListRel (VRel D) v v') : v.map Val.val = v'.map Val.val := by
  induction h with
  | nil => rfl
  | cons h _ ih => rw [List.map_cons, List.map_cons, h.1, ih]

theorem flags_eq {v v' : Option Flags} (h : OptionRel (FRel D) v v') : v.map EFlags.fromUnresolved = v'.map EFlags.fromUnresolved := by
  cases h with
  | none => rfl
  | some h => rw [Option.map_some, Option.map_some, EFlags.fromUnresolved, EFlags.fromUnresolved, vals_eq h.2]

theorem mapOpt_rel {α α' β β' : Type} {R : α → α' → Prop} {S : β → β' → Prop} {f : α → Res β} {f' : α' → Res β'} (hf : ∀ x y, R x y → Alike S (f x) (f' y))
    {o : Option α} {o' : Option α'} (h : OptionRel R o o') : Alike (OptionRel S) (Res.mapOpt f o) (Res.mapOpt f' o') := by
  cases h with
  | none => exact .none
  | some h => exact .bind (hf _ _ h) fun _ _ h => .some h

theorem mapList_rel {α α' β β' : Type} {R : α → α' → Prop} {S : β → β' → Prop} {f : α → Res β} {f' : α' → Res β'} (hf : ∀ x y, R x y → Alike S (f x) (f' y))
    {l : List α} {l' : List α'} (h : ListRel R l l') : Alike (ListRel S) (Res.mapList f l) (Res.mapList f' l') := by
  induction h with
  | nil => exact .nil
  | cons h _ ih => exact .bind (hf _ _ h) fun _ _ h => .bind ih fun _ _ hs => .cons h hs

theorem mapVals_rel {α α' β β' : Type} {R : α → α' → Prop} {S : β → β' → Prop} {f : α → Res β} {f' : α' → Res β'} (hf : ∀ x y, R x y → Alike S (f x) (f' y))
    {l : BMap α} {l' : BMap α'} (h : MapRel R l l') : Alike (MapRel S) (Res.mapVals f l) (Res.mapVals f' l') := by
  induction h with
  | nil => exact .nil
  | @cons a b as bs h hs ih =>
    obtain ⟨k1, v1⟩ := a
    obtain ⟨k2, v2⟩ := b
    obtain ⟨h1, h2⟩ := h
    dsimp only at h1 h2
    subst h1
    exact .bind (hf _ _ h2) fun _ _ h => .bind ih fun _ _ hs => .cons ⟨rfl, h⟩ hs

variable {base : Path → Path → Prop} {cwd cwd' : Path} (hp : Places base cwd cwd' D)
include hp

theorem program_rel {v v' : Val Str} (h : VRel D v v') : Alike (MovedPath base) (v.resolveAsProgramPath cwd) (v'.resolveAsProgramPath cwd') := by
  obtain ⟨v, d⟩ := v
  obtain ⟨v', d'⟩ := v'
  obtain ⟨h1, h2⟩ := h
  dsimp only at h1 h2
  subst h1
  unfold Val.resolveAsProgramPath
  dsimp only
  cases h2 with
  | none => exact MovedPath.same v
  | some h =>
    obtain ⟨b, b', e1, e2, hb⟩ := hp.root _ _ h
    dsimp only
    rw [e1, e2]
    split
    · rename_i hc
      exact MovedPath.below b b' v hb (by simp at hc; simp [hc.1])
    · exact MovedPath.same v

theorem path_rel {v v' : Val Str} (h : VRel D v v') : Alike (MovedPath base) (v.resolveAsPath cwd) (v'.resolveAsPath cwd') := by
  obtain ⟨v, d⟩ := v
  obtain ⟨v', d'⟩ := v'
  obtain ⟨h1, h2⟩ := h
  dsimp only at h1 h2
  subst h1
  unfold Val.resolveAsPath
  dsimp only
  cases h2 with
  | none => exact MovedPath.same v
  | some h =>
    obtain ⟨b, b', e1, e2, hb⟩ := hp.root _ _ h
    dsimp only
    rw [e1, e2]
    split
    · rename_i hc
      exact MovedPath.below b b' v hb (by simp at hc; simp [hc])
    · exact MovedPath.same v

omit hp in
theorem join_moved {b b' : Path} (h : base b b') (v : Path) : MovedPath base (Path.join b v) (Path.join b' v) := by
  cases hc : Path.isAbsolute v
  · exact .below b b' v h (by simp [hc])
  · have : ∀ r, Path.join r v = v := fun r => by unfold Path.join; rw [if_pos hc]
    rw [this, this]
    exact .same v

omit hp in
theorem rootOpt_some (d : Definition) (cwd : Path) : d.rootOpt (some cwd) = (d.root cwd).map some := by
  cases d with
  | path p => rfl
  | environment k => rfl
  | cli p => cases p <;> rfl

theorem triple_rel {v v' : Val Str} (h : VRel D v v') :
    Alike (MovedTriple base) (TargetTriple.new v.val v.defn (some cwd)) (TargetTriple.new v'.val v'.defn (some cwd')) := by
  obtain ⟨v, d⟩ := v
  obtain ⟨v', d'⟩ := v'
  obtain ⟨h1, h2⟩ := h
  dsimp only at h1 h2
  subst h1
  unfold TargetTriple.new
  dsimp only
  split
  · refine .bind (.refl (R := Eq) (fun _ => rfl) _) fun t t' ht => ?_
    subst ht
    cases h2 with
    | none => exact ⟨rfl, .some (.same v)⟩
    | some h =>
      obtain ⟨b, b', e1, e2, hb⟩ := hp.root _ _ h
      unfold resolveSpecPath
      dsimp only
      rw [rootOpt_some, rootOpt_some, e1, e2]
      exact ⟨rfl, .some (join_moved hb v)⟩
  · exact ⟨rfl, .none⟩

theorem prog_rel {v v' : PathAndArgs} (h : PRel D v v') :
    Alike (MovedCommand base) (EPathAndArgs.fromUnresolved cwd v) (EPathAndArgs.fromUnresolved cwd' v') :=
  .bind (program_rel hp h.2.1) fun _ _ hx => ⟨hx, vals_eq h.2.2⟩

theorem targets_rel {x y : StringOrArray} (h : ARel D x y) : Alike (ListRel (MovedTriple base))
    (Res.mapList (fun v : Val Str => TargetTriple.new v.val v.defn (some cwd)) x.asArrayNoSplit)
    (Res.mapList (fun v : Val Str => TargetTriple.new v.val v.defn (some cwd')) y.asArrayNoSplit) := by
  refine mapList_rel (R := VRel D) (fun _ _ h => triple_rel hp h) ?_
  cases h with
  | string h => exact .cons h .nil
  | array h => exact h

theorem build_rel {b b' : BuildConfig} (h : BRel D b b') : Alike (fun x y => MovedBuild base x y ∧
      x.overrideTargetRustflags = y.overrideTargetRustflags ∧ x.overrideTargetRustdocflags = y.overrideTargetRustdocflags ∧
      OptionRel (FRel D) x.deRustflags y.deRustflags ∧ OptionRel (FRel D) x.deRustdocflags y.deRustdocflags)
    (EBuild.fromUnresolved cwd b) (EBuild.fromUnresolved cwd' b') := by
  unfold EBuild.fromUnresolved
  refine .bind (mapOpt_rel (fun _ _ h => program_rel hp h) h.rustc) fun _ _ h1 => ?_
  refine .bind (mapOpt_rel (fun _ _ h => program_rel hp h) h.rustcWrapper) fun _ _ h2 => ?_
  refine .bind (mapOpt_rel (fun _ _ h => program_rel hp h) h.rustcWorkspaceWrapper) fun _ _ h3 => ?_
  refine .bind (mapOpt_rel (fun _ _ h => program_rel hp h) h.rustdoc) fun _ _ h4 => ?_
  refine .bind (mapOpt_rel (fun _ _ h => targets_rel hp h) h.target) fun _ _ h5 => ?_
  refine .bind (mapOpt_rel (fun _ _ h => path_rel hp h) h.targetDir) fun _ _ h6 => ?_
  refine .bind (mapOpt_rel (fun _ _ h => path_rel hp h) h.depInfoBasedir) fun _ _ h7 => ?_
  exact ⟨⟨val_eq h.jobs, h1, h2, h3, h4, h5, h6, flags_eq h.rustflags, flags_eq h.rustdocflags, val_eq h.incremental, h7⟩, h.o1, h.o2,
    h.rustflags, h.rustdocflags⟩

theorem target_rel {t t' : TargetConfig} (h : TRel D t t') :
    Alike (MovedSettings base) (ETarget.fromUnresolved cwd t) (ETarget.fromUnresolved cwd' t') := by
  unfold ETarget.fromUnresolved
  refine .bind (mapOpt_rel (fun _ _ h => program_rel hp h) h.linker) fun _ _ h1 => ?_
  refine .bind (mapOpt_rel (fun _ _ h => prog_rel hp h) h.runner) fun _ _ h2 => ?_
  exact ⟨h1, h2, flags_eq h.rustflags, flags_eq h.rustdocflags⟩

theorem doc_rel {t t' : DocConfig} (h : OptionRel (PRel D) t.browser t'.browser) :
    Alike (fun x y => OptionRel (MovedCommand base) x.browser y.browser) (EDoc.fromUnresolved cwd t) (EDoc.fromUnresolved cwd' t') :=
  .bind (mapOpt_rel (fun _ _ h => prog_rel hp h) h) fun _ _ h => h

theorem env_rel {e e' : EnvConfigValue} (h : ERel D e e') :
    Alike (fun x y => MovedPath base x.value y.value ∧ x.force = y.force ∧ x.relative = y.relative)
      (EEnvValue.fromUnresolved cwd e) (EEnvValue.fromUnresolved cwd' e') := by
  cases h with
  | value h => exact ⟨by rw [h.1]; exact .same _, rfl, rfl⟩
  | table h1 h2 h3 =>
    unfold EEnvValue.fromUnresolved EnvConfigValue.resolve
    dsimp only
    rw [val_eq h2, val_eq h3]
    split
    · rename_i hr
      refine .bind (R := MovedPath base) ?_ fun _ _ h => ⟨h, rfl, rfl⟩
      rename_i v v' _ _ _ _ _
      obtain ⟨v, d⟩ := v
      obtain ⟨v', d'⟩ := v'
      obtain ⟨g1, g2⟩ := h1
      dsimp only at g1 g2
      subst g1
      cases g2 with
      | none => rw [hr]; exact MovedPath.same _
      | some g2 =>
        obtain ⟨b, b', e1, e2, hb⟩ := hp.root _ _ g2
        rw [hr]
        dsimp only
        rw [e1, e2]
        exact join_moved hb v
    · exact ⟨by rw [h1.1]; exact .same _, rfl, rfl⟩

/-- Related resolved configs. -/
structure MovedFull (base : Path → Path → Prop) (D : Definition → Definition → Prop) (cwd cwd' : Path) (c c' : EConfig) : Prop where
  moved : MovedConfig base c c'
  override : c.build.overrideTargetRustflags = c'.build.overrideTargetRustflags
  overrideDoc : c.build.overrideTargetRustdocflags = c'.build.overrideTargetRustdocflags
  deRustflags : OptionRel (FRel D) c.build.deRustflags c'.build.deRustflags
  deRustdocflags : OptionRel (FRel D) c.build.deRustdocflags c'.build.deRustdocflags
  deTarget : MapRel (TRel D) c.deTarget c'.deTarget
  env : c.cx.env = c'.cx.env
  cargo : c.cx.cargo = c'.cx.cargo
  cwd : c.cx.currentDir = cwd
  cwd' : c'.cx.currentDir = cwd'

theorem fromUnresolved_rel {de de' : Config} (h : CRel D de de') {cx cx' : Ctx} (he : cx.env = cx'.env) (hc : cx.cargo = cx'.cargo)
    (h1 : cx.currentDir = cwd) (h2 : cx'.currentDir = cwd') :
    Alike (MovedFull base D cwd cwd') (EConfig.fromUnresolved de cx) (EConfig.fromUnresolved de' cx') := by
  subst h1 h2
  unfold EConfig.fromUnresolved
  rw [← he]
  refine .bind (applyEnv_rel hp.env _ h) fun d d' h => ?_
  refine .bind (build_rel hp h.build) fun _ _ hb => ?_
  refine .bind (doc_rel hp h.doc) fun _ _ hd => ?_
  refine .bind (mapVals_rel (fun _ _ h => env_rel hp h) h.env) fun _ _ hv => ?_
  exact {
    moved := {
      alias := h.alias.mapVals fun _ _ h => by unfold EStringList.fromUnresolved; rw [vals_eq h.2]
      build := hb.1
      doc := hd
      env := hv.mono fun _ _ h => h
      futureIncompatReport := by dsimp only; rw [val_eq h.futureIncompatReport]
      cargoNew := by dsimp only; rw [val_eq h.cargoNew]
      http := by
        dsimp only [EHttp.fromUnresolved]
        rw [val_eq h.http.debug, val_eq h.http.proxy, val_eq h.http.timeout, val_eq h.http.cainfo, val_eq h.http.checkRevoke,
          val_eq h.http.lowSpeedLimit, val_eq h.http.multiplexing, val_eq h.http.userAgent]
      net := by dsimp only [ENet.fromUnresolved]; rw [val_eq h.net.retry, val_eq h.net.gitFetchWithCli, val_eq h.net.offline]
      registries := h.registries.mapVals fun _ _ h => by
        dsimp only [ERegistries.fromUnresolved]; rw [val_eq h.index, val_eq h.token, val_eq h.protocol]
      registry := by dsimp only [ERegistry.fromUnresolved]; rw [val_eq h.registry.default, val_eq h.registry.token]
      term := by
        dsimp only [ETerm.fromUnresolved]
        rw [val_eq h.term.quiet, val_eq h.term.verbose, val_eq h.term.color, val_eq h.term.progress.when, val_eq h.term.progress.width] }
    override := hb.2.1
    overrideDoc := hb.2.2.1
    deRustflags := hb.2.2.2.1
    deRustdocflags := hb.2.2.2.2
    deTarget := h.target
    env := he
    cargo := hc
    cwd := rfl
    cwd' := rfl }

end

end CC
