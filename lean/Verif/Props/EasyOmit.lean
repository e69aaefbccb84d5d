import Verif.Props.EasySerde
/-
C53: which sections of a resolved config are omitted when it is written.
-/
namespace CC

theorem nil_of_get {V : Type} {m : BMap V} (h : ∀ k, BMap.get m k = none) : m = [] := by
  cases m with
  | nil => rfl
  | cons e m =>
    have := h e.1
    simp [BMap.get] at this

theorem at_below {t : Toml} {sec : Str} (h : t.at [sec] = none) {p : List Str} (hp : p.head? = some sec) : t.at p = none := by
  cases p with
  | nil => cases hp
  | cons x p =>
    simp only [List.head?_cons, Option.some.injEq] at hp
    subst hp
    rw [show x :: p = [x] ++ p from rfl, Toml.at_append, h]; rfl

/-- C53: a section is absent from the written resolved config exactly if nothing in it is set (for `target`: if no target has been
asked for). -/
theorem C53_easy (c : EConfig) (s : Cells) (sec : Str) : (c.ser s).at [sec] = none ↔ OmitsSection c s sec := by
  obtain ⟨h1, h2, h3, h4, h5, h6, h7, h8⟩ := C65_written c s
  constructor
  · intro h
    refine ⟨fun k x hk hx => ?_, fun k x hk hx => ?_, fun k x hk hx => ?_, fun k x hk hx => ?_, ?_, ?_, ?_, ?_, ?_⟩
    · have := h1 k x (fun _ => none) hx
      rw [at_below h hk] at this
      exact Option.map_eq_none_iff.1 this.symm
    · have := h2 k x (fun _ => none) hx
      rw [at_below h hk] at this
      exact Option.map_eq_none_iff.1 this.symm
    · have := h3 k x (fun _ => none) hx
      rw [at_below h hk] at this
      exact Option.map_eq_none_iff.1 this.symm
    · have := h4 k x hx
      rw [at_below h hk] at this
      exact Option.map_eq_none_iff.1 this.symm
    · rintro rfl
      rw [at_below h rfl] at h5
      exact Option.map_eq_none_iff.1 h5.symm
    · rintro rfl
      rw [at_below h rfl] at h6
      exact Option.map_eq_none_iff.1 h6.symm
    · rintro rfl
      refine nil_of_get fun k => ?_
      have := h7 k
      rw [at_below h rfl] at this
      exact Option.map_eq_none_iff.1 this.symm
    · rintro rfl
      refine nil_of_get fun k => ?_
      have := h8 k
      rw [at_below h rfl] at this
      exact Option.isSome_eq_false_iff.1 this.symm |> Option.isNone_iff_eq_none.1
    · rintro rfl
      refine nil_of_get fun k => ?_
      have := target_written c s k
      rw [at_below h rfl] at this
      exact Option.map_eq_none_iff.1 this.symm
  · intro h
    rw [EConfig.ser_toDe, C53_section]
    have hs : ∀ k : ScalarKey, (k.path (envShape (c.toDe s.target))).head? = some sec → k.get (c.toDe s.target) = none := by
      intro k hk
      have henv : sec = "env".toList → ∀ n, (c.toDe s.target).env.get n = none := by
        intro e n; simp only [EConfig.toDe, h.env e]; rfl
      have htar : sec = "target".toList → ∀ n, (c.toDe s.target).target.get n = none := by
        intro e n; simp only [EConfig.toDe, h.target e]; rfl
      have h1' : ∀ x, (k.path fun _ => none).head? = some sec → k.plain c = some x → (c.toDe s.target).ser.at (k.path (envShape (c.toDe s.target))) = none := by
        intro x h' hx
        rw [← EConfig.ser_toDe, h1 k x _ hx, h.plain k x h' hx]; rfl
      have h2' : ∀ x, (k.path fun _ => none).head? = some sec → k.program c = some x → (c.toDe s.target).ser.at (k.path (envShape (c.toDe s.target))) = none := by
        intro x h' hx
        rw [← EConfig.ser_toDe, h2 k x _ hx, h.program k x h' hx]; rfl
      have h3' : ∀ x, (k.path fun _ => none).head? = some sec → k.directory c = some x → (c.toDe s.target).ser.at (k.path (envShape (c.toDe s.target))) = none := by
        intro x h' hx
        rw [← EConfig.ser_toDe, h3 k x _ hx, h.directory k x h' hx]; rfl
      have hw : (c.toDe s.target).ser.at (k.path (envShape (c.toDe s.target))) = none → k.get (c.toDe s.target) = none := by
        intro h'
        have := scalar_write (c.toDe s.target) k
        rw [h'] at this
        exact Option.map_eq_none_iff.1 this.symm
      cases k
      case envValue n =>
        have e : sec = "env".toList := by
          simp only [ScalarKey.path] at hk
          split at hk <;> (simp only [List.head?_cons, Option.some.injEq] at hk; exact hk.symm)
        simp only [ScalarKey.get, henv e]; rfl
      case envForce n => simp only [ScalarKey.get, henv (Option.some.inj hk).symm]; rfl
      case envRelative n => simp only [ScalarKey.get, henv (Option.some.inj hk).symm]; rfl
      case targetLinker n => simp only [ScalarKey.get, htar (Option.some.inj hk).symm]; rfl
      all_goals first
        | exact hw (h1' _ hk rfl)
        | exact hw (h2' _ hk rfl)
        | exact hw (h3' _ hk rfl)
    have htar : sec = "target".toList → ∀ n, (c.toDe s.target).target.get n = none := by
      intro e n; simp only [EConfig.toDe, h.target e]; rfl
    refine ⟨hs, fun k hk => ?_, fun k hk => ?_, fun k hk => ?_⟩
    · cases k
      case buildTarget => simp only [ListKey.get, EConfig.toDe, EBuild.toDe, h.targets (Option.some.inj hk).symm]; rfl
      case targetRustflags n => simp only [ListKey.get, htar (Option.some.inj hk).symm]; rfl
      case targetRustdocflags n => simp only [ListKey.get, htar (Option.some.inj hk).symm]; rfl
      case alias n =>
        have := h.lists (.alias n) _ hk rfl
        simp only [ListKey.get, EConfig.toDe, BMap.get_mapVals, Option.map_eq_none_iff.1 this]; rfl
      case buildRustflags =>
        have := h.lists .buildRustflags _ hk rfl
        simp only [ListKey.get, EConfig.toDe, EBuild.toDe, Option.map_eq_none_iff.1 this]; rfl
      case buildRustdocflags =>
        have := h.lists .buildRustdocflags _ hk rfl
        simp only [ListKey.get, EConfig.toDe, EBuild.toDe, Option.map_eq_none_iff.1 this]; rfl
    · cases k
      case docBrowser => simp only [ProgKey.get, EConfig.toDe, h.browser (Option.some.inj hk).symm]; rfl
      case targetRunner n => simp only [ProgKey.get, htar (Option.some.inj hk).symm]; rfl
    · cases k
      case alias n =>
        have := h.lists (.alias n) _ hk rfl
        simp only [TableKey.present, EConfig.toDe, BMap.get_mapVals, Option.map_eq_none_iff.1 this]; rfl
      case env n =>
        simp only [TableKey.present, EConfig.toDe, h.env (Option.some.inj hk).symm]; rfl
      case registries n =>
        simp only [TableKey.present, EConfig.toDe, h.registries (Option.some.inj hk).symm]; rfl
      case target n =>
        simp only [TableKey.present, htar (Option.some.inj hk).symm]; rfl

/-- C53: likewise the table `term.progress`. -/
theorem C53_easy_progress (c : EConfig) (s : Cells) :
    (c.ser s).at ["term".toList, "progress".toList] = none ↔ c.term.progress.when = none ∧ c.term.progress.width = none := by
  rw [EConfig.ser_toDe, C53_progress]
  simp only [ScalarKey.get, EConfig.toDe, ETerm.toDe, ETermProgress.toDe, Option.map_eq_none_iff]

/-- A config that sets only `build.dep-info-basedir` and the width of the progress bar. -/
example : ∃ c : EConfig, ((c.ser {}).at ["build".toList]).isSome = true ∧ ((c.ser {}).at ["term".toList]).isSome = true ∧
    (c.ser {}).at ["net".toList] = none :=
  ⟨{ sampleEasy with build := { depInfoBasedir := some "/w".toList }, term := { progress := { width := some 80 } } }, rfl, rfl, rfl⟩

/-- `[env]` is omitted exactly if there is no entry. -/
example (c : EConfig) (s : Cells) : (c.ser s).at ["env".toList] = none ↔ OmitsSection c s "env".toList := C53_easy c s _

end CC
