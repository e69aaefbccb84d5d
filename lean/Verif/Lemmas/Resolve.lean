import Verif.Model.Query
import Verif.Spec.Resolve
import Verif.Lemmas.Walk
import Verif.Lemmas.Target
import Verif.Lemmas.Merge
/-
Base directories and resolved values.
-/
namespace CC

theorem grandparent_components {f b : Path} (h : grandparent f = some b) :
    ∃ x y, Path.components f = Path.components b ++ [x, y] := by
  unfold grandparent at h
  cases hp : Path.parent f with
  | none => rw [hp] at h; cases h
  | some p =>
    rw [hp] at h
    obtain ⟨y, hy⟩ := parent_components f p hp
    obtain ⟨x, hx⟩ := parent_components p b h
    exact ⟨x, y, by rw [hy, hx]; simp⟩

theorem root_baseDir {d : Definition} {cwd base : Path} (h : d.root cwd = some base) : BaseDir cwd d base := by
  cases d with
  | path p => exact grandparent_components h
  | environment k => exact (Option.some.inj h).symm
  | cli p =>
    cases p with
    | none => exact (Option.some.inj h).symm
    | some p => exact grandparent_components h

theorem isAbsolute_true {v : Path} : Path.isAbsolute v = true ↔ ∃ r, v = '/' :: r := by
  unfold Path.isAbsolute
  split
  · simp
  · rename_i hv
    simp only [Bool.false_eq_true, false_iff, not_exists]
    exact hv

theorem isAbsolute_false {v : Path} : Path.isAbsolute v = false ↔ ∀ r, v ≠ '/' :: r := by
  rw [← Bool.not_eq_true, isAbsolute_true]; exact not_exists

theorem resolveAsProgramPath_ok {v : Val Str} {cwd p : Path} (h : v.resolveAsProgramPath cwd = .ok p) : ProgramPath cwd v p := by
  obtain ⟨s, d⟩ := v
  unfold Val.resolveAsProgramPath at h
  cases d with
  | none => cases h; exact .unlocated s
  | some d =>
    dsimp only at h
    split at h
    · rename_i hc
      simp only [Bool.and_eq_true, Bool.not_eq_true', Bool.or_eq_true, List.contains_iff_mem] at hc
      cases hr : d.root cwd with
      | none => rw [hr] at h; cases h
      | some base =>
        rw [hr] at h
        cases h
        exact .relative s d base hc.2 (isAbsolute_false.1 hc.1) (root_baseDir hr)
    · rename_i hc
      have hp : p = s := by cases h; rfl
      subst hp
      by_cases ha : Path.isAbsolute p = true
      · obtain ⟨r, rfl⟩ := isAbsolute_true.1 ha
        exact .absolute r _
      · simp only [Bool.not_eq_true] at ha
        simp only [ha, Bool.not_false, Bool.true_and, Bool.or_eq_true, List.contains_iff_mem, not_or] at hc
        exact .name _ _ hc.1 hc.2

theorem resolveAsPath_ok {v : Val Str} {cwd p : Path} (h : v.resolveAsPath cwd = .ok p) : DirPath cwd v p := by
  obtain ⟨s, d⟩ := v
  unfold Val.resolveAsPath at h
  cases d with
  | none => cases h; exact .unlocated s
  | some d =>
    dsimp only at h
    split at h
    · rename_i hc
      cases hr : d.root cwd with
      | none => rw [hr] at h; cases h
      | some base =>
        rw [hr] at h
        cases h
        exact .relative s d base (isAbsolute_false.1 (by simpa using hc)) (root_baseDir hr)
    · rename_i hc
      cases h
      obtain ⟨r, rfl⟩ := isAbsolute_true.1 (by simpa using hc)
      exact .absolute r _

theorem mapOpt_ok {α β : Type} {f : α → Res β} {R : α → β → Prop} (hf : ∀ a b, f a = .ok b → R a b) {x : Option α} {y : Option β}
    (h : Res.mapOpt f x = .ok y) : OptionRel R x y := by
  cases x with
  | none => cases h; exact .none
  | some a =>
    simp only [Res.mapOpt, Res.bind_eq_ok] at h
    obtain ⟨b, hb, e⟩ := h
    cases e
    exact .some (hf a b hb)

/-- A command and the resolved command. -/
theorem prog_ok {cwd : Path} {x : PathAndArgs} {y : EPathAndArgs} (h : EPathAndArgs.fromUnresolved cwd x = .ok y) :
    ProgramPath cwd x.path y.path ∧ y.args = x.args.map Val.val := by
  unfold EPathAndArgs.fromUnresolved at h
  cases hp : x.path.resolveAsProgramPath cwd with
  | ok p => rw [hp] at h; cases h; exact ⟨resolveAsProgramPath_ok hp, rfl⟩
  | err e => rw [hp] at h; cases h
  | panic => rw [hp] at h; cases h

theorem mapVals_get {V W : Type} {f : V → Res W} {R : V → W → Prop} (hf : ∀ a b, f a = .ok b → R a b) {m : BMap V} {m' : BMap W}
    (h : Res.mapVals f m = .ok m') (k : Str) : OptionRel R (m.get k) (m'.get k) := by
  induction m generalizing m' with
  | nil => cases h; exact .none
  | cons e m ih =>
    obtain ⟨k', v⟩ := e
    simp only [Res.mapVals, Res.bind_eq_ok] at h
    obtain ⟨w, hw, m1, hm, e⟩ := h
    cases e
    unfold BMap.get
    split
    · exact .some (hf v w hw)
    · exact ih hm

/-! ### base directories exist -/

theorem parent_none_congr {p q : Path} (hk : Path.kept p = Path.kept q) (hl : Path.lead p = Path.lead q) :
    Path.parent p = none ↔ Path.parent q = none := by
  rcases List.eq_nil_or_concat (Path.kept q) with h | ⟨ks, k, h⟩
  · rw [Path.parent_of_kept_nil q h, Path.parent_of_kept_nil p (hk.trans h), hl]
  · rw [List.concat_eq_append] at h
    obtain ⟨x, hx, _⟩ := Path.parent_of_kept q ks k h
    obtain ⟨y, hy, _⟩ := Path.parent_of_kept p ks k (hk.trans h)
    rw [hx, hy]; simp

/-- The base directory of a file directly in `dir`. -/
theorem grandparent_join {dir name : Path} (hn : Path.Simple name) :
    (grandparent (Path.join dir name) = none ↔ Path.parent dir = none) := by
  obtain ⟨p, hp, hk, hl⟩ := Path.parent_of_kept (Path.join dir name) (Path.kept dir) name
    (by rw [Path.kept_join dir name hn.notAbs, hn.kept])
  rw [Path.lead_join dir name hn.notAbs hn.lead] at hl
  unfold grandparent
  rw [hp]
  exact parent_none_congr hk hl

theorem isConfigOf_name {ex : Path → Bool} {dir f : Path} (h : IsConfigOf ex dir f) :
    ∃ name, Path.Simple name ∧ f = Path.join dir name := by
  rcases h with ⟨h, _⟩ | ⟨h, _⟩
  · exact ⟨_, simple_config, h⟩
  · exact ⟨_, simple_configtoml, h⟩

theorem mem_configsOf {ex : Path → Bool} {dirs fs : List Path} (h : ConfigsOf ex dirs fs) :
    ∀ f ∈ fs, ∃ dir ∈ dirs, IsConfigOf ex dir f := by
  induction h with
  | nil => intro f hf; cases hf
  | found h1 _ ih =>
    intro f hf
    rcases List.mem_cons.1 hf with rfl | hf
    · exact ⟨_, List.mem_cons_self, h1⟩
    · obtain ⟨d, hd, h⟩ := ih f hf; exact ⟨d, List.mem_cons_of_mem _ hd, h⟩
  | missing _ _ ih =>
    intro f hf
    obtain ⟨d, hd, h⟩ := ih f hf; exact ⟨d, List.mem_cons_of_mem _ hd, h⟩

/-- Every file of the walk is in a `.cargo` directory or in `CARGO_HOME`. -/
theorem mem_walk {ex : Path → Bool} {cwd : Path} {home : Option Path} {f : Path} (h : f ∈ walk ex cwd home) :
    (∃ d ∈ Path.ancestors cwd, IsConfigOf ex (Path.join d ".cargo".toList) f) ∨ ∃ h, home = some h ∧ IsConfigOf ex h f := by
  rw [walk_eq] at h
  obtain ⟨dir, hd, hc⟩ := mem_configsOf (configsOf_filterMap ex _) f h
  have hs := pendingDirs_searchDirs cwd home
  unfold SearchDirs at hs
  cases home with
  | none =>
    dsimp only at hs
    rw [hs] at hd
    obtain ⟨d, h1, rfl⟩ := List.mem_map.1 hd
    exact Or.inl ⟨d, h1, hc⟩
  | some hm =>
    dsimp only at hs
    rcases hs with ⟨_, hs⟩ | ⟨_, hs⟩
    · rw [hs] at hd
      obtain ⟨d, h1, rfl⟩ := List.mem_map.1 hd
      exact Or.inl ⟨d, h1, hc⟩
    · rw [hs] at hd
      rcases List.mem_append.1 hd with hd | hd
      · obtain ⟨d, h1, rfl⟩ := List.mem_map.1 hd
        exact Or.inl ⟨d, h1, hc⟩
      · rw [List.mem_singleton] at hd
        subst hd
        exact Or.inr ⟨dir, rfl, hc⟩

theorem walk_grandparent {ex : Path → Bool} {cwd : Path} {home : Option Path} {f : Path} (h : f ∈ walk ex cwd home)
    (hh : ∀ h, home = some h → Path.parent h ≠ none) : ∃ b, grandparent f = some b := by
  have key : ∀ dir, IsConfigOf ex dir f → Path.parent dir ≠ none → ∃ b, grandparent f = some b := by
    intro dir hc hp
    obtain ⟨name, hn, rfl⟩ := isConfigOf_name hc
    cases hg : grandparent (Path.join dir name) with
    | some b => exact ⟨b, rfl⟩
    | none => exact absurd ((grandparent_join hn).1 hg) hp
  rcases mem_walk h with ⟨d, _, hc⟩ | ⟨hm, rfl, hc⟩
  · refine key _ hc ?_
    obtain ⟨p, hp, _⟩ := Path.parent_of_kept (Path.join d ".cargo".toList) (Path.kept d) ".cargo".toList
      (by rw [Path.kept_join d _ simple_dotcargo.notAbs, simple_dotcargo.kept])
    rw [hp]; simp
  · exact key _ hc (hh _ rfl)

/-- Definitions for which a base directory exists. -/
def Definition.HasRoot (d : Option Definition) : Prop :=
  ∀ f, d = some (.path f) ∨ d = some (.cli (some f)) → ∃ b, grandparent f = some b

theorem HasRoot.root {d : Definition} (h : Definition.HasRoot (some d)) (cwd : Path) : ∃ r, d.root cwd = some r := by
  cases d with
  | path f => exact h f (Or.inl rfl)
  | environment k => exact ⟨_, rfl⟩
  | cli f =>
    cases f with
    | none => exact ⟨_, rfl⟩
    | some f => exact h f (Or.inr rfl)

theorem resolveAsProgramPath_noPanic {v : Val Str} (h : Definition.HasRoot v.defn) (cwd : Path) :
    ∃ p, v.resolveAsProgramPath cwd = .ok p := by
  obtain ⟨s, d⟩ := v
  unfold Val.resolveAsProgramPath
  cases d with
  | none => exact ⟨_, rfl⟩
  | some d =>
    obtain ⟨r, hr⟩ := HasRoot.root h cwd
    dsimp only
    split
    · rw [hr]; exact ⟨_, rfl⟩
    · exact ⟨_, rfl⟩

theorem resolveAsPath_noPanic {v : Val Str} (h : Definition.HasRoot v.defn) (cwd : Path) :
    ∃ p, v.resolveAsPath cwd = .ok p := by
  obtain ⟨s, d⟩ := v
  unfold Val.resolveAsPath
  cases d with
  | none => exact ⟨_, rfl⟩
  | some d =>
    obtain ⟨r, hr⟩ := HasRoot.root h cwd
    dsimp only
    split
    · rw [hr]; exact ⟨_, rfl⟩
    · exact ⟨_, rfl⟩

theorem mapOpt_noPanic {α β : Type} {f : α → Res β} {x : Option α} (h : ∀ a, x = some a → ∃ b, f a = .ok b) :
    ∃ y, Res.mapOpt f x = .ok y := by
  cases x with
  | none => exact ⟨_, rfl⟩
  | some a =>
    obtain ⟨b, hb⟩ := h a rfl
    exact ⟨some b, by simp only [Res.mapOpt, hb, Res.ok_bind]⟩

theorem mapList_noPanic {α β : Type} {f : α → Res β} {l : List α} (h : ∀ a ∈ l, ∃ b, f a = .ok b) :
    ∃ y, Res.mapList f l = .ok y := by
  induction l with
  | nil => exact ⟨_, rfl⟩
  | cons a l ih =>
    obtain ⟨b, hb⟩ := h a (by simp)
    obtain ⟨bs, hbs⟩ := ih fun a ha => h a (by simp [ha])
    exact ⟨b :: bs, by unfold Res.mapList; rw [hb, hbs]; rfl⟩

theorem mapVals_noPanic {V W : Type} {f : V → Res W} {m : BMap V} (h : ∀ e ∈ m, ∃ b, f e.2 = .ok b) :
    ∃ y, Res.mapVals f m = .ok y := by
  induction m with
  | nil => exact ⟨_, rfl⟩
  | cons e l ih =>
    obtain ⟨k, v⟩ := e
    obtain ⟨b, hb⟩ := h (k, v) (by simp)
    obtain ⟨bs, hbs⟩ := ih fun a ha => h a (by simp [ha])
    exact ⟨(k, b) :: bs, by unfold Res.mapVals; rw [hb, hbs]; rfl⟩

theorem prog_noPanic {x : PathAndArgs} (h : Definition.HasRoot x.path.defn) (cwd : Path) :
    ∃ y, EPathAndArgs.fromUnresolved cwd x = .ok y := by
  obtain ⟨p, hp⟩ := resolveAsProgramPath_noPanic h cwd
  exact ⟨_, by unfold EPathAndArgs.fromUnresolved; rw [hp]; rfl⟩

/-- A target string in the config does not panic if its place has a base directory and, in case it contains a slash, it ends in a
file name. -/
theorem target_noPanic {v : Val Str} (h : Definition.HasRoot v.defn) (hf : '/' ∈ v.val → ∃ f, EndsInFile v.val f) (cwd : Path) :
    ∃ t, TargetTriple.new v.val v.defn (some cwd) = .ok t := by
  obtain ⟨s, d⟩ := v
  unfold TargetTriple.new
  split
  · rename_i hs
    have hfn : ∃ f, Path.fileName s = some f := by
      by_cases hsl : '/' ∈ s
      · obtain ⟨f, hf⟩ := hf hsl; exact ⟨f, fileName_iff.2 hf⟩
      · exact ⟨s, fileName_of_spec_noSlash hs hsl⟩
    obtain ⟨f, hfn⟩ := hfn
    have hst : (Path.fileStem s).isSome = true := by rw [fileStem_isSome, hfn]; rfl
    obtain ⟨stem, hst⟩ := Option.isSome_iff_exists.1 hst
    have hres : ∃ p, resolveSpecPath s d (some cwd) = some p := by
      unfold resolveSpecPath
      cases d with
      | none => exact ⟨_, rfl⟩
      | some d =>
        have hro : ∃ r, d.rootOpt (some cwd) = some (some r) := by
          cases d with
          | path f => obtain ⟨b, hb⟩ := h f (Or.inl rfl); exact ⟨b, by simp [Definition.rootOpt, hb]⟩
          | environment k => exact ⟨_, rfl⟩
          | cli f =>
            cases f with
            | none => exact ⟨_, rfl⟩
            | some f => obtain ⟨b, hb⟩ := h f (Or.inr rfl); exact ⟨b, by simp [Definition.rootOpt, hb]⟩
        obtain ⟨r, hr⟩ := hro
        simp only [hr]
        exact ⟨_, rfl⟩
    obtain ⟨p, hp⟩ := hres
    simp only [hst, hp, Res.unwrap, Res.ok_bind]
    cases p with
    | none => exact ⟨_, rfl⟩
    | some p => exact ⟨_, rfl⟩
  · exact ⟨_, rfl⟩

end CC
