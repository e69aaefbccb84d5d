import Verif.Spec.Outcome
import Verif.Lemmas.EndToEnd
import Verif.Props.Accept
/-
Lemmas for C66: when resolving panics, and when reading, merging and applying the environment succeed, in terms of documents.
-/
namespace CC

/-! ### outcomes that are decided by a condition -/

/-- The outcome is a value if the condition holds, else a panic. -/
def Decides {α : Type} (P : Prop) (r : Res α) : Prop := (P ∧ ∃ a, r = .ok a) ∨ (¬ P ∧ r = .panic)

theorem Decides.ok_iff {α : Type} {P : Prop} {r : Res α} (h : Decides P r) : (∃ a, r = .ok a) ↔ P := by
  rcases h with ⟨h1, h2⟩ | ⟨h1, h2⟩
  · exact ⟨fun _ => h1, fun _ => h2⟩
  · exact ⟨fun ⟨a, h⟩ => (by rw [h2] at h; cases h), fun h => absurd h h1⟩

theorem Decides.panic_iff {α : Type} {P : Prop} {r : Res α} (h : Decides P r) : r = .panic ↔ ¬ P := by
  rcases h with ⟨h1, a, h2⟩ | ⟨h1, h2⟩
  · exact ⟨fun h => (by rw [h2] at h; cases h), fun h => absurd h1 h⟩
  · exact ⟨fun _ => h1, fun _ => h2⟩

theorem Decides.congr {α : Type} {P Q : Prop} {r : Res α} (h : Decides P r) (e : P ↔ Q) : Decides Q r := by
  rcases h with ⟨h1, h2⟩ | ⟨h1, h2⟩
  · exact .inl ⟨e.1 h1, h2⟩
  · exact .inr ⟨fun h => h1 (e.2 h), h2⟩

theorem decides_ok {α : Type} (a : α) : Decides True (Res.ok a) := .inl ⟨trivial, a, rfl⟩

theorem Decides.bind {α β : Type} {P Q : Prop} {r : Res α} {f : α → Res β} (h : Decides P r) (hf : ∀ a, r = .ok a → Decides Q (f a)) :
    Decides (P ∧ Q) (r >>= f) := by
  rcases h with ⟨h1, a, h2⟩ | ⟨h1, h2⟩
  · rw [h2, Res.ok_bind]
    rcases hf a h2 with ⟨h3, h4⟩ | ⟨h3, h4⟩
    · exact .inl ⟨⟨h1, h3⟩, h4⟩
    · exact .inr ⟨fun h => h3 h.2, h4⟩
  · rw [h2]
    exact .inr ⟨fun h => h1 h.1, rfl⟩

theorem decides_unwrap {α : Type} (o : Option α) : Decides (∃ a, o = some a) (Res.unwrap o) := by
  cases o with
  | none => exact .inr ⟨by simp, rfl⟩
  | some a => exact .inl ⟨⟨a, rfl⟩, a, rfl⟩

theorem decides_mapOpt {α β : Type} {f : α → Res β} {P : α → Prop} (o : Option α) (h : ∀ a, o = some a → Decides (P a) (f a)) :
    Decides (∀ a, o = some a → P a) (Res.mapOpt f o) := by
  cases o with
  | none => exact .inl ⟨by simp, _, rfl⟩
  | some a =>
    refine ((h a rfl).bind fun b _ => decides_ok _).congr ?_
    simp

theorem decides_mapList {α β : Type} {f : α → Res β} {P : α → Prop} (l : List α) (h : ∀ a ∈ l, Decides (P a) (f a)) :
    Decides (∀ a ∈ l, P a) (Res.mapList f l) := by
  induction l with
  | nil => exact .inl ⟨by simp, _, rfl⟩
  | cons a l ih =>
    refine ((h a (by simp)).bind fun b _ => (ih fun a ha => h a (by simp [ha])).bind fun bs _ => decides_ok _).congr ?_
    simp

theorem decides_mapVals {V W : Type} {f : V → Res W} {P : V → Prop} (m : BMap V) (h : ∀ e ∈ m, Decides (P e.2) (f e.2)) :
    Decides (∀ e ∈ m, P e.2) (Res.mapVals f m) := by
  induction m with
  | nil => exact .inl ⟨by simp, _, rfl⟩
  | cons a l ih =>
    obtain ⟨k, v⟩ := a
    refine ((h (k, v) (by simp)).bind fun b _ => (ih fun a ha => h a (by simp [ha])).bind fun bs _ => decides_ok _).congr ?_
    simp

/-! ### base directories -/

theorem components_root_last {p : Path} {l : List Path.Comp} (h : Path.components p = l ++ [.root]) : l = [] := by
  unfold Path.components at h
  rcases List.eq_nil_or_concat (Path.kept p) with hk | ⟨ks, k, hk⟩
  · rw [hk, List.map_nil, List.append_nil] at h
    have : (Path.lead p).length ≤ 1 := by unfold Path.lead; split <;> (try split) <;> simp
    rw [h] at this
    simp only [List.length_append, List.length_cons, List.length_nil] at this
    exact List.length_eq_zero_iff.1 (by omega)
  · rw [hk, List.concat_eq_append, List.map_append, List.map_cons, List.map_nil, ← List.append_assoc] at h
    have := List.append_inj_right' h rfl
    simp only [List.cons.injEq, and_true] at this
    unfold Path.toComp at this
    split at this <;> cases this

theorem grandparent_isSome_iff (f : Path) : (∃ b, grandparent f = some b) ↔
    ∃ l a b, a ≠ Path.Comp.root ∧ Path.components f = l ++ [a, b] := by
  unfold grandparent
  cases hp : Path.parent f with
  | none =>
    simp only [Option.bind_none, reduceCtorEq, exists_false, false_iff]
    rintro ⟨l, a, b, _, e⟩
    rcases parent_none_iff.1 hp with h | h
    · rw [h] at e
      have := congrArg List.length e
      simp at this
    · rw [h] at e
      have := congrArg List.length e
      simp only [List.length_append, List.length_cons, List.length_nil] at this
      omega
  | some p =>
    obtain ⟨y, hy⟩ := parent_components f p hp
    simp only [Option.bind_some]
    constructor
    · rintro ⟨b, hb⟩
      obtain ⟨x, hx⟩ := parent_components p b hb
      refine ⟨Path.components b, x, y, ?_, by rw [hy, hx]; simp⟩
      rintro rfl
      have := components_root_last hx
      rw [this, List.nil_append] at hx
      rw [parent_none_iff.2 (.inr hx)] at hb
      cases hb
    · rintro ⟨l, a, b, ha, e⟩
      have e' : Path.components p ++ [y] = (l ++ [a]) ++ [b] := by rw [← hy, e]; simp
      have hx := List.append_inj_left' e' rfl
      cases hb : Path.parent p with
      | some b => exact ⟨b, rfl⟩
      | none =>
        exfalso
        rcases parent_none_iff.1 hb with h | h
        · rw [h] at hx; simp at hx
        · rw [h] at hx
          have := congrArg List.getLast? hx
          simp at this
          exact ha this.symm

theorem hasBase_iff (d : Definition) (cwd : Path) : (∃ b, d.root cwd = some b) ↔ HasBase d := by
  cases d with
  | path f => exact grandparent_isSome_iff f
  | environment k => simp [Definition.root, HasBase]
  | cli f =>
    cases f with
    | none => simp [Definition.root, HasBase]
    | some f => exact grandparent_isSome_iff f

theorem decides_root (d : Definition) (cwd : Path) : Decides (HasBase d) (Res.unwrap (d.root cwd)) :=
  (decides_unwrap _).congr (hasBase_iff d cwd)

/-! ### values -/

/-- A condition on the text and the location, if there is a location. -/
def WithPlace (P : Str → Definition → Prop) (v : Val Str) : Prop := ∀ d, v.defn = some d → P v.val d

theorem decides_program (v : Val Str) (cwd : Path) : Decides (WithPlace ProgramPlaced v) (v.resolveAsProgramPath cwd) := by
  obtain ⟨s, d⟩ := v
  unfold Val.resolveAsProgramPath WithPlace ProgramPlaced
  cases d with
  | none => exact .inl ⟨by simp, _, rfl⟩
  | some d =>
    dsimp only
    split
    · rename_i hc
      simp only [Bool.and_eq_true, Bool.not_eq_true', Bool.or_eq_true, List.contains_iff_mem] at hc
      refine ((decides_root d cwd).bind fun b _ => decides_ok _).congr ?_
      constructor
      · rintro ⟨h, _⟩ d' e _ _; cases e; exact h
      · intro h; exact ⟨h d rfl hc.2 (isAbsolute_false.1 hc.1), trivial⟩
    · rename_i hc
      refine .inl ⟨?_, _, rfl⟩
      intro d' _ h1 h2
      simp only [isAbsolute_false.2 h2, Bool.not_false, Bool.true_and, Bool.or_eq_true, List.contains_iff_mem] at hc
      exact absurd h1 hc

theorem decides_dir (v : Val Str) (cwd : Path) : Decides (WithPlace DirPlaced v) (v.resolveAsPath cwd) := by
  obtain ⟨s, d⟩ := v
  unfold Val.resolveAsPath WithPlace DirPlaced
  cases d with
  | none => exact .inl ⟨by simp, _, rfl⟩
  | some d =>
    dsimp only
    split
    · rename_i hc
      refine ((decides_root d cwd).bind fun b _ => decides_ok _).congr ?_
      constructor
      · rintro ⟨h, _⟩ d' e _; cases e; exact h
      · intro h; exact ⟨h d rfl (isAbsolute_false.1 (by simpa using hc)), trivial⟩
    · rename_i hc
      refine .inl ⟨?_, _, rfl⟩
      intro d' _ h2
      rw [isAbsolute_false.2 h2] at hc
      simp at hc

theorem decides_spec (s : Str) (d : Definition) (cwd : Path) :
    Decides (HasBase d) (Res.unwrap (resolveSpecPath s (some d) (some cwd))) := by
  have hr : d.rootOpt (some cwd) = (d.root cwd).map some := by
    cases d with
    | path f => rfl
    | environment k => rfl
    | cli f => cases f <;> rfl
  have := hasBase_iff d cwd
  unfold resolveSpecPath
  simp only [hr]
  generalize d.root cwd = x at this
  cases x with
  | none => exact .inr ⟨fun h => (by obtain ⟨b, h⟩ := this.2 h; cases h), rfl⟩
  | some b => exact .inl ⟨this.1 ⟨b, rfl⟩, _, rfl⟩

theorem decides_target {v : Val Str} (hv : v.defn ≠ none) (cwd : Path) :
    Decides (WithPlace TargetPlaced v) (TargetTriple.new v.val v.defn (some cwd)) := by
  obtain ⟨s, d⟩ := v
  cases d with
  | none => exact absurd rfl hv
  | some d =>
    unfold TargetTriple.new WithPlace TargetPlaced
    dsimp only
    by_cases hs : isSpecPath s = true
    · rw [if_pos hs]
      refine ((decides_unwrap _).bind fun stem _ => (decides_spec s d cwd).bind fun p _ => ?_).congr (Q := _) (P := _ ∧ _ ∧ True) ?_
      · cases p <;> exact decides_ok _
      · have hst : (∃ a, Path.fileStem s = some a) ↔ ∃ f, EndsInFile s f := by
          rw [← Option.isSome_iff_exists, fileStem_isSome, Option.isSome_iff_exists]
          exact exists_congr fun f => fileName_iff
        rw [hst]
        constructor
        · rintro ⟨h1, h2, _⟩ d' e _
          cases e
          exact ⟨h1, h2⟩
        · intro h
          obtain ⟨h1, h2⟩ := h d rfl (isSpecPath_iff.1 hs)
          exact ⟨h1, h2, trivial⟩
    · rw [if_neg hs]
      refine .inl ⟨?_, _, rfl⟩
      intro d' _ h
      exact absurd (isSpecPath_iff.2 h) hs

theorem decides_prog (x : PathAndArgs) (cwd : Path) : Decides (WithPlace ProgramPlaced x.path) (EPathAndArgs.fromUnresolved cwd x) := by
  unfold EPathAndArgs.fromUnresolved
  exact ((decides_program x.path cwd).bind fun _ _ => decides_ok _).congr (by simp)

theorem decides_env (e : EnvConfigValue) (cwd : Path) :
    Decides (e.theRelative.map Val.val = some true → ∀ d, e.theValue.defn = some d → HasBase d) (EEnvValue.fromUnresolved cwd e) := by
  cases e with
  | value v => exact .inl ⟨fun h => (by cases h), _, rfl⟩
  | table v f r =>
    unfold EEnvValue.fromUnresolved
    simp only [EnvConfigValue.theRelative, EnvConfigValue.theValue]
    split
    · rename_i h
      cases hd : v.defn with
      | none =>
        simp only [EnvConfigValue.resolve, h, hd]
        exact .inl ⟨fun _ d e => (by cases e), _, rfl⟩
      | some d =>
        simp only [EnvConfigValue.resolve, h, hd]
        refine (((decides_root d cwd).bind fun b _ => decides_ok _).bind fun _ _ => decides_ok _).congr ?_
        constructor
        · rintro ⟨⟨h, _⟩, _⟩ _ d' e; cases e; exact h
        · intro h; exact ⟨⟨h trivial d rfl, trivial⟩, trivial⟩
    · rename_i h
      exact .inl ⟨fun e => absurd e h, _, rfl⟩

/-! ### the config after the environment was applied -/

/-- All paths of the config can be located. -/
structure Config.Placed (c : Config) : Prop where
  programs : ∀ k ∈ [ScalarKey.buildRustc, .buildRustcWrapper, .buildRustcWorkspaceWrapper, .buildRustdoc], ∀ s d,
    k.get c = some ⟨.str s, some d⟩ → ProgramPlaced s d
  directories : ∀ k ∈ [ScalarKey.buildTargetDir, .buildDepInfoBasedir], ∀ s d,
    k.get c = some ⟨.str s, some d⟩ → DirPlaced s d
  browser : ∀ r s d ws, ProgKey.docBrowser.get c = some (r, ⟨s, some d⟩ :: ws) → ProgramPlaced s d
  targets : ∀ r l, ListKey.buildTarget.get c = some (r, l) → ∀ s d, ⟨s, some d⟩ ∈ l → TargetPlaced s d
  env : ∀ k x d d', (ScalarKey.envValue k).get c = some ⟨x, some d⟩ →
    (ScalarKey.envRelative k).get c = some ⟨.bool true, d'⟩ → HasBase d

theorem placed_opt {P : Str → Definition → Prop} {o : Option (Val Str)} {x : Option (Val Atom)} (hx : x = o.map (Val.map .str)) :
    (∀ v, o = some v → WithPlace P v) ↔ ∀ s d, x = some ⟨.str s, some d⟩ → P s d := by
  subst hx
  cases o with
  | none => simp
  | some v =>
    obtain ⟨s, d⟩ := v
    constructor
    · intro h s' d' e
      simp only [Option.map_some, Val.map, Option.some.injEq, Val.mk.injEq, Atom.str.injEq] at e
      obtain ⟨rfl, rfl⟩ := e
      exact h _ rfl d' rfl
    · intro h v e d' e'
      cases e
      dsimp only at e'
      subst e'
      exact h s d' rfl

theorem decides_build (b : BuildConfig) (cwd : Path) (hl : ∀ t, b.target = some t → ∀ v ∈ t.asArrayNoSplit, v.defn ≠ none) :
    Decides ((∀ v, b.rustc = some v → WithPlace ProgramPlaced v) ∧ (∀ v, b.rustcWrapper = some v → WithPlace ProgramPlaced v) ∧
      (∀ v, b.rustcWorkspaceWrapper = some v → WithPlace ProgramPlaced v) ∧ (∀ v, b.rustdoc = some v → WithPlace ProgramPlaced v) ∧
      (∀ t, b.target = some t → ∀ v ∈ t.asArrayNoSplit, WithPlace TargetPlaced v) ∧
      (∀ v, b.targetDir = some v → WithPlace DirPlaced v) ∧ (∀ v, b.depInfoBasedir = some v → WithPlace DirPlaced v) ∧ True)
      (EBuild.fromUnresolved cwd b) := by
  unfold EBuild.fromUnresolved
  refine (decides_mapOpt _ fun v _ => decides_program v cwd).bind fun _ _ => ?_
  refine (decides_mapOpt _ fun v _ => decides_program v cwd).bind fun _ _ => ?_
  refine (decides_mapOpt _ fun v _ => decides_program v cwd).bind fun _ _ => ?_
  refine (decides_mapOpt _ fun v _ => decides_program v cwd).bind fun _ _ => ?_
  refine (decides_mapOpt _ fun t ht => decides_mapList _ fun v hv => decides_target (hl t ht v hv) cwd).bind fun _ _ => ?_
  refine (decides_mapOpt _ fun v _ => decides_dir v cwd).bind fun _ _ => ?_
  refine (decides_mapOpt _ fun v _ => decides_dir v cwd).bind fun _ _ => ?_
  exact decides_ok _

theorem decides_doc (b : DocConfig) (cwd : Path) :
    Decides (∀ x, b.browser = some x → WithPlace ProgramPlaced x.path) (EDoc.fromUnresolved cwd b) := by
  unfold EDoc.fromUnresolved
  exact ((decides_mapOpt _ fun x _ => decides_prog x cwd).bind fun _ _ => decides_ok _).congr (by simp)

theorem target_asArray (c : Config) : (∀ t, c.build.target = some t → ∃ r, ListKey.buildTarget.get c = some (r, t.asArrayNoSplit)) ∧
    ∀ r l, ListKey.buildTarget.get c = some (r, l) → ∃ t, c.build.target = some t ∧ t.asArrayNoSplit = l := by
  unfold ListKey.get
  dsimp only
  cases c.build.target with
  | none => exact ⟨fun _ h => (by cases h), fun _ _ h => (by cases h)⟩
  | some t =>
    cases t with
    | string s => exact ⟨fun _ h => (by cases h; exact ⟨_, rfl⟩), fun _ _ h => (by cases h; exact ⟨_, rfl, rfl⟩)⟩
    | array s => exact ⟨fun _ h => (by cases h; exact ⟨_, rfl⟩), fun _ _ h => (by cases h; exact ⟨_, rfl, rfl⟩)⟩

/-- What happens after the environment was applied: a resolved config, or a panic if some path cannot be located. -/
theorem decides_resolved {de de' : Config} {cx : Ctx} (ha : de.applyEnv cx.env = .ok de') (hs : de'.env.Sorted)
    (hl : ∀ r l, ListKey.buildTarget.get de' = some (r, l) → ∀ v ∈ l, v.defn ≠ none) :
    Decides de'.Placed (EConfig.fromUnresolved de cx) := by
  unfold EConfig.fromUnresolved
  rw [ha, Res.ok_bind]
  obtain ⟨t1, t2⟩ := target_asArray de'
  refine ((decides_build de'.build cx.currentDir fun t ht => ?_).bind fun _ _ => (decides_doc de'.doc cx.currentDir).bind fun _ _ =>
    (decides_mapVals (P := fun e : EnvConfigValue => e.theRelative.map Val.val = some true → ∀ d, e.theValue.defn = some d → HasBase d)
      de'.env fun e _ => decides_env e.2 cx.currentDir).bind fun _ _ => decides_ok _).congr ?_
  · obtain ⟨r, hr⟩ := t1 t ht
    exact hl r _ hr
  · constructor
    · rintro ⟨⟨h1, h2, h3, h4, h5, h6, h7, _⟩, h8, h9, _⟩
      refine ⟨?_, ?_, ?_, ?_, ?_⟩
      · intro k hk
        simp only [List.mem_cons, List.not_mem_nil, or_false] at hk
        rcases hk with rfl | rfl | rfl | rfl
        · exact (placed_opt rfl).1 h1
        · exact (placed_opt rfl).1 h2
        · exact (placed_opt rfl).1 h3
        · exact (placed_opt rfl).1 h4
      · intro k hk
        simp only [List.mem_cons, List.not_mem_nil, or_false] at hk
        rcases hk with rfl | rfl
        · exact (placed_opt rfl).1 h6
        · exact (placed_opt rfl).1 h7
      · intro r s d ws h
        simp only [ProgKey.get, Option.map_eq_some_iff, Prod.mk.injEq, List.cons.injEq] at h
        obtain ⟨x, hx, _, hp, _⟩ := h
        have := h8 x hx d (by rw [hp])
        rwa [hp] at this
      · intro r l h s d hm
        obtain ⟨t, ht, rfl⟩ := t2 r l h
        exact h5 t ht _ hm d rfl
      · intro k x d d' h h'
        simp only [ScalarKey.get, Option.map_eq_some_iff, Option.bind_eq_some_iff] at h h'
        obtain ⟨e, he, hv⟩ := h
        obtain ⟨b, ⟨e', he', hb⟩, hv'⟩ := h'
        rw [he] at he'
        cases he'
        obtain ⟨b, db⟩ := b
        simp only [Val.map, Val.mk.injEq, Atom.bool.injEq] at hv hv'
        refine h9 (k, e) (BMap.mem_of_get he) ?_ d hv.2
        dsimp only
        rw [hb, Option.map_some, hv'.1]
    · rintro ⟨h1, h2, h3, h4, h5⟩
      refine ⟨⟨?_, ?_, ?_, ?_, ?_, ?_, ?_, trivial⟩, ?_, ?_, trivial⟩
      · exact (placed_opt rfl).2 (h1 .buildRustc (by simp))
      · exact (placed_opt rfl).2 (h1 .buildRustcWrapper (by simp))
      · exact (placed_opt rfl).2 (h1 .buildRustcWorkspaceWrapper (by simp))
      · exact (placed_opt rfl).2 (h1 .buildRustdoc (by simp))
      · intro t ht v hv d hd
        obtain ⟨r, hr⟩ := t1 t ht
        refine h4 r _ hr _ _ ?_
        rw [← hd]
        exact hv
      · exact (placed_opt rfl).2 (h2 .buildTargetDir (by simp))
      · exact (placed_opt rfl).2 (h2 .buildDepInfoBasedir (by simp))
      · intro x hx d hd
        refine h3 x.repr _ d x.args ?_
        simp only [ProgKey.get, hx, Option.map_some]
        rw [← hd]
      · rintro ⟨k, e⟩ he hrel d hd
        have hg := BMap.get_of_mem hs he
        dsimp only at hrel hd
        cases hr : e.theRelative with
        | none => rw [hr] at hrel; cases hrel
        | some b =>
          rw [hr] at hrel
          refine h5 k (.str e.theValue.val) d b.defn ?_ ?_
          · simp only [ScalarKey.get, hg, Option.map_some, Val.map, hd]
          · simp only [ScalarKey.get, hg, Option.bind_some, hr, Option.map_some, Val.map]
            rw [Option.some.inj hrel]

/-! ### the sources are determined -/

theorem tomlList_unique {split : Bool} {t : Toml} {r r' : Repr'} {ws ws' : List Str} (h : TomlList split t r ws)
    (h' : TomlList split t r' ws') : r = r' ∧ ws = ws' := by
  cases h with
  | array ws =>
    generalize hx : Toml.arr (ws.map .str) = x at h'
    cases h' with
    | array ws' =>
      simp only [Toml.arr.injEq] at hx
      exact ⟨rfl, List.map_inj_right (fun _ _ h => Toml.str.inj h) |>.1 hx⟩
    | words _ _ => cases hx
    | whole _ _ => cases hx
  | words s hs =>
    cases h' with
    | words _ _ => exact ⟨rfl, rfl⟩
    | whole _ hs' => rw [hs] at hs'; cases hs'
  | whole s hs =>
    cases h' with
    | words _ hs' => rw [hs] at hs'; cases hs'
    | whole _ _ => exact ⟨rfl, rfl⟩

theorem listsIn_unique {split : Bool} {path : List Str} {docs : List (Path × Toml)} {xs ys : List (Repr' × List (Val Str))}
    (h : ListsIn split path docs xs) (h' : ListsIn split path docs ys) : xs = ys := by
  induction h generalizing ys with
  | nil => cases h'; rfl
  | unset e _ ih =>
    cases h' with
    | unset _ h' => exact ih h'
    | set e' _ _ => rw [e] at e'; cases e'
  | set e t _ ih =>
    cases h' with
    | unset e' _ => rw [e] at e'; cases e'
    | set e' t' h' =>
      rw [e] at e'
      cases e'
      obtain ⟨rfl, rfl⟩ := tomlList_unique t t'
      rw [ih h']

theorem joinedList_unique {α : Type} {xs : List (Repr' × List α)} {r s : Option (Repr' × List α)} (h1 : JoinedList xs r)
    (h2 : JoinedList xs s) : r = s := by
  cases h1 with
  | unset =>
    cases h2 with
    | unset => rfl
    | array h _ => exact absurd rfl h
  | array h ha =>
    cases h2 with
    | unset => exact absurd rfl h
    | array _ _ => rfl
    | string hs =>
      have := (ha _ List.mem_cons_self).symm.trans (hs _ List.mem_cons_self)
      cases this
  | string hs =>
    cases h2 with
    | array _ ha =>
      have := (ha _ List.mem_cons_self).symm.trans (hs _ List.mem_cons_self)
      cases this
    | string _ => rfl

theorem joinedProg_unique {α : Type} {xs : List (Repr' × List α)} {r s : Option (Repr' × List α)} (h1 : JoinedProg xs r)
    (h2 : JoinedProg xs s) : r = s := by
  cases h1 with
  | unset =>
    cases h2 with
    | unset => rfl
    | array h _ => exact absurd rfl h
  | array h ha =>
    cases h2 with
    | unset => exact absurd rfl h
    | array _ _ => rfl
    | string hs =>
      have := (ha _ List.mem_cons_self).symm.trans (hs _ List.mem_cons_self)
      cases this
  | string hs =>
    cases h2 with
    | array _ ha =>
      have := (ha _ List.mem_cons_self).symm.trans (hs _ List.mem_cons_self)
      cases this
    | string _ => rfl

variable {p : ProcEnv} {fs : Fs} {toml : Str → Res Toml} {cwd : Path} {o : Options} {c : EConfig} {s : Cells}
  {look : Str → Option OsStr} {home : Option Path} {docs : List (Path × Toml)}

theorem listSource_unique {k : ListKey} {x y : Option (Repr' × List (Val Str))} (h : k.Source look docs x) (h' : k.Source look docs y) :
    x = y := by
  unfold ListKey.Source at h h'
  split at h
  · rename_i e
    rw [e] at h'
    exact h.trans h'.symm
  · rename_i hn
    split at h'
    · rename_i e
      exact absurd e (hn _ _)
    · obtain ⟨xs, h1, h2⟩ := h
      obtain ⟨ys, h3, h4⟩ := h'
      cases listsIn_unique h1 h3
      exact joinedList_unique h2 h4

theorem progSource_unique {k : ProgKey} {x y : Option (Repr' × List (Val Str))} (h : k.Source look docs x) (h' : k.Source look docs y) :
    x = y := by
  obtain ⟨xs, h1, h2, h3⟩ := h
  obtain ⟨ys, h4, h5, h6⟩ := h'
  cases listsIn_unique h1 h4
  by_cases hx : xs = []
  · have h3 := h3 hx
    have h6 := h6 hx
    split at h3
    · rename_i e
      rw [e] at h6
      exact h3.trans h6.symm
    · rename_i hn
      split at h6
      · rename_i e; exact absurd e (hn _ _)
      · exact h3.trans h6.symm
  · exact joinedProg_unique (h2 hx) (h5 hx)

/-! ### from the config to the documents -/

section
variable {de de' : Config} {env : Env} {raws : List (Path × Config)}
  (hl : loadConfig fs (fun s => toml s >>= Config.de) cwd home = .ok de)
  (hf : FilesRead fs.read (fun s => toml s >>= Config.de) (walk fs.ex cwd home) raws) (hr : ListRel ReadAs raws docs)
  (hd : DistinctKeys env) (ha : de.applyEnv env = .ok de')
include hl hf hr hd ha

theorem source_of_get {k : ScalarKey} {a : Atom} {d : Option Definition} (h : k.get de' = some ⟨a, d⟩) :
    ∃ d', d = some d' ∧ k.source (Env.get env) docs = some (a.toml, d') := by
  have e := source_scalar hl hf hr hd ha k
  rw [h] at e
  cases hs : k.source (Env.get env) docs with
  | none => rw [hs] at e; cases e
  | some x =>
    obtain ⟨t, d'⟩ := x
    rw [hs] at e
    simp only [Option.map_some, Option.some.injEq, Prod.mk.injEq] at e
    exact ⟨d', e.2, by rw [e.1]⟩

theorem get_of_source {k : ScalarKey} {t : Toml} {d : Definition} (h : k.source (Env.get env) docs = some (t, d)) :
    ∃ a, k.get de' = some ⟨a, some d⟩ ∧ a.toml = t := by
  have e := source_scalar hl hf hr hd ha k
  rw [h] at e
  cases hs : k.get de' with
  | none => rw [hs] at e; cases e
  | some x =>
    obtain ⟨a, d'⟩ := x
    rw [hs] at e
    simp only [Option.map_some, Option.some.injEq, Prod.mk.injEq] at e
    exact ⟨a, by rw [e.2], e.1⟩

theorem placed_iff : de'.Placed ↔ Resolvable (Env.get env) docs := by
  have str : ∀ {k : ScalarKey} {o : Option (Val Str)} {s : Str} {d : Definition}, k.get de' = o.map (Val.map .str) →
      k.source (Env.get env) docs = some (.str s, d) → k.get de' = some ⟨.str s, some d⟩ := by
    intro k o s d ho hk
    obtain ⟨a, h1, h2⟩ := get_of_source hl hf hr hd ha hk
    rw [h1] at ho ⊢
    cases o with
    | none => cases ho
    | some v =>
      obtain ⟨v, dv⟩ := v
      simp only [Option.map_some, Val.map, Option.some.injEq, Val.mk.injEq] at ho
      rw [ho.1] at h2 ⊢
      cases h2
      rfl
  constructor
  · rintro ⟨h1, h2, h3, h4, h5⟩
    refine ⟨?_, ?_, ?_, ?_, ?_⟩
    · intro k hk s d hs
      refine h1 k hk s d ?_
      simp only [List.mem_cons, List.not_mem_nil, or_false] at hk
      rcases hk with rfl | rfl | rfl | rfl <;> exact str rfl hs
    · intro k hk s d hs
      refine h2 k hk s d ?_
      simp only [List.mem_cons, List.not_mem_nil, or_false] at hk
      rcases hk with rfl | rfl <;> exact str rfl hs
    · intro r s d ws h
      exact h3 r s d ws (progSource_unique (source_prog hl hf hr ha _) h)
    · intro r l h
      exact h4 r l (listSource_unique (source_list hl hf hr hd ha _) h)
    · intro k x d d' h h'
      obtain ⟨a, g1, _⟩ := get_of_source hl hf hr hd ha h
      obtain ⟨b, g2, e⟩ := get_of_source hl hf hr hd ha h'
      refine h5 k a d (some d') g1 ?_
      rw [g2]
      have : b = .bool true := by
        simp only [ScalarKey.get, Option.map_eq_some_iff] at g2
        obtain ⟨v, _, g2⟩ := g2
        simp only [Val.map, Val.mk.injEq] at g2
        rw [← g2.1] at e ⊢
        simp only [Atom.toml, Toml.bool.injEq] at e
        rw [e]
      rw [this]
  · rintro ⟨h1, h2, h3, h4, h5⟩
    refine ⟨?_, ?_, ?_, ?_, ?_⟩
    · intro k hk s d hs
      obtain ⟨d', e, h⟩ := source_of_get hl hf hr hd ha hs
      cases e
      exact h1 k hk s d h
    · intro k hk s d hs
      obtain ⟨d', e, h⟩ := source_of_get hl hf hr hd ha hs
      cases e
      exact h2 k hk s d h
    · intro r s d ws h
      exact h3 r s d ws (h ▸ source_prog hl hf hr ha .docBrowser)
    · intro r l h
      exact h4 r l (h ▸ source_list hl hf hr hd ha .buildTarget)
    · intro k x d d' h h'
      obtain ⟨_, e, g⟩ := source_of_get hl hf hr hd ha h
      cases e
      obtain ⟨d'', e, g'⟩ := source_of_get hl hf hr hd ha h'
      exact h5 k _ d d'' g g'

end

/-- A command is unset after the load exactly if no document has it. -/
theorem progUnset_iff {de : Config} {raws : List (Path × Config)}
    (hl : loadConfig fs (fun s => toml s >>= Config.de) cwd home = .ok de)
    (hf : FilesRead fs.read (fun s => toml s >>= Config.de) (walk fs.ex cwd home) raws) (hr : ListRel ReadAs raws docs) (k : ProgKey) :
    k.get de = none ↔ ∀ f t, (f, t) ∈ docs → t.at k.path = none := by
  obtain ⟨raws', h1, h2⟩ := C07_commands_joined (fun s c => toml_wf s c) hl
  rw [filesRead_unique h1 hf] at h2
  have h3 := merged_lists hr true k.path (fun c => k.get c) fun t c h1 h2 => prog_read h1 h2 k
  have h4 := h2 k
  generalize raws.filterMap _ = xs at h3 h4
  have e1 : k.get de = none ↔ xs = [] := by
    generalize k.get de = x at h4
    cases h4 with
    | unset => simp
    | array h _ => simp [h]
    | string _ => simp
  rw [e1]
  clear e1 h4 h2 h1 hr
  induction h3 with
  | nil => simp
  | unset e _ ih =>
    refine Iff.trans ih ?_
    constructor
    · intro h f t hm
      rcases List.mem_cons.1 hm with hm | hm
      · cases hm; exact e
      · exact h f t hm
    · intro h f t hm; exact h f t (List.mem_cons_of_mem _ hm)
  | set e _ _ _ =>
    simp only [reduceCtorEq, false_iff]
    intro h
    rw [h _ _ List.mem_cons_self] at e
    cases e

/-- Under the documents found, the environment can be applied exactly if no variable that counts is malformed. -/
theorem applyEnv_iff {de : Config} {env : Env} {raws : List (Path × Config)}
    (hl : loadConfig fs (fun s => toml s >>= Config.de) cwd home = .ok de)
    (hf : FilesRead fs.read (fun s => toml s >>= Config.de) (walk fs.ex cwd home) raws) (hr : ListRel ReadAs raws docs)
    (hd : DistinctKeys env) : (∃ de', de.applyEnv env = .ok de') ↔ VarsGood (Env.get env) docs := by
  have hprog := progUnset_iff hl hf hr
  have herr : (∃ de', de.applyEnv env = .ok de') ↔ ¬ (de.applyEnv env).isErr = true := by
    have := C23_no_panic (c := de) (env := env)
    generalize de.applyEnv env = x at this
    cases x with
    | ok a => simp [Res.isErr]
    | err e => simp [Res.isErr]
    | panic => exact absurd rfl this
  rw [herr, C23_fails_iff hd]
  simp only [not_or, not_exists, not_and]
  constructor
  · rintro ⟨h1, h2, h3⟩
    refine ⟨fun k => ?_, h2, fun k hk => h3 k ((hprog k).2 hk)⟩
    unfold ScalarKey.consulted
    split
    · simp [readEnv]
    · rename_i hk; exact h1 k hk
  · rintro ⟨h1, h2, h3⟩
    refine ⟨fun k hk => ?_, h2, fun k hk => h3 k ((hprog k).1 hk)⟩
    have := h1 k
    unfold ScalarKey.consulted at this
    rwa [if_neg hk] at this

/-! ### reading and merging the documents -/

theorem tomlList_isStr {split : Bool} {t : Toml} {r : Repr'} {ws : List Str} (h : TomlList split t r ws) :
    t.isStr = true ↔ r = .string := by
  cases h <;> simp [Toml.isStr]

theorem spells_differ {split : Bool} {x y : Option Toml} {u v : Option (Repr' × List (Val Str))} (hx : SpellsAt split x u)
    (hy : SpellsAt split y v) : (∃ r s a b, u = some (r, a) ∧ v = some (s, b) ∧ r ≠ s) ↔
      ∃ a b, x = some a ∧ y = some b ∧ a.isStr ≠ b.isStr := by
  unfold SpellsAt at hx hy
  cases hx with
  | none => simp
  | some hx =>
    cases hy with
    | none => simp
    | some hy =>
      rename_i a u b v
      obtain ⟨r, u⟩ := u
      obtain ⟨s, v⟩ := v
      have h1 := tomlList_isStr hx
      have h2 := tomlList_isStr hy
      constructor
      · rintro ⟨_, _, _, _, e1, e2, h⟩
        cases e1
        cases e2
        refine ⟨a, b, rfl, rfl, fun e => h ?_⟩
        rw [e] at h1
        dsimp only at h1 h2
        have : r = .string ↔ s = .string := h1.symm.trans h2
        cases r <;> cases s <;> simp_all
      · rintro ⟨_, _, e1, e2, h⟩
        cases e1
        cases e2
        refine ⟨r, s, u, v, rfl, rfl, fun e => h ?_⟩
        dsimp only at h1 h2
        rw [e, ← h2] at h1
        exact Bool.eq_iff_iff.2 h1

theorem spelledApart_iff {x y : Path × Config} {a b : Path × Toml} (hx : ReadAs x a) (hy : ReadAs y b) :
    ShapeConflict x.2 y.2 ↔ SpelledApart a.2 b.2 := by
  have env : ∀ k, (∃ r s, envShape x.2 k = some r ∧ envShape y.2 k = some s ∧ r ≠ s) ↔
      ∃ u v, a.2.at ["env".toList, k] = some u ∧ b.2.at ["env".toList, k] = some v ∧ u.isStr ≠ v.isStr := by
    intro k
    have kind : ∀ {z : Path × Config} {c : Path × Toml}, ReadAs z c → envShape z.2 k =
        (c.2.at ["env".toList, k]).map fun u => !u.isStr := by
      intro z c h
      rw [envShape_read h.2.1 h.2.2 k]
      cases hu : c.2.at ["env".toList, k] with
      | none => rfl
      | some u =>
        have hc := (C62_accepted_iff _ h.2.2).1 ⟨_, h.2.1⟩
        rcases hc.env k u hu with ⟨s, rfl⟩ | ⟨v, hv⟩
        · rfl
        · have : ∃ l, u = .tbl l := by
            have e : c.2.at ["env".toList, k, "value".toList] = (c.2.at ["env".toList, k]).bind fun u => u.at ["value".toList] := by
              generalize "env".toList = e1
              generalize "value".toList = e2
              cases c.2 with
              | tbl l =>
                simp only [Toml.at]
                cases BMap.get l e1 with
                | none => rfl
                | some z => cases z with
                  | tbl l' => simp only [Toml.at, Option.bind_some]; cases BMap.get l' k <;> rfl
                  | _ => rfl
              | _ => rfl
            rw [hu, Option.bind_some] at e
            rw [e] at hv
            cases u with
            | tbl l => exact ⟨l, rfl⟩
            | _ => cases hv
          obtain ⟨l, rfl⟩ := this
          rfl
    rw [kind hx, kind hy]
    constructor
    · rintro ⟨r, s, h1, h2, h⟩
      simp only [Option.map_eq_some_iff] at h1 h2
      obtain ⟨u, hu, rfl⟩ := h1
      obtain ⟨v, hv, rfl⟩ := h2
      exact ⟨u, v, hu, hv, fun e => h (by rw [e])⟩
    · rintro ⟨u, v, h1, h2, h⟩
      rw [h1, h2]
      exact ⟨_, _, rfl, rfl, fun e => h (by simpa using e)⟩
  constructor
  · intro h
    cases h with
    | list k r s u v h1 h2 h3 =>
      obtain ⟨a', b', e1, e2, e3⟩ := (spells_differ (list_read hx.2.1 hx.2.2 k) (list_read hy.2.1 hy.2.2 k)).1 ⟨r, s, u, v, h1, h2, h3⟩
      exact ⟨_, a', b', .inl ⟨k, rfl⟩, e1, e2, e3⟩
    | prog k r s u v h1 h2 h3 =>
      obtain ⟨a', b', e1, e2, e3⟩ := (spells_differ (prog_read hx.2.1 hx.2.2 k) (prog_read hy.2.1 hy.2.2 k)).1 ⟨r, s, u, v, h1, h2, h3⟩
      exact ⟨_, a', b', .inr (.inl ⟨k, rfl⟩), e1, e2, e3⟩
    | env k r s h1 h2 h3 =>
      obtain ⟨a', b', e1, e2, e3⟩ := (env k).1 ⟨r, s, h1, h2, h3⟩
      exact ⟨_, a', b', .inr (.inr ⟨k, rfl⟩), e1, e2, e3⟩
  · rintro ⟨path, a', b', hp, e1, e2, e3⟩
    rcases hp with ⟨k, rfl⟩ | ⟨k, rfl⟩ | ⟨k, rfl⟩
    · obtain ⟨r, s, u, v, h1, h2, h3⟩ := (spells_differ (list_read hx.2.1 hx.2.2 k) (list_read hy.2.1 hy.2.2 k)).2 ⟨a', b', e1, e2, e3⟩
      exact .list k r s u v h1 h2 h3
    · obtain ⟨r, s, u, v, h1, h2, h3⟩ := (spells_differ (prog_read hx.2.1 hx.2.2 k) (prog_read hy.2.1 hy.2.2 k)).2 ⟨a', b', e1, e2, e3⟩
      exact .prog k r s u v h1 h2 h3
    · obtain ⟨r, s, h1, h2, h3⟩ := (env k).2 ⟨a', b', e1, e2, e3⟩
      exact .env k r s h1 h2 h3

theorem listRel_mem {α β : Type} {R : α → β → Prop} {l : List α} {m : List β} (h : ListRel R l m) :
    (∀ a ∈ l, ∃ b ∈ m, R a b) ∧ ∀ b ∈ m, ∃ a ∈ l, R a b := by
  induction h with
  | nil => exact ⟨fun _ h => (by cases h), fun _ h => (by cases h)⟩
  | cons h _ ih =>
    refine ⟨fun x hx => ?_, fun x hx => ?_⟩
    · rcases List.mem_cons.1 hx with rfl | hx
      · exact ⟨_, List.mem_cons_self, h⟩
      · obtain ⟨y, h1, h2⟩ := ih.1 x hx; exact ⟨y, List.mem_cons_of_mem _ h1, h2⟩
    · rcases List.mem_cons.1 hx with rfl | hx
      · exact ⟨_, List.mem_cons_self, h⟩
      · obtain ⟨y, h1, h2⟩ := ih.2 x hx; exact ⟨y, List.mem_cons_of_mem _ h1, h2⟩

theorem pairwise_apart {raws : List (Path × Config)} (h : ListRel ReadAs raws docs) :
    (raws.Pairwise fun x y => ¬ ShapeConflict x.2 y.2) ↔ docs.Pairwise fun x y => ¬ SpelledApart x.2 y.2 := by
  induction h with
  | nil => simp
  | cons h hs ih =>
    rw [List.pairwise_cons, List.pairwise_cons, ih]
    refine and_congr ?_ Iff.rfl
    constructor
    · intro h1 b hb hc
      obtain ⟨a, ha, hab⟩ := (listRel_mem hs).2 b hb
      exact h1 a ha ((spelledApart_iff h hab).2 hc)
    · intro h1 a ha hc
      obtain ⟨b, hb, hab⟩ := (listRel_mem hs).1 a ha
      exact h1 b hb ((spelledApart_iff h hab).1 hc)

theorem docs_of_raws : ∀ raws : List (Path × Config),
    (∀ f raw, (f, raw) ∈ raws → ∃ text, fs.read f = .ok text ∧ (toml text >>= Config.de) = .ok raw) →
    ∃ docs : List (Path × Toml), docs.map Prod.fst = raws.map Prod.fst ∧
      ∀ f t, (f, t) ∈ docs → ∃ text, fs.read f = .ok text ∧ toml text = .ok t := by
  intro raws
  induction raws with
  | nil => exact fun _ => ⟨[], rfl, fun _ _ h => (by cases h)⟩
  | cons x raws ih =>
    intro hr
    obtain ⟨docs, e, hd⟩ := ih fun f raw hm => hr f raw (by simp [hm])
    obtain ⟨f, raw⟩ := x
    obtain ⟨text, r1, r2⟩ := hr f raw (by simp)
    rw [Res.bind_eq_ok] at r2
    obtain ⟨t, r2, _⟩ := r2
    refine ⟨(f, t) :: docs, by simp [e], fun g u hm => ?_⟩
    rcases List.mem_cons.1 hm with hm | hm
    · cases hm; exact ⟨text, r1, r2⟩
    · exact hd g u hm

theorem raws_of_docs (ht : ∀ s t, toml s = .ok t → t.DistinctKeys) : ∀ docs : List (Path × Toml),
    (∀ f t, (f, t) ∈ docs → ∃ text, fs.read f = .ok text ∧ toml text = .ok t) → (∀ f t, (f, t) ∈ docs → t.IsConfig) →
    ∃ raws : List (Path × Config), raws.map Prod.fst = docs.map Prod.fst ∧
      ∀ f raw, (f, raw) ∈ raws → ∃ text, fs.read f = .ok text ∧ (toml text >>= Config.de) = .ok raw := by
  intro docs
  induction docs with
  | nil => exact fun _ _ => ⟨[], rfl, fun _ _ h => (by cases h)⟩
  | cons x docs ih =>
    intro hr hc
    obtain ⟨raws, e, hd⟩ := ih (fun f raw hm => hr f raw (by simp [hm])) (fun f raw hm => hc f raw (by simp [hm]))
    obtain ⟨f, t⟩ := x
    obtain ⟨text, r1, r2⟩ := hr f t (by simp)
    obtain ⟨c, h⟩ := (C62_accepted_iff t (ht _ _ r2)).2 (hc f t (by simp))
    refine ⟨(f, c) :: raws, by simp [e], fun g u hm => ?_⟩
    rcases List.mem_cons.1 hm with hm | hm
    · cases hm; exact ⟨text, r1, by rw [r2, Res.ok_bind, h]⟩
    · exact hd g u hm

theorem documents_unique {docs' : List (Path × Toml)} (h : DocumentsOf fs toml cwd home docs) (h' : DocumentsOf fs toml cwd home docs') :
    docs = docs' := by
  obtain ⟨dirs, d1, d2, d3⟩ := h
  obtain ⟨dirs', d1', d2', d3'⟩ := h'
  have e := C01_spec_functional _ _ _ _ _ _ _ d1 d1' d2 d2'
  clear d1 d2 d1' d2'
  induction docs generalizing docs' with
  | nil =>
    cases docs' with
    | nil => rfl
    | cons _ _ => cases e
  | cons x docs ih =>
    cases docs' with
    | nil => cases e
    | cons y docs' =>
      obtain ⟨f, t⟩ := x
      obtain ⟨g, u⟩ := y
      simp only [List.map_cons, List.cons.injEq] at e
      obtain ⟨rfl, e⟩ := e
      obtain ⟨t1, r1, p1⟩ := d3 f t (by simp)
      obtain ⟨t2, r2, p2⟩ := d3' f u (by simp)
      rw [r1] at r2
      cases Res.ok.inj r2
      rw [p1] at p2
      cases Res.ok.inj p2
      rw [ih (fun f r h => d3 f r (by simp [h])) (fun f r h => d3' f r (by simp [h])) e]

/-- What a successful load of the files says about the documents. -/
theorem load_unpack (ht : ∀ s t, toml s = .ok t → t.DistinctKeys) {de : Config}
    (h : loadConfig fs (fun s => toml s >>= Config.de) cwd home = .ok de) :
    ∃ docs raws, DocumentsOf fs toml cwd home docs ∧ DocsGood docs ∧
      FilesRead fs.read (fun s => toml s >>= Config.de) (walk fs.ex cwd home) raws ∧ ListRel ReadAs raws docs := by
  obtain ⟨raws, h3, _⟩ := loadPaths_ok.1 h
  obtain ⟨dirs, d1, d2⟩ := C01_walk fs.ex cwd home
  obtain ⟨docs, e, hd⟩ := docs_of_raws raws h3.2
  have hr : ListRel ReadAs raws docs := readAs_of_same e.symm h3.2 hd ht
  refine ⟨docs, raws, ⟨dirs, d1, by rw [e, h3.1]; exact d2, hd⟩, ⟨?_, ?_⟩, h3, hr⟩
  · intro f t hm
    obtain ⟨x, _, hx⟩ := (listRel_mem hr).2 _ hm
    exact (C62_accepted_iff t hx.2.2).1 ⟨_, hx.2.1⟩
  · exact (pairwise_apart hr).1 ((C08_load_fails_iff (fun s c => toml_wf s c) h3).1 ⟨_, h⟩)

/-- The files can be loaded exactly if the documents are good. -/
theorem load_of_docs (ht : ∀ s t, toml s = .ok t → t.DistinctKeys) (h : DocumentsOf fs toml cwd home docs) (hg : DocsGood docs) :
    ∃ de, loadConfig fs (fun s => toml s >>= Config.de) cwd home = .ok de := by
  obtain ⟨dirs, d1, d2, d3⟩ := h
  obtain ⟨raws, e, hr⟩ := raws_of_docs ht docs d3 hg.configs
  obtain ⟨dirs', d1', d2'⟩ := C01_walk fs.ex cwd home
  have hw := C01_spec_functional _ _ _ _ _ _ _ d1' d1 d2' d2
  have hf : FilesRead fs.read (fun s => toml s >>= Config.de) (walk fs.ex cwd home) raws := ⟨by rw [e, hw], hr⟩
  exact (C08_load_fails_iff (fun s c => toml_wf s c) hf).2 ((pairwise_apart (readAs_of_same e hr d3 ht)).2 hg.spelling)

end CC
