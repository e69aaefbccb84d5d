import Verif.Lemmas.Path
import Verif.Model.Walk
import Verif.Spec.Walk
/-
Lemmas on the walk.
-/
namespace CC

theorem configPath_some {ex : Path → Bool} {d f : Path} : configPath ex d = some f ↔ IsConfigOf ex d f := by
  unfold configPath IsConfigOf
  simp only
  split
  · rename_i h
    constructor
    · intro h'; injection h' with h'; subst h'; exact .inl ⟨rfl, h⟩
    · rintro (⟨h1, _⟩ | ⟨_, _, h3⟩)
      · rw [h1]
      · rw [h] at h3; cases h3
  · rename_i h
    split
    · rename_i h2
      constructor
      · intro h'; injection h' with h'; subst h'; exact .inr ⟨rfl, h2, by simpa using h⟩
      · rintro (⟨h1, h3⟩ | ⟨h1, _, _⟩)
        · rw [h1] at h3; exact absurd h3 h
        · rw [h1]
    · rename_i h2
      constructor
      · intro h'; cases h'
      · rintro (⟨h1, h3⟩ | ⟨h1, h3, _⟩)
        · rw [h1] at h3; exact absurd h3 h
        · rw [h1] at h3; exact absurd h3 h2

theorem configPath_none {ex : Path → Bool} {d : Path} : configPath ex d = none ↔ ∀ f, ¬ IsConfigOf ex d f := by
  constructor
  · intro h f hf
    rw [← configPath_some, h] at hf; cases hf
  · intro h
    cases hc : configPath ex d with
    | none => rfl
    | some f => exact absurd (configPath_some.1 hc) (h f)

/-- What remains of `home` after the directories `as` have been passed. -/
def remainingHome (as : List Path) (home : Option Path) : Option Path :=
  home.filter fun h => !(as.any fun a => Path.eqv h (Path.join a ".cargo".toList))

theorem remainingHome_cons (a : Path) (as : List Path) (home : Option Path) :
    remainingHome (a :: as) home = remainingHome as (dedupHome (Path.join a ".cargo".toList) home) := by
  unfold remainingHome dedupHome
  generalize ".cargo".toList = x
  cases home with
  | none => rfl
  | some h =>
    cases he : Path.eqv h (Path.join a x) with
    | true => simp [he]
    | false => simp [Option.filter, he]

/-- The list of directories still to be looked at. -/
def pendingDirs (as : List Path) (home : Option Path) : List Path :=
  as.map (fun a => Path.join a ".cargo".toList) ++ (remainingHome as home).toList

theorem collect_eq (ex : Path → Bool) (n : Nat) (as : List Path) (home : Option Path)
    (h : as.length + 2 ≤ n) :
    WalkState.collect ex n ⟨as, home⟩ = (pendingDirs as home).filterMap (configPath ex) := by
  induction as generalizing n home with
  | nil =>
    match n, h with
    | n + 2, _ =>
      cases home with
      | none => rfl
      | some hm =>
        simp only [WalkState.collect, WalkState.next, walkNext, pendingDirs, remainingHome, List.map_nil,
          List.nil_append, List.any_nil, Bool.not_false, Option.filter, if_true, Option.toList]
        cases hc : configPath ex hm with
        | none => simp [hc]
        | some f => simp [hc, walkNext]
  | cons a as ih =>
    match n, h with
    | n + 1, h =>
      have hlen : as.length + 2 ≤ n := by simp at h; omega
      have hp : pendingDirs (a :: as) home = Path.join a ".cargo".toList ::
          pendingDirs as (dedupHome (Path.join a ".cargo".toList) home) := by
        unfold pendingDirs
        rw [remainingHome_cons]
        rfl
      rw [hp, List.filterMap_cons]
      have hn : WalkState.next ex ⟨a :: as, home⟩ = match configPath ex (Path.join a ".cargo".toList) with
          | some f => (some f, ⟨as, dedupHome (Path.join a ".cargo".toList) home⟩)
          | none => WalkState.next ex ⟨as, dedupHome (Path.join a ".cargo".toList) home⟩ := by
        simp only [WalkState.next, walkNext]
        cases configPath ex (Path.join a ".cargo".toList) <;> rfl
      cases hc : configPath ex (Path.join a ".cargo".toList) with
      | some f =>
        rw [hc] at hn
        simp only [WalkState.collect, hn]
        rw [ih n _ hlen]
      | none =>
        rw [hc] at hn
        simp only at hn ⊢
        have : WalkState.collect ex (n + 1) ⟨a :: as, home⟩
            = WalkState.collect ex (n + 1) ⟨as, dedupHome (Path.join a ".cargo".toList) home⟩ := by
          simp only [WalkState.collect, hn]
        rw [this]
        exact ih (n + 1) _ (by omega)

theorem walk_eq (ex : Path → Bool) (cwd : Path) (home : Option Path) :
    walk ex cwd home = (pendingDirs (Path.ancestors cwd) home).filterMap (configPath ex) :=
  collect_eq ex _ _ _ (by omega)

theorem configsOf_filterMap (ex : Path → Bool) (dirs : List Path) :
    ConfigsOf ex dirs (dirs.filterMap (configPath ex)) := by
  induction dirs with
  | nil => exact .nil
  | cons d ds ih =>
    cases hc : configPath ex d with
    | none => rw [List.filterMap_cons_none hc]; exact .missing (configPath_none.1 hc) ih
    | some f => rw [List.filterMap_cons_some hc]; exact .found (configPath_some.1 hc) ih

theorem pendingDirs_searchDirs (cwd : Path) (home : Option Path) :
    SearchDirs cwd home (pendingDirs (Path.ancestors cwd) home) := by
  unfold SearchDirs pendingDirs remainingHome
  cases home with
  | none => simp
  | some h =>
    simp only [Option.filter]
    by_cases hx : ∃ a ∈ Path.ancestors cwd,
        Path.components (Path.join a ".cargo".toList) = Path.components h
    · left
      have hany : ((Path.ancestors cwd).any fun a => Path.eqv h (Path.join a ".cargo".toList)) = true := by
        rw [List.any_eq_true]
        obtain ⟨a, ha, he⟩ := hx
        exact ⟨a, ha, (Path.eqv_iff _ _).2 he.symm⟩
      refine ⟨?_, by simp only [hany]; simp⟩
      obtain ⟨a, ha, he⟩ := hx
      exact ⟨_, List.mem_map.2 ⟨a, ha, rfl⟩, he⟩
    · right
      have hany : ((Path.ancestors cwd).any fun a => Path.eqv h (Path.join a ".cargo".toList)) = false := by
        rw [List.any_eq_false]
        intro a ha he
        exact hx ⟨a, ha, ((Path.eqv_iff _ _).1 he).symm⟩
      refine ⟨?_, by simp only [hany]; simp⟩
      intro d hd
      obtain ⟨a, ha, rfl⟩ := List.mem_map.1 hd
      exact fun he => hx ⟨a, ha, he⟩

theorem simple_dotcargo : Path.Simple ".cargo".toList := ⟨by decide, by decide, by decide⟩
theorem simple_config : Path.Simple "config".toList := ⟨by decide, by decide, by decide⟩
theorem simple_configtoml : Path.Simple "config.toml".toList := ⟨by decide, by decide, by decide⟩

theorem isConfigOf_components {ex : Path → Bool} {d f : Path} (h : IsConfigOf ex d f) :
    ∃ c, Path.components f = Path.components d ++ [c] := by
  rcases h with ⟨h, _⟩ | ⟨h, _, _⟩
  · exact ⟨_, by rw [h, Path.components_join _ _ simple_config]⟩
  · exact ⟨_, by rw [h, Path.components_join _ _ simple_configtoml]⟩

theorem components_length (s : Path) :
    (Path.components s).length = (Path.lead s).length + (Path.kept s).length := by
  simp [Path.components]

theorem parent_components (s p : Path) (h : Path.parent s = some p) :
    ∃ c, Path.components s = Path.components p ++ [c] := by
  rcases List.eq_nil_or_concat (Path.kept s) with hk | ⟨ks, k, hk⟩
  · rw [Path.parent_of_kept_nil s hk] at h
    split at h
    · rename_i hl
      injection h with h
      subst h
      refine ⟨.cur, ?_⟩
      unfold Path.components
      rw [hk, hl]
      decide
    · cases h
  · have hk' : Path.kept s = ks ++ [k] := by simpa using hk
    obtain ⟨p', h1, h2, h3⟩ := Path.parent_of_kept s ks k hk'
    rw [h1] at h
    injection h with h
    subst h
    refine ⟨Path.toComp k, ?_⟩
    unfold Path.components
    rw [hk', h2, h3]
    simp

/-- Induction over the chain of parents. -/
theorem parent_induction {P : Path → Prop} (h : ∀ s, (∀ p, Path.parent s = some p → P p) → P s) (s : Path) :
    P s := by
  have : ∀ n s, Path.depth s = n → P s := by
    intro n
    induction n with
    | zero =>
      intro s hs
      apply h
      intro p hp
      have := Path.parent_depth s p hp
      omega
    | succ n ih =>
      intro s hs
      apply h
      intro p hp
      have := Path.parent_depth s p hp
      exact ih p (by omega)
  exact this _ s rfl

theorem ancestors_components_prefix (s : Path) :
    ∀ a ∈ Path.ancestors s, ∃ cs, Path.components s = Path.components a ++ cs := by
  induction s using parent_induction with
  | h s ih =>
    intro a ha
    rw [Path.ancestors_eq] at ha
    cases hp : Path.parent s with
    | none =>
      rw [hp] at ha
      simp at ha; subst ha; exact ⟨[], by simp⟩
    | some p =>
      rw [hp] at ha
      rcases List.mem_cons.1 ha with h | h
      · subst h; exact ⟨[], by simp⟩
      · obtain ⟨cs, hcs⟩ := ih p hp a h
        obtain ⟨c, hc⟩ := parent_components s p hp
        exact ⟨cs ++ [c], by rw [hc, hcs]; simp⟩

theorem ancestors_pairwise (s : Path) :
    (Path.ancestors s).Pairwise fun a b => (Path.components b).length < (Path.components a).length := by
  induction s using parent_induction with
  | h s ih =>
    rw [Path.ancestors_eq]
    cases hp : Path.parent s with
    | none => simp
    | some p =>
      refine List.Pairwise.cons ?_ (ih p hp)
      intro a ha
      obtain ⟨cs, hcs⟩ := ancestors_components_prefix p a ha
      obtain ⟨c, hc⟩ := parent_components s p hp
      rw [hc, hcs]; simp

/-- The directories searched are pairwise different, even component-wise. -/
theorem pendingDirs_distinct (cwd : Path) (home : Option Path) :
    (pendingDirs (Path.ancestors cwd) home).Pairwise fun a b => Path.components a ≠ Path.components b := by
  have hcargo : ∀ a, Path.components (Path.join a ".cargo".toList)
      = Path.components a ++ [.normal ".cargo".toList] :=
    fun a => Path.components_join a _ simple_dotcargo
  unfold pendingDirs
  rw [List.pairwise_append]
  refine ⟨?_, ?_, ?_⟩
  · rw [List.pairwise_map]
    apply (ancestors_pairwise cwd).imp
    intro a b hlt heq
    rw [hcargo, hcargo] at heq
    have := congrArg List.length heq
    simp at this; omega
  · cases remainingHome (Path.ancestors cwd) home <;> simp
  · intro d hd h hh
    obtain ⟨a, ha, rfl⟩ := List.mem_map.1 hd
    unfold remainingHome at hh
    cases home with
    | none => simp at hh
    | some hm =>
      simp only [Option.filter] at hh
      split at hh
      · rename_i hc
        simp at hh
        subst hh
        simp only [Bool.not_eq_true', List.any_eq_false] at hc
        intro heq
        exact hc a ha ((Path.eqv_iff _ _).2 heq.symm)
      · simp at hh

end CC
