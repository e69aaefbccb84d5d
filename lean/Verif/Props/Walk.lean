import Verif.Lemmas.Walk
/-
C01, C02, C03: the search for config files.
-/
namespace CC

/-- C01: the paths produced by a walk are the config files of the search directories, in order. -/
theorem C01_walk (ex : Path → Bool) (cwd : Path) (home : Option Path) :
    ∃ dirs, SearchDirs cwd home dirs ∧ ConfigsOf ex dirs (walk ex cwd home) :=
  ⟨_, pendingDirs_searchDirs cwd home, by rw [walk_eq]; exact configsOf_filterMap ex _⟩

/-- The specification of C01 determines the result: there is only one such list. -/
theorem C01_spec_functional (ex : Path → Bool) (cwd : Path) (home : Option Path) (d1 d2 f1 f2 : List Path)
    (h1 : SearchDirs cwd home d1) (h2 : SearchDirs cwd home d2)
    (g1 : ConfigsOf ex d1 f1) (g2 : ConfigsOf ex d2 f2) : f1 = f2 := by
  have hd : d1 = d2 := by
    unfold SearchDirs at h1 h2
    cases home with
    | none => simp only at h1 h2; rw [h1, h2]
    | some h =>
      simp only at h1 h2
      rcases h1 with ⟨⟨d, hd, he⟩, h1⟩ | ⟨hn, h1⟩ <;> rcases h2 with ⟨⟨d', hd', he'⟩, h2⟩ | ⟨hn', h2⟩
      · rw [h1, h2]
      · exact absurd he (hn' d hd)
      · exact absurd he' (hn d' hd')
      · rw [h1, h2]
  subst hd
  have fn : ∀ d f f', IsConfigOf ex d f → IsConfigOf ex d f' → f = f' := by
    intro d f f' a b
    rw [← configPath_some] at a b
    rw [a] at b; injection b
  clear h1 h2
  induction g1 generalizing f2 with
  | nil => cases g2; rfl
  | found hf _ ih =>
    cases g2 with
    | found hf' hr => rw [fn _ _ _ hf hf', ih _ hr]
    | missing hm _ => exact absurd hf (hm _)
  | missing hm _ ih =>
    cases g2 with
    | found hf' _ => exact absurd hf' (hm _)
    | missing _ hr => exact ih _ hr

/-- The directories visited, spelled out: the components of the ancestors of a directory are exactly its prefixes,
longest first, down to the root (absolute) or the empty path (relative). -/
theorem C01_ancestors (cwd : Path) :
    (Path.ancestors cwd).map Path.components
      = ((List.range (Path.depth cwd + 1)).map fun i =>
          (Path.components cwd).take ((Path.components cwd).length - i)) := by
  induction cwd using parent_induction with
  | h s ih =>
    rw [Path.ancestors_eq]
    cases hp : Path.parent s with
    | none =>
      have hd : Path.depth s = 0 := by
        rcases List.eq_nil_or_concat (Path.kept s) with hk | ⟨ks, k, hk⟩
        · rw [Path.parent_of_kept_nil s hk] at hp
          unfold Path.depth
          split at hp
          · cases hp
          · rename_i hl; simp [hk, hl]
        · obtain ⟨p', h1, _⟩ := Path.parent_of_kept s ks k (by simpa using hk)
          rw [h1] at hp; cases hp
      simp [hd]
    | some p =>
      obtain ⟨c, hc⟩ := parent_components s p hp
      have hd := Path.parent_depth s p hp
      simp only [List.map_cons, ih p hp]
      have hr : List.range (Path.depth p + 1 + 1) = 0 :: (List.range (Path.depth p + 1)).map Nat.succ :=
        List.range_succ_eq_map
      rw [hd, hr, List.map_cons, List.map_map]
      congr 1
      · simp
      · apply List.map_congr_left
        intro i _
        simp only [Function.comp, Nat.succ_eq_add_one]
        rw [hc]
        simp only [List.length_append, List.length_cons, List.length_nil]
        rw [List.take_append_of_le_length (by omega)]
        congr 1
        omega

/-- For an absolute directory the last one visited is the root; otherwise it is the empty path. -/
theorem C01_depth (cwd : Path) :
    Path.depth cwd + 1 = (Path.components cwd).length + (if Path.isAbsolute cwd then 0 else 1) := by
  unfold Path.depth Path.components
  simp only [List.length_append, List.length_map]
  by_cases ha : Path.isAbsolute cwd = true
  · simp [Path.lead, ha]; omega
  · by_cases hh : (splitOn '/' cwd).head? = some ['.']
    · simp [Path.lead, ha, hh]; omega
    · simp [Path.lead, ha, hh]

/-- C01: once the iterator has returned `None` it returns `None` forever, whatever happens to the file system. -/
theorem C01_exhausted (ex : Path → Bool) (st st' : WalkState) (h : st.next ex = (none, st')) :
    ∀ ex', st'.next ex' = (none, st') := by
  obtain ⟨as, home⟩ := st
  have key : ∀ (as : List Path) (home : Option Path),
      walkNext ex as home = (none, st') → st' = ⟨[], none⟩ := by
    intro as
    induction as with
    | nil =>
      intro home h
      cases home with
      | none => simp only [walkNext, Prod.mk.injEq, true_and] at h; exact h.symm
      | some hm => simp only [walkNext, Prod.mk.injEq] at h; exact h.2.symm
    | cons a as ih =>
      intro home h
      simp only [walkNext] at h
      split at h
      · simp at h
      · exact ih _ h
  intro ex'
  rw [key as home h]
  rfl

/-- C02: whatever the state of the iterator and the file system at the time of the call, a produced path
is the config file of some directory: it exists, is `config` or `config.toml` in it, and is `config.toml` only if there is no `config`. -/
theorem C02_next (ex : Path → Bool) (st st' : WalkState) (f : Path) (h : st.next ex = (some f, st')) :
    ∃ d, ex f = true ∧
      (f = Path.join d "config".toList ∨
        (f = Path.join d "config.toml".toList ∧ ex (Path.join d "config".toList) = false)) ∧
      (Path.fileName f = some "config".toList ∨ Path.fileName f = some "config.toml".toList) := by
  have key : ∀ (as : List Path) (home : Option Path),
      walkNext ex as home = (some f, st') → ∃ d, IsConfigOf ex d f := by
    intro as
    induction as with
    | nil =>
      intro home h
      cases home with
      | none => simp [walkNext] at h
      | some hm =>
        simp only [walkNext, Prod.mk.injEq] at h
        exact ⟨hm, configPath_some.1 h.1⟩
    | cons a as ih =>
      intro home h
      simp only [walkNext] at h
      split at h
      · rename_i f' hc
        simp only [Prod.mk.injEq, Option.some.injEq] at h
        rw [← h.1]
        exact ⟨_, configPath_some.1 hc⟩
      · exact ih _ h
  obtain ⟨d, hd⟩ := key st.ancestors st.cargoHome h
  have name : ∀ x, Path.Simple x → Path.fileName (Path.join d x) = some x := by
    intro x hx
    unfold Path.fileName
    rw [Path.kept_join _ _ hx.notAbs, hx.kept]
    simp only [List.getLast?_append, List.getLast?_singleton, Option.some_or]
    rw [if_neg hx.2.2]
  rcases hd with ⟨h1, h2⟩ | ⟨h1, h2, h3⟩
  · exact ⟨d, h2, .inl h1, .inl (by rw [h1]; exact name _ simple_config)⟩
  · exact ⟨d, h2, .inr ⟨h1, h3⟩, .inr (by rw [h1]; exact name _ simple_configtoml)⟩

/-- C02: of one directory at most one file is produced: `config` and `config.toml` never both appear in a walk. -/
theorem C02_not_both (ex : Path → Bool) (cwd : Path) (home : Option Path) (d : Path)
    (h1 : Path.join d "config".toList ∈ walk ex cwd home)
    (hex : ∀ a b, Path.components a = Path.components b → ex a = ex b) :
    Path.join d "config.toml".toList ∉ walk ex cwd home := by
  rw [walk_eq] at *
  intro h2
  obtain ⟨d1, _, hc1⟩ := List.mem_filterMap.1 h1
  obtain ⟨d2, _, hc2⟩ := List.mem_filterMap.1 h2
  rw [configPath_some] at hc1 hc2
  have hex1 : ex (Path.join d "config".toList) = true := by
    rcases hc1 with ⟨_, h⟩ | ⟨_, h, _⟩ <;> exact h
  rcases hc2 with ⟨h, _⟩ | ⟨h, _, h3⟩
  · have := congrArg Path.components h
    rw [Path.components_join _ _ simple_config, Path.components_join _ _ simple_configtoml] at this
    have := (List.append_inj' this rfl).2
    simp at this
  · have := congrArg Path.components h
    rw [Path.components_join _ _ simple_configtoml, Path.components_join _ _ simple_configtoml] at this
    have hd := (List.append_inj' this rfl).1
    have : ex (Path.join d "config".toList) = ex (Path.join d2 "config".toList) := by
      apply hex
      rw [Path.components_join _ _ simple_config, Path.components_join _ _ simple_config, hd]
    rw [hex1, h3] at this; cases this

/-- C03: the paths produced by one walk are pairwise different, even component-wise. -/
theorem C03_no_duplicates (ex : Path → Bool) (cwd : Path) (home : Option Path) :
    (walk ex cwd home).Pairwise fun a b => Path.components a ≠ Path.components b := by
  rw [walk_eq, List.pairwise_filterMap]
  have hpair := pendingDirs_distinct cwd home
  apply hpair.imp
  intro a b hab f hf g hg heq
  rw [configPath_some] at hf hg
  obtain ⟨c1, h1⟩ := isConfigOf_components hf
  obtain ⟨c2, h2⟩ := isConfigOf_components hg
  rw [h1, h2] at heq
  exact hab (List.append_inj' heq rfl).1

-- a concrete walk: `/a/b/c` with CARGO_HOME=`/a/./.cargo/` (another spelling of an ancestor's directory)
def exampleFs (p : Path) : Bool :=
  p == "/a/b/c/.cargo/config.toml".toList || p == "/a/.cargo/config".toList || p == "/a/.cargo/config.toml".toList
example : walk exampleFs "/a/b/c".toList (some "/a/./.cargo/".toList)
    = ["/a/b/c/.cargo/config.toml".toList, "/a/.cargo/config".toList] := by decide
example : (WalkState.new "/a".toList none).next (fun _ => false) = (none, ⟨[], none⟩) := by decide

/-- A file system as in `C02_not_both`: all spellings of a path are the same.  Both files exist, `config` is found. -/
def spelledFs (p : Path) : Bool :=
  Path.components p == Path.components "/a/.cargo/config".toList || Path.components p == Path.components "/a/.cargo/config.toml".toList
example : (∀ a b, Path.components a = Path.components b → spelledFs a = spelledFs b) ∧
    spelledFs (Path.join "/a/.cargo".toList "config.toml".toList) = true ∧
    Path.join "/a/.cargo".toList "config".toList ∈ walk spelledFs "/a/b".toList none :=
  ⟨fun a b h => by unfold spelledFs; rw [h], by decide, by decide⟩
/-- A state of the iterator as in `C02_next`. -/
example : (WalkState.new "/a/b".toList none).next exampleFs = (some "/a/.cargo/config".toList, ⟨["/".toList], none⟩) := by decide

/-- C01 applied: the search directories of a walk from `/a/b` with a home inside the path. -/
example : walk (fun _ => true) "/a/b".toList (some "/a/.cargo".toList) =
    ["/a/b/.cargo/config".toList, "/a/.cargo/config".toList, "/.cargo/config".toList] := by decide +kernel

end CC
