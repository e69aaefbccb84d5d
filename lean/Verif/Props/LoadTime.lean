import Verif.Lemmas.LoadTime
import Verif.Props.Load
/-
Loading while files are created, changed or removed: C76.  The file system of these theorems may answer differently at every access.
-/
namespace CC

/-- C76: a load looks at the config files of the directories in order of precedence.  In each directory it looks for `config`, then, if
that is not there, for `config.toml`; a file that is found is read at once, before anything else is looked at; every answer is that of its
own moment.  A load that fails does so right after reading a file; one that succeeds has been to all the directories. -/
theorem C76_accesses (fs : ChangingFs) (parse : Str → Res Config) (cwd : Path) (home : Option Path) :
    ∃ dirs rest, SearchDirs cwd home dirs ∧ Searches dirs ((loadConfigT fs parse cwd home).2 ++ rest) ∧
      Truthful fs (loadConfigT fs parse cwd home).2 ∧
      (∀ c, (loadConfigT fs parse cwd home).1 = .ok c → rest = []) ∧
      ((∀ c, (loadConfigT fs parse cwd home).1 ≠ .ok c) → ∃ m f, (loadConfigT fs parse cwd home).2 = m ++ [.read f]) := by
  obtain ⟨rest, h1, h2, h3, h4, -⟩ := loadConfigT_log fs parse cwd home
  exact ⟨_, rest, pendingDirs_searchDirs cwd home, h1, h4, h2, h3⟩

/-- C76: no path is looked for twice and no file is read twice, not even in another spelling. -/
theorem C76_once (fs : ChangingFs) (parse : Str → Res Config) (cwd : Path) (home : Option Path) :
    ((loadConfigT fs parse cwd home).2.filterMap FsEvent.tested).Pairwise (fun a b => Path.components a ≠ Path.components b) ∧
    ((loadConfigT fs parse cwd home).2.filterMap FsEvent.file).Pairwise (fun a b => Path.components a ≠ Path.components b) :=
  loadConfigT_distinct fs parse cwd home

theorem loadConfigT_log_ne_nil (fs : ChangingFs) (parse : Str → Res Config) (cwd : Path) (home : Option Path) :
    (loadConfigT fs parse cwd home).2 ≠ [] := by
  obtain ⟨rest, h1, h2, h3, -, -⟩ := loadConfigT_log fs parse cwd home
  intro hnil
  by_cases hok : ∃ c, (loadConfigT fs parse cwd home).1 = .ok c
  · obtain ⟨c, hc⟩ := hok
    rw [hnil, h2 c hc] at h1
    have : pendingDirs (Path.ancestors cwd) home ≠ [] := by
      unfold pendingDirs Path.ancestors Path.ancestorsFuel
      simp
    generalize pendingDirs (Path.ancestors cwd) home = ds at *
    generalize he : ([] ++ [] : List FsEvent) = l at h1
    cases h1 with
    | nil => exact this rfl
    | config => cases he
    | toml => cases he
    | nothing => cases he
  · obtain ⟨m, f, h⟩ := h3 (fun c hc => hok ⟨c, hc⟩)
    rw [hnil] at h
    simp at h

/-- C76: whatever happens to the files meanwhile, the outcome of a load is that of a load from some fixed file system, each of whose
answers was true at some moment of the load.  So everything proved of loads from a fixed file system (C01-C12, C66) holds of this one. -/
theorem C76_snapshot (fs : ChangingFs) (parse : Str → Res Config) (cwd : Path) (home : Option Path) :
    ∃ fs0, SeenWithin fs (loadConfigT fs parse cwd home).2.length fs0 ∧
      (loadConfigT fs parse cwd home).1 = loadConfig fs0 parse cwd home := by
  obtain ⟨-, -, -, -, h4, h5⟩ := loadConfigT_log fs parse cwd home
  obtain ⟨ht, hf⟩ := loadConfigT_distinct fs parse cwd home
  obtain ⟨fs0, h1, h2⟩ := exists_agreeing fs _ (loadConfigT_log_ne_nil fs parse cwd home) h4 ht hf
  exact ⟨fs0, h1, h5 fs0 h2⟩

/-- C76: the same for the loads of the easy API (`easy::Config::load_with_options`; `load` and `load_with_cwd` have default options). -/
theorem C76_easy (p : ProcEnv) (fs : ChangingFs) (parse : Str → Res Config) (cwd : Path) (o : Options) :
    ∃ fs0, SeenWithin fs (EConfig.loadWithOptionsT p fs parse cwd o).2.length fs0 ∧
      (EConfig.loadWithOptionsT p fs parse cwd o).1 = EConfig.loadWithOptions p fs0 parse cwd o := by
  simp only [EConfig.loadWithOptionsT, EConfig.loadWithOptions]
  obtain ⟨fs0, h1, h2⟩ := C76_snapshot fs parse (o.intoContext p cwd).1.currentDir ((o.intoContext p cwd).2.cargoHomeOf p cwd).1
  exact ⟨fs0, h1, by rw [h2]⟩

/-- C76: if the files do not change, the outcome is that of a load from the fixed file system. -/
theorem C76_still (fs : Fs) (parse : Str → Res Config) (cwd : Path) (home : Option Path) :
    (loadConfigT fs.still parse cwd home).1 = loadConfig fs parse cwd home := by
  obtain ⟨fs0, ⟨h1, h2⟩, h3⟩ := C76_snapshot fs.still parse cwd home
  have : fs0 = fs := by
    obtain ⟨ex0, read0⟩ := fs0
    have e1 : ex0 = fs.ex := funext fun p => (h1 p).choose_spec.2
    have e2 : read0 = fs.read := funext fun p => (h2 p).choose_spec.2
    rw [e1, e2]
  rw [h3, this]

/-! The nearest file of the sample world disappears after it is read; only then the other one is created. -/

def sampleChanging : ChangingFs :=
  { ex := fun t p => if t < 2 then p = "/w/p/.cargo/config".toList else p = "/w/.cargo/config.toml".toList
    read := fun _ => sampleFs.read }

example : (loadConfigT sampleChanging sampleParse "/w/p".toList (some "/w/.cargo".toList)).2 =
    [.test "/w/p/.cargo/config".toList true, .read "/w/p/.cargo/config".toList,
     .test "/w/.cargo/config".toList false, .test "/w/.cargo/config.toml".toList true, .read "/w/.cargo/config.toml".toList,
     .test "/.cargo/config".toList false, .test "/.cargo/config.toml".toList false] := by decide +kernel
/-- The file found at first is gone when it is read. -/
example : (loadConfigT { sampleChanging with read := fun t p => if t < 1 then sampleFs.read p else .err (.io []) } sampleParse
    "/w/p".toList none).1.isErr = true ∧
    (loadConfigT { sampleChanging with read := fun t p => if t < 1 then sampleFs.read p else .err (.io []) } sampleParse
    "/w/p".toList none).2 = [.test "/w/p/.cargo/config".toList true, .read "/w/p/.cargo/config".toList] := by
  constructor <;> decide +kernel

/-- C76: a load is not atomic: its outcome need not be that of a load from the files of any one moment. -/
theorem C76_not_atomic : ∃ (fs : ChangingFs) (parse : Str → Res Config) (cwd : Path) (c : Config),
    (loadConfigT fs parse cwd none).1 = .ok c ∧ ∀ t, loadConfig ⟨fs.ex t, fs.read t⟩ parse cwd none ≠ .ok c := by
  have hboth : (loadConfigT sampleChanging sampleParse "/w/p".toList none).1.toOption.map
      (fun c => (c.build.rustflags.map (·.flags.length), c.build.rustc.isSome)) = some (some 3, true) := by decide +kernel
  cases hr : (loadConfigT sampleChanging sampleParse "/w/p".toList none).1 with
  | err e => rw [hr] at hboth; cases hboth
  | panic => rw [hr] at hboth; cases hboth
  | ok c =>
    refine ⟨sampleChanging, sampleParse, "/w/p".toList, c, hr, ?_⟩
    intro t ht
    rw [hr] at hboth
    have hb : (c.build.rustflags.map (·.flags.length), c.build.rustc.isSome) = (some 3, true) := by
      simpa [Res.toOption] using hboth
    by_cases hlt : t < 2
    · have e : (⟨sampleChanging.ex t, sampleChanging.read t⟩ : Fs) = ⟨fun p => p = "/w/p/.cargo/config".toList, sampleFs.read⟩ := by
        simp only [sampleChanging, hlt, if_true]
      rw [e] at ht
      have : (loadConfig ⟨fun p => p = "/w/p/.cargo/config".toList, sampleFs.read⟩ sampleParse "/w/p".toList none).toOption.map
        (fun c => (c.build.rustflags.map (·.flags.length), c.build.rustc.isSome)) = some (some 1, false) := by decide +kernel
      rw [ht] at this
      simp only [Res.toOption, Option.map_some, hb] at this
      cases this
    · have e : (⟨sampleChanging.ex t, sampleChanging.read t⟩ : Fs) = ⟨fun p => p = "/w/.cargo/config.toml".toList, sampleFs.read⟩ := by
        simp only [sampleChanging, hlt, if_false]
      rw [e] at ht
      have : (loadConfig ⟨fun p => p = "/w/.cargo/config.toml".toList, sampleFs.read⟩ sampleParse "/w/p".toList none).toOption.map
        (fun c => (c.build.rustflags.map (·.flags.length), c.build.rustc.isSome)) = some (some 2, true) := by decide +kernel
      rw [ht] at this
      simp only [Res.toOption, Option.map_some, hb] at this
      cases this

/-- The statements about the load of the sample. -/
example : ((loadConfigT sampleChanging sampleParse "/w/p".toList (some "/w/.cargo".toList)).2.filterMap FsEvent.file).Pairwise
    (fun a b => Path.components a ≠ Path.components b) := (C76_once _ _ _ _).2

example : ∃ fs0, SeenWithin sampleChanging 7 fs0 ∧
    (loadConfigT sampleChanging sampleParse "/w/p".toList (some "/w/.cargo".toList)).1 =
      loadConfig fs0 sampleParse "/w/p".toList (some "/w/.cargo".toList) := by
  obtain ⟨fs0, h1, h2⟩ := C76_snapshot sampleChanging sampleParse "/w/p".toList (some "/w/.cargo".toList)
  refine ⟨fs0, ?_, h2⟩
  rw [show (7 : Nat) = (loadConfigT sampleChanging sampleParse "/w/p".toList (some "/w/.cargo".toList)).2.length by decide +kernel]
  exact h1

end CC
