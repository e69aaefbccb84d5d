import Verif.Spec.LoadTime
import Verif.Lemmas.Walk
/-
Loading from a file system that may change.
-/
namespace CC

variable {fs : ChangingFs} {fs0 : Fs} {parse : Str → Res Config} {l l' : List FsEvent} {p d : Path}

/-- The fixed file system gives the answers of the accesses in the list. -/
def Agrees (fs : ChangingFs) (fs0 : Fs) (l : List FsEvent) : Prop :=
  (∀ (i : Nat) (p : Path) (b : Bool), l[i]? = some (FsEvent.test p b) → fs0.ex p = b) ∧ (∀ (i : Nat) (p : Path), l[i]? = some (FsEvent.read p) → fs0.read p = fs.read i p)

theorem getElem?_prefix {α : Type} {l m : List α} {i : Nat} {x : α} (h : l[i]? = some x) : (l ++ m)[i]? = some x := by
  rw [List.getElem?_append_left]
  · exact h
  · exact (List.getElem?_eq_some_iff.1 h).1

theorem Agrees.of_append {m : List FsEvent} (h : Agrees fs fs0 (l ++ m)) : Agrees fs fs0 l :=
  ⟨fun i p b hi => h.1 i p b (getElem?_prefix hi), fun i p hi => h.2 i p (getElem?_prefix hi)⟩

theorem Agrees.test {b : Bool} {m : List FsEvent} (h : Agrees fs fs0 (l ++ FsEvent.test p b :: m)) : fs0.ex p = b :=
  h.1 l.length p b (by simp)

theorem Agrees.read {m : List FsEvent} (h : Agrees fs fs0 (l ++ FsEvent.read p :: m)) : fs0.read p = fs.read l.length p :=
  h.2 l.length p (by simp)

/-- The accesses of the search in one directory, with its result. -/
inductive SearchOne (d : Path) : Option Path → List FsEvent → Prop where
  | config : SearchOne d (some (Path.join d "config".toList)) [.test (Path.join d "config".toList) true]
  | toml : SearchOne d (some (Path.join d "config.toml".toList))
      [.test (Path.join d "config".toList) false, .test (Path.join d "config.toml".toList) true]
  | nothing : SearchOne d none [.test (Path.join d "config".toList) false, .test (Path.join d "config.toml".toList) false]

theorem configPathT_spec (fs : ChangingFs) (d : Path) (l : List FsEvent) :
    ∃ new, SearchOne d (configPathT fs d l).1 new ∧ (configPathT fs d l).2 = l ++ new ∧
      (Truthful fs l → Truthful fs (l ++ new)) ∧
      ∀ fs0, Agrees fs fs0 (l ++ new) → (configPathT fs d l).1 = configPath fs0.ex d := by
  unfold configPathT configPath testT
  generalize hc : Path.join d "config".toList = c
  generalize ht : Path.join d "config.toml".toList = t
  have tr : ∀ {m : List FsEvent} {q : Path}, Truthful fs m → Truthful fs (m ++ [.test q (fs.ex m.length q)]) := by
    intro m q h i p b hi
    rcases Nat.lt_trichotomy i m.length with hl | rfl | hl
    · rw [List.getElem?_append_left hl] at hi
      exact h i p b hi
    · rw [List.getElem?_append_right (Nat.le_refl _)] at hi
      simp only [Nat.sub_self, List.getElem?_cons_zero, Option.some.injEq, FsEvent.test.injEq] at hi
      obtain ⟨rfl, rfl⟩ := hi
      rfl
    · rw [List.getElem?_append_right (by omega)] at hi
      rw [List.getElem?_eq_none (by simp; omega)] at hi
      cases hi
  cases h1 : fs.ex l.length c with
  | true =>
    simp only [h1]
    refine ⟨[.test c true], ?_, rfl, ?_, ?_⟩
    · subst hc; exact .config
    · intro h; have := tr (q := c) h; rwa [h1] at this
    · intro fs0 h
      have := h.test
      simp only [this, if_true]
  | false =>
    simp only [h1]
    cases h2 : fs.ex (l ++ [FsEvent.test c false]).length t with
    | true =>
      simp only [h2]
      refine ⟨[.test c false, .test t true], ?_, by simp, ?_, ?_⟩
      · subst hc ht; exact .toml
      · intro h
        have := tr (q := c) h
        rw [h1] at this
        have := tr (q := t) this
        rw [h2] at this
        simpa using this
      · intro fs0 h
        have e1 := h.test
        have h' : Agrees fs fs0 ((l ++ [.test c false]) ++ [.test t true]) := by simpa using h
        have e2 := h'.test
        simp only [e1, e2, if_true, Bool.false_eq_true, if_false]
    | false =>
      simp only [h2]
      refine ⟨[.test c false, .test t false], ?_, by simp, ?_, ?_⟩
      · subst hc ht; exact .nothing
      · intro h
        have := tr (q := c) h
        rw [h1] at this
        have := tr (q := t) this
        rw [h2] at this
        simpa using this
      · intro fs0 h
        have e1 := h.test
        have h' : Agrees fs fs0 ((l ++ [.test c false]) ++ [.test t false]) := by simpa using h
        have e2 := h'.test
        simp only [e1, e2, Bool.false_eq_true, if_false]

theorem truthful_read (h : Truthful fs l) : Truthful fs (l ++ [.read p]) := by
  intro i q b hi
  rcases Nat.lt_trichotomy i l.length with hl | rfl | hl
  · rw [List.getElem?_append_left hl] at hi
    exact h i q b hi
  · rw [List.getElem?_append_right (Nat.le_refl _)] at hi
    simp at hi
  · rw [List.getElem?_eq_none (by simp; omega)] at hi
    cases hi

theorem searches_all (ds : List Path) : ∃ l, Searches ds l := by
  induction ds with
  | nil => exact ⟨_, .nil⟩
  | cons d ds ih => exact ⟨_, .nothing ih.choose_spec⟩

theorem SearchOne.found {f : Path} {new m : List FsEvent} {ds : List Path} (h : SearchOne d (some f) new) (hs : Searches ds m) :
    Searches (d :: ds) (new ++ .read f :: m) := by
  cases h with
  | config => exact .config hs
  | toml => exact .toml hs

theorem SearchOne.missing {new m : List FsEvent} {ds : List Path} (h : SearchOne d none new) (hs : Searches ds m) :
    Searches (d :: ds) (new ++ m) := by
  cases h with
  | nothing => exact .nothing hs

/-- What is shown of a load from some state of the walk: the accesses are those of a search of the directories that are left, up to a
file that makes it fail; and the result is that of any fixed file system that gives the same answers. -/
structure LoopGood (fs : ChangingFs) (parse : Str → Res Config) (n : Nat) (st : WalkState) (base : Option (Path × Config))
    (l : List FsEvent) (x : Res (Option (Path × Config)) × List FsEvent) : Prop where
  log : ∃ new rest, x.2 = l ++ new ∧ Searches (pendingDirs st.ancestors st.cargoHome) (new ++ rest) ∧
    (∀ a, x.1 = .ok a → rest = []) ∧ ((∀ a, x.1 ≠ .ok a) → ∃ m f, new = m ++ [.read f])
  truthful : Truthful fs l → Truthful fs x.2
  same : ∀ fs0, Agrees fs fs0 x.2 → x.1 = loadLoop fs0 parse (WalkState.collect fs0.ex n st) base

theorem pendingDirs_cons (a : Path) (as : List Path) (home : Option Path) :
    pendingDirs (a :: as) home = Path.join a ".cargo".toList :: pendingDirs as (dedupHome (Path.join a ".cargo".toList) home) := by
  unfold pendingDirs
  rw [remainingHome_cons]
  rfl

/-- A file was found: the rest of the loop. -/
def afterFound (fs : ChangingFs) (parse : Str → Res Config) (n : Nat) (path : Path) (st : WalkState) (base : Option (Path × Config))
    (l : List FsEvent) : Res (Option (Path × Config)) × List FsEvent :=
  match loadFileT fs parse path l with
  | (.err e, l) => (.err e, l)
  | (.panic, l) => (.panic, l)
  | (.ok config, l) =>
    match base with
    | none => loadLoopT fs parse n st (some (path, config)) l
    | some (basePath, b) =>
      match (mergeConfig b config false).withContext "failed to merge config from `{}` into `{}`".toList
        [path, basePath] [] with
      | .err e => (.err e, l)
      | .panic => (.panic, l)
      | .ok b => loadLoopT fs parse n st (some (basePath, b)) l

theorem loadLoopT_succ (fs : ChangingFs) (parse : Str → Res Config) (n : Nat) (st : WalkState) (base : Option (Path × Config))
    (l : List FsEvent) : loadLoopT fs parse (n + 1) st base l =
      match walkNextT fs st.ancestors st.cargoHome l with
      | ((none, _), l) => (.ok base, l)
      | ((some path, st), l) => afterFound fs parse n path st base l := rfl

/-- The rest of the loop after the file `f` was found in `d` by the accesses `new0`. -/
theorem afterFound_good {n : Nat} {f : Path} {st : WalkState} {base : Option (Path × Config)}
    {new0 : List FsEvent} {ds0 : List Path}
    (hone : SearchOne d (some f) new0) (hds : ds0 = d :: pendingDirs st.ancestors st.cargoHome)
    (htr : Truthful fs l → Truthful fs (l ++ new0))
    (ih : ∀ base l, LoopGood fs parse n st base l (loadLoopT fs parse n st base l)) :
    (∃ new rest, (afterFound fs parse n f st base (l ++ new0)).2 = l ++ new ∧ Searches ds0 (new ++ rest) ∧
      (∀ a, (afterFound fs parse n f st base (l ++ new0)).1 = .ok a → rest = []) ∧
      ((∀ a, (afterFound fs parse n f st base (l ++ new0)).1 ≠ .ok a) → ∃ m f, new = m ++ [.read f])) ∧
    (Truthful fs l → Truthful fs (afterFound fs parse n f st base (l ++ new0)).2) ∧
    (∃ m, (afterFound fs parse n f st base (l ++ new0)).2 = l ++ new0 ++ m) ∧
    ∀ fs0, Agrees fs fs0 (afterFound fs parse n f st base (l ++ new0)).2 →
      (afterFound fs parse n f st base (l ++ new0)).1 = loadLoop fs0 parse (f :: WalkState.collect fs0.ex n st) base := by
  subst hds
  have stop : ∀ {x : Res (Option (Path × Config)) × List FsEvent}, x.2 = l ++ new0 ++ [.read f] → (∀ a, x.1 ≠ .ok a) →
      (∃ new rest, x.2 = l ++ new ∧ Searches (d :: pendingDirs st.ancestors st.cargoHome) (new ++ rest) ∧
        (∀ a, x.1 = .ok a → rest = []) ∧ ((∀ a, x.1 ≠ .ok a) → ∃ m f, new = m ++ [.read f])) ∧
      (Truthful fs l → Truthful fs x.2) ∧ (∃ m, x.2 = l ++ new0 ++ m) := by
    intro x hx hn
    obtain ⟨rest, hr⟩ := searches_all (pendingDirs st.ancestors st.cargoHome)
    refine ⟨⟨new0 ++ [.read f], rest, by rw [hx, List.append_assoc], ?_, fun a h => absurd h (hn a), fun _ => ⟨_, _, rfl⟩⟩, ?_, ?_⟩
    · have := hone.found hr
      simpa using this
    · intro h
      rw [hx]
      exact truthful_read (htr h)
    · exact ⟨_, hx⟩
  have go : ∀ {base' : Option (Path × Config)} {x : Res (Option (Path × Config)) × List FsEvent},
      x = loadLoopT fs parse n st base' (l ++ new0 ++ [.read f]) →
      (∃ new rest, x.2 = l ++ new ∧ Searches (d :: pendingDirs st.ancestors st.cargoHome) (new ++ rest) ∧
        (∀ a, x.1 = .ok a → rest = []) ∧ ((∀ a, x.1 ≠ .ok a) → ∃ m f, new = m ++ [.read f])) ∧
      (Truthful fs l → Truthful fs x.2) ∧ (∃ m, x.2 = l ++ new0 ++ m) := by
    rintro base' x rfl
    obtain ⟨⟨new, rest, h1, h2, h3, h4⟩, h5, -⟩ := ih base' (l ++ new0 ++ [.read f])
    refine ⟨⟨new0 ++ .read f :: new, rest, by rw [h1]; simp, ?_, h3, ?_⟩, ?_, ?_⟩
    · have := hone.found h2
      simpa using this
    · intro h
      obtain ⟨m, g, hm⟩ := h4 h
      exact ⟨new0 ++ .read f :: m, g, by rw [hm]; simp⟩
    · intro h
      exact h5 (truthful_read (htr h))
    · exact ⟨.read f :: new, by rw [h1]; simp⟩
  -- what a fixed file system does with the file
  have fileEq : ∀ {fs0 m}, Agrees fs fs0 (l ++ new0 ++ .read f :: m) → loadFile fs0 parse f = (loadFileT fs parse f (l ++ new0)).1 := by
    intro fs0 m h
    have := h.read
    unfold loadFile loadFileT
    rw [this]
  have hlog : (loadFileT fs parse f (l ++ new0)).2 = l ++ new0 ++ [.read f] := rfl
  unfold afterFound
  cases hr : loadFileT fs parse f (l ++ new0) with
  | mk r lg =>
    rw [hr] at hlog
    simp only at hlog
    subst hlog
    cases r with
    | err e =>
      obtain ⟨a, b, c⟩ := stop (x := (.err e, l ++ new0 ++ [.read f])) rfl (by intro a h; cases h)
      refine ⟨a, b, c, ?_⟩
      intro fs0 h
      have := fileEq h
      rw [hr] at this
      unfold loadLoop
      rw [this]
      rfl
    | panic =>
      obtain ⟨a, b, c⟩ := stop (x := (.panic, l ++ new0 ++ [.read f])) rfl (by intro a h; cases h)
      refine ⟨a, b, c, ?_⟩
      intro fs0 h
      have := fileEq h
      rw [hr] at this
      unfold loadLoop
      rw [this]
      rfl
    | ok config =>
      simp only
      cases base with
      | none =>
        simp only
        obtain ⟨a, b, c⟩ := go (base' := some (f, config)) rfl
        refine ⟨a, b, c, ?_⟩
        intro fs0 h
        have hk := (ih (some (f, config)) (l ++ new0 ++ [.read f])).same fs0 h
        obtain ⟨⟨new, rest, h1, -⟩, -, -⟩ := ih (some (f, config)) (l ++ new0 ++ [.read f])
        rw [h1, List.append_assoc] at h
        have := fileEq h
        rw [hr] at this
        rw [hk]
        unfold loadLoop
        rw [this]
        rw [show loadLoop fs0 parse = loadLoop fs0 parse from rfl]
        cases WalkState.collect fs0.ex n st <;> rfl
      | some bb =>
        obtain ⟨basePath, b0⟩ := bb
        simp only
        cases hm : (mergeConfig b0 config false).withContext "failed to merge config from `{}` into `{}`".toList [f, basePath] [] with
        | err e =>
          obtain ⟨a, b, c⟩ := stop (x := (.err e, l ++ new0 ++ [.read f])) rfl (by intro a h; cases h)
          refine ⟨a, b, c, ?_⟩
          intro fs0 h
          have := fileEq h
          rw [hr] at this
          unfold loadLoop
          rw [this]
          simp only [Res.ok_bind, hm]
          rfl
        | panic =>
          obtain ⟨a, b, c⟩ := stop (x := (.panic, l ++ new0 ++ [.read f])) rfl (by intro a h; cases h)
          refine ⟨a, b, c, ?_⟩
          intro fs0 h
          have := fileEq h
          rw [hr] at this
          unfold loadLoop
          rw [this]
          simp only [Res.ok_bind, hm]
          rfl
        | ok b1 =>
          simp only
          obtain ⟨a, b, c⟩ := go (base' := some (basePath, b1)) rfl
          refine ⟨a, b, c, ?_⟩
          intro fs0 h
          have hk := (ih (some (basePath, b1)) (l ++ new0 ++ [.read f])).same fs0 h
          obtain ⟨⟨new, rest, h1, -⟩, -, -⟩ := ih (some (basePath, b1)) (l ++ new0 ++ [.read f])
          rw [h1, List.append_assoc] at h
          have := fileEq h
          rw [hr] at this
          rw [hk]
          conv => rhs; unfold loadLoop
          rw [this]
          simp only [Res.ok_bind, hm]

theorem next_cons (ex : Path → Bool) (a : Path) (as : List Path) (home : Option Path) :
    WalkState.next ex ⟨a :: as, home⟩ = match configPath ex (Path.join a ".cargo".toList) with
      | some f => (some f, ⟨as, dedupHome (Path.join a ".cargo".toList) home⟩)
      | none => WalkState.next ex ⟨as, dedupHome (Path.join a ".cargo".toList) home⟩ := by
  simp only [WalkState.next, walkNext]
  cases configPath ex (Path.join a ".cargo".toList) <;> rfl

theorem loadLoopT_good (fs : ChangingFs) (parse : Str → Res Config) (as : List Path) (n : Nat) (home : Option Path)
    (hn : as.length + 2 ≤ n) (base : Option (Path × Config)) (l : List FsEvent) :
    LoopGood fs parse n ⟨as, home⟩ base l (loadLoopT fs parse n ⟨as, home⟩ base l) := by
  induction as generalizing n home base l with
  | nil =>
    match n, hn with
    | n + 2, _ =>
      have hend : ∀ k base l, LoopGood fs parse (k + 1) ⟨[], none⟩ base l (loadLoopT fs parse (k + 1) ⟨[], none⟩ base l) := by
        intro k base l
        exact ⟨⟨[], [], by simp [loadLoopT, walkNextT], by exact .nil, fun _ _ => rfl, fun h => absurd rfl (h base)⟩, id,
          fun fs0 _ => rfl⟩
      cases home with
      | none => exact hend (n + 1) base l
      | some h =>
        obtain ⟨new, h1, h2, h3, h4⟩ := configPathT_spec fs h l
        have hp : pendingDirs [] (some h) = [h] := by
          simp [pendingDirs, remainingHome, Option.filter]
        rw [loadLoopT_succ]
        simp only [walkNextT]
        cases hc : (configPathT fs h l).1 with
        | none =>
          rw [hc] at h1
          simp only
          rw [h2]
          refine ⟨⟨new, [], rfl, ?_, fun _ _ => rfl, fun h => absurd rfl (h base)⟩, h3, ?_⟩
          · have := h1.missing .nil
            rw [hp]
            simpa using this
          · intro fs0 ha
            have := h4 fs0 ha
            rw [hc] at this
            simp only [WalkState.collect, WalkState.next, walkNext, ← this]
            rfl
        | some f =>
          rw [hc] at h1
          simp only
          rw [h2]
          obtain ⟨a, b, ⟨m, c⟩, e⟩ := afterFound_good (ds0 := [h]) (st := ⟨[], none⟩) (base := base) (parse := parse) (n := n + 1)
            h1 rfl h3 (hend n)
          refine ⟨by rw [hp]; exact a, b, ?_⟩
          intro fs0 ha
          rw [e fs0 ha]
          rw [c] at ha
          have := h4 fs0 ha.of_append
          rw [hc] at this
          congr 1
          simp only [WalkState.collect, WalkState.next, walkNext, ← this]
  | cons a as ih =>
    match n, hn with
    | n + 1, hn =>
      have hlen : as.length + 2 ≤ n := by simp at hn; omega
      obtain ⟨new, h1, h2, h3, h4⟩ := configPathT_spec fs (Path.join a ".cargo".toList) l
      have hw : walkNextT fs (a :: as) home l = match configPathT fs (Path.join a ".cargo".toList) l with
          | (some f, l) => ((some f, ⟨as, dedupHome (Path.join a ".cargo".toList) home⟩), l)
          | (none, l) => walkNextT fs as (dedupHome (Path.join a ".cargo".toList) home) l := rfl
      cases hc : configPathT fs (Path.join a ".cargo".toList) l with
      | mk r lg =>
        rw [hc] at h1 h2 h4 hw
        simp only at h1 h2 h4
        subst h2
        cases r with
        | some f =>
          rw [loadLoopT_succ, hw]
          simp only
          obtain ⟨x1, x2, ⟨m, x3⟩, x4⟩ := afterFound_good (base := base) (parse := parse) (n := n)
            (st := ⟨as, dedupHome (Path.join a ".cargo".toList) home⟩)
            (ds0 := pendingDirs (a :: as) home) h1 (pendingDirs_cons a as home) h3 (fun base l => ih n _ hlen base l)
          refine ⟨x1, x2, ?_⟩
          intro fs0 ha
          rw [x4 fs0 ha]
          rw [x3] at ha
          have := h4 fs0 ha.of_append
          congr 1
          simp only [WalkState.collect]
          rw [next_cons, ← this]
        | none =>
          have hl : loadLoopT fs parse (n + 1) ⟨a :: as, home⟩ base l =
              loadLoopT fs parse (n + 1) ⟨as, dedupHome (Path.join a ".cargo".toList) home⟩ base (l ++ new) := by
            rw [loadLoopT_succ, loadLoopT_succ, hw]
          rw [hl]
          obtain ⟨⟨new', rest, y1, y2, y3, y4⟩, y5, y6⟩ := ih (n + 1) (dedupHome (Path.join a ".cargo".toList) home) (by omega) base (l ++ new)
          refine ⟨⟨new ++ new', rest, by rw [y1, List.append_assoc], ?_, y3, ?_⟩, fun h => y5 (h3 h), ?_⟩
          · show Searches (pendingDirs (a :: as) home) _
            rw [pendingDirs_cons, List.append_assoc]
            exact h1.missing y2
          · intro h
            obtain ⟨m, g, hm⟩ := y4 h
            exact ⟨new ++ m, g, by rw [hm]; simp⟩
          · intro fs0 ha
            rw [y6 fs0 ha]
            rw [y1] at ha
            have := h4 fs0 ha.of_append
            congr 1
            simp only [WalkState.collect]
            rw [next_cons, ← this]

/-! ### Distinct accesses -/

theorem Searches.mem_tested {ds : List Path} {l : List FsEvent} (h : Searches ds l) {p : Path} (hp : p ∈ l.filterMap FsEvent.tested) :
    ∃ d ∈ ds, ∃ x, Path.components p = Path.components d ++ [x] := by
  induction h with
  | nil => simp at hp
  | config _ ih =>
    simp only [List.filterMap_cons, FsEvent.tested, List.mem_cons] at hp
    rcases hp with rfl | hp
    · exact ⟨_, List.mem_cons_self, _, Path.components_join _ _ simple_config⟩
    · obtain ⟨d, hd, x, hx⟩ := ih hp; exact ⟨d, List.mem_cons_of_mem _ hd, x, hx⟩
  | toml _ ih =>
    simp only [List.filterMap_cons, FsEvent.tested, List.mem_cons] at hp
    rcases hp with rfl | rfl | hp
    · exact ⟨_, List.mem_cons_self, _, Path.components_join _ _ simple_config⟩
    · exact ⟨_, List.mem_cons_self, _, Path.components_join _ _ simple_configtoml⟩
    · obtain ⟨d, hd, x, hx⟩ := ih hp; exact ⟨d, List.mem_cons_of_mem _ hd, x, hx⟩
  | nothing _ ih =>
    simp only [List.filterMap_cons, FsEvent.tested, List.mem_cons] at hp
    rcases hp with rfl | rfl | hp
    · exact ⟨_, List.mem_cons_self, _, Path.components_join _ _ simple_config⟩
    · exact ⟨_, List.mem_cons_self, _, Path.components_join _ _ simple_configtoml⟩
    · obtain ⟨d, hd, x, hx⟩ := ih hp; exact ⟨d, List.mem_cons_of_mem _ hd, x, hx⟩

theorem config_ne_toml (d : Path) : Path.components (Path.join d "config".toList) ≠ Path.components (Path.join d "config.toml".toList) := by
  intro h
  rw [Path.components_join _ _ simple_config, Path.components_join _ _ simple_configtoml] at h
  have := (List.append_inj' h rfl).2
  simp at this

theorem Searches.tested_distinct {ds : List Path} {l : List FsEvent} (h : Searches ds l)
    (hd : ds.Pairwise fun a b => Path.components a ≠ Path.components b) :
    (l.filterMap FsEvent.tested).Pairwise fun a b => Path.components a ≠ Path.components b := by
  have other : ∀ {d : Path} {ds : List Path} {l : List FsEvent} {p x}, Searches ds l →
      (∀ e ∈ ds, Path.components d ≠ Path.components e) → Path.components p = Path.components d ++ [x] →
      ∀ q ∈ l.filterMap FsEvent.tested, Path.components p ≠ Path.components q := by
    intro d ds l p x hs hne hp q hq heq
    obtain ⟨e, he, y, hy⟩ := hs.mem_tested hq
    rw [hp, hy] at heq
    exact hne e he (List.append_inj' heq rfl).1
  induction h with
  | nil => simp
  | config hs ih =>
    rw [List.pairwise_cons] at hd
    simp only [List.filterMap_cons, FsEvent.tested, List.pairwise_cons]
    exact ⟨other hs hd.1 (Path.components_join _ _ simple_config), ih hd.2⟩
  | toml hs ih =>
    rw [List.pairwise_cons] at hd
    simp only [List.filterMap_cons, FsEvent.tested, List.pairwise_cons, List.mem_cons]
    refine ⟨?_, other hs hd.1 (Path.components_join _ _ simple_configtoml), ih hd.2⟩
    rintro q (rfl | hq)
    · exact config_ne_toml _
    · exact other hs hd.1 (Path.components_join _ _ simple_config) q hq
  | nothing hs ih =>
    rw [List.pairwise_cons] at hd
    simp only [List.filterMap_cons, FsEvent.tested, List.pairwise_cons, List.mem_cons]
    refine ⟨?_, other hs hd.1 (Path.components_join _ _ simple_configtoml), ih hd.2⟩
    rintro q (rfl | hq)
    · exact config_ne_toml _
    · exact other hs hd.1 (Path.components_join _ _ simple_config) q hq

/-- The files read are among the paths tested, in the same order. -/
theorem Searches.files_sublist {ds : List Path} {l : List FsEvent} (h : Searches ds l) :
    (l.filterMap FsEvent.file).Sublist (l.filterMap FsEvent.tested) := by
  induction h with
  | nil => exact List.Sublist.slnil
  | config _ ih => exact ih.cons₂ _
  | toml _ ih => exact (ih.cons₂ _).cons _
  | nothing _ ih => exact (ih.cons _).cons _

theorem unique_index {f : FsEvent → Option Path} (h : (l.filterMap f).Pairwise fun a b => Path.components a ≠ Path.components b)
    {i j : Nat} {x y : FsEvent} (hi : l[i]? = some x) (hj : l[j]? = some y) (hx : f x = some p) (hy : f y = some p) : i = j := by
  rw [List.pairwise_filterMap, List.pairwise_iff_getElem] at h
  obtain ⟨hi', rfl⟩ := List.getElem?_eq_some_iff.1 hi
  obtain ⟨hj', rfl⟩ := List.getElem?_eq_some_iff.1 hj
  rcases Nat.lt_trichotomy i j with hlt | he | hlt
  · exact absurd rfl (h i j hi' hj' hlt p hx p hy)
  · exact he
  · exact absurd rfl (h j i hj' hi' hlt p hy p hx)

/-- A fixed file system that gives the answers of some accesses, each at a moment of the accesses. -/
theorem exists_agreeing (fs : ChangingFs) (l : List FsEvent) (hne : l ≠ []) (htr : Truthful fs l)
    (ht : (l.filterMap FsEvent.tested).Pairwise fun a b => Path.components a ≠ Path.components b)
    (hf : (l.filterMap FsEvent.file).Pairwise fun a b => Path.components a ≠ Path.components b) :
    ∃ fs0, SeenWithin fs l.length fs0 ∧ Agrees fs fs0 l := by
  classical
  have hpos : 0 < l.length := List.length_pos_iff.2 hne
  refine ⟨{ ex := fun p => fs.ex (if h : ∃ i b, l[i]? = some (FsEvent.test p b) then h.choose else 0) p
            read := fun p => fs.read (if h : ∃ i : Nat, l[i]? = some (FsEvent.read p) then h.choose else 0) p }, ⟨?_, ?_⟩, ?_, ?_⟩
  · intro p
    refine ⟨_, ?_, rfl⟩
    split
    · rename_i h
      obtain ⟨b, hb⟩ := h.choose_spec
      exact (List.getElem?_eq_some_iff.1 hb).1
    · exact hpos
  · intro p
    refine ⟨_, ?_, rfl⟩
    split
    · rename_i h
      exact (List.getElem?_eq_some_iff.1 h.choose_spec).1
    · exact hpos
  · intro i p b hi
    have h : ∃ i b, l[i]? = some (FsEvent.test p b) := ⟨i, b, hi⟩
    simp only [dif_pos h]
    obtain ⟨b', hb'⟩ := h.choose_spec
    have : h.choose = i := unique_index ht hb' hi rfl rfl
    rw [this]
    exact (htr i p b hi).symm
  · intro i p hi
    have h : ∃ i : Nat, l[i]? = some (FsEvent.read p) := ⟨i, hi⟩
    simp only [dif_pos h]
    have : h.choose = i := unique_index hf h.choose_spec hi rfl rfl
    rw [this]

/-! ### The whole load -/

/-- The loop of the load. -/
theorem loadLoopT_start (fs : ChangingFs) (parse : Str → Res Config) (cwd : Path) (home : Option Path) :
    LoopGood fs parse ((Path.ancestors cwd).length + 2) ⟨Path.ancestors cwd, home⟩ none []
      (loadLoopT fs parse ((Path.ancestors cwd).length + 2) (WalkState.new cwd home) none []) :=
  loadLoopT_good fs parse (Path.ancestors cwd) _ home (Nat.le_refl _) none []

theorem loadConfigT_log (fs : ChangingFs) (parse : Str → Res Config) (cwd : Path) (home : Option Path) :
    ∃ rest, Searches (pendingDirs (Path.ancestors cwd) home) ((loadConfigT fs parse cwd home).2 ++ rest) ∧
      (∀ c, (loadConfigT fs parse cwd home).1 = .ok c → rest = []) ∧
      ((∀ c, (loadConfigT fs parse cwd home).1 ≠ .ok c) → ∃ m f, (loadConfigT fs parse cwd home).2 = m ++ [.read f]) ∧
      Truthful fs (loadConfigT fs parse cwd home).2 ∧
      ∀ fs0, Agrees fs fs0 (loadConfigT fs parse cwd home).2 → (loadConfigT fs parse cwd home).1 = loadConfig fs0 parse cwd home := by
  obtain ⟨⟨new, rest, h1, h2, h3, h4⟩, h5, h6⟩ := loadLoopT_start fs parse cwd home
  replace h5 := h5 (by intro i p b h; simp at h)
  unfold loadConfigT
  generalize loadLoopT fs parse ((Path.ancestors cwd).length + 2) (WalkState.new cwd home) none [] = x at *
  obtain ⟨r, lg⟩ := x
  simp only [List.nil_append] at h1 h3 h4 h5 h6
  subst h1
  cases r with
  | ok base =>
    simp only at *
    refine ⟨rest, h2, fun _ _ => h3 _ rfl, fun h => absurd rfl (h _), h5, ?_⟩
    intro fs0 ha
    have := h6 fs0 ha
    unfold loadConfig loadPaths walk
    rw [show WalkState.new cwd home = ⟨Path.ancestors cwd, home⟩ from rfl, ← this]
    rcases base with _ | ⟨_, _⟩ <;> rfl
  | err e =>
    simp only at *
    refine ⟨rest, h2, fun _ h => (by cases h), fun _ => h4 (fun _ h => (by cases h)), h5, ?_⟩
    intro fs0 ha
    have := h6 fs0 ha
    unfold loadConfig loadPaths walk
    rw [show WalkState.new cwd home = ⟨Path.ancestors cwd, home⟩ from rfl, ← this]
    rfl
  | panic =>
    simp only at *
    refine ⟨rest, h2, fun _ h => (by cases h), fun _ => h4 (fun _ h => (by cases h)), h5, ?_⟩
    intro fs0 ha
    have := h6 fs0 ha
    unfold loadConfig loadPaths walk
    rw [show WalkState.new cwd home = ⟨Path.ancestors cwd, home⟩ from rfl, ← this]
    rfl

theorem loadConfigT_distinct (fs : ChangingFs) (parse : Str → Res Config) (cwd : Path) (home : Option Path) :
    ((loadConfigT fs parse cwd home).2.filterMap FsEvent.tested).Pairwise (fun a b => Path.components a ≠ Path.components b) ∧
    ((loadConfigT fs parse cwd home).2.filterMap FsEvent.file).Pairwise (fun a b => Path.components a ≠ Path.components b) := by
  obtain ⟨rest, h, -⟩ := loadConfigT_log fs parse cwd home
  have ht := h.tested_distinct (pendingDirs_distinct cwd home)
  have hf := ht.sublist h.files_sublist
  rw [List.filterMap_append, List.pairwise_append] at ht hf
  exact ⟨ht.1, hf.1⟩

end CC
