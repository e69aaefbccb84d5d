import Verif.Lemmas.AddedFile
import Verif.Props.Load
import Verif.Props.Walk
/-
C78: what a further config file can and cannot change.
-/
namespace CC

variable {fs fs' : Fs} {f : Path} {parse : Str → Res Config} {cwd : Path} {home : Option Path} {c c' : Config}

/-- The files visited are the same as before, in the same order, except for the new one. -/
theorem C78_walk (h : AddedFile fs fs' f) (cwd : Path) (home : Option Path) :
    walk fs.ex cwd home = (walk fs'.ex cwd home).filter (· ≠ f) := by
  obtain ⟨d, h1, h2⟩ := C01_walk fs.ex cwd home
  obtain ⟨d', h3, h4⟩ := C01_walk fs'.ex cwd home
  rw [searchDirs_unique h3 h1] at h4
  exact h.configs h2 h4

theorem AddedFile.raws (h : AddedFile fs fs' f) {raws : List (Path × Config)}
    (hr : FilesRead fs'.read parse (walk fs'.ex cwd home) raws) :
    FilesRead fs.read parse (walk fs.ex cwd home) (raws.filter (·.1 ≠ f)) := by
  rw [C78_walk h]; exact filesRead_filter h hr

/-- Removing a config file cannot make a load fail that succeeds with it. -/
theorem C78_removal (hparse : ∀ s c, parse s = .ok c → c.WF) (h : AddedFile fs fs' f) (hc : loadConfig fs' parse cwd home = .ok c') :
    ∃ c, loadConfig fs parse cwd home = .ok c := by
  obtain ⟨raws, hr, _⟩ := C12_all_read hc
  rw [C08_load_fails_iff hparse (h.raws hr)]
  exact ((C08_load_fails_iff hparse hr).1 ⟨c', hc⟩).sublist List.filter_sublist

/-- A single value stays the same, or it is now that of the new file. -/
theorem C78_scalar (hparse : ∀ s c, parse s = .ok c → c.WF) (h : AddedFile fs fs' f) (hc : loadConfig fs parse cwd home = .ok c)
    (hc' : loadConfig fs' parse cwd home = .ok c') (k : ScalarKey) :
    k.get c' = k.get c ∨ ∃ v, k.get c' = some v ∧ v.isFrom f = true := by
  obtain ⟨raws, hr, he⟩ := C05_nearest_wins hparse hc
  obtain ⟨raws', hr', he'⟩ := C05_nearest_wins hparse hc'
  rw [filesRead_unique hr (h.raws hr')] at he
  rw [he, he']
  exact firstSome_filter f k.get raws'

/-- A single value set in a file nearer than the new one stays the same. -/
theorem C78_nearer (hparse : ∀ s c, parse s = .ok c → c.WF) (h : AddedFile fs fs' f) (hc : loadConfig fs parse cwd home = .ok c)
    (hc' : loadConfig fs' parse cwd home = .ok c') {near far : List Path} (hw : walk fs'.ex cwd home = near ++ f :: far)
    (k : ScalarKey) {v : Val Atom} {p : Path} (hv : k.get c = some v) (hp : v.defn = some (.path p)) (hn : p ∈ near) :
    k.get c' = some v := by
  obtain ⟨raws, hr, he⟩ := C05_nearest_wins hparse hc
  obtain ⟨raws', hr', he'⟩ := C05_nearest_wins hparse hc'
  rw [filesRead_unique hr (h.raws hr')] at he
  rw [hw] at hr'
  obtain ⟨r1, r2, rfl, h1, h2⟩ := filesRead_append.1 hr'
  rw [he'] 
  rw [he, List.filter_append, List.map_append, firstSome_append] at hv
  rw [List.map_append, firstSome_append]
  have hnd := C03_no_duplicates fs'.ex cwd home
  rw [hw, List.pairwise_append] at hnd
  have hf1 : r1.filter (·.1 ≠ f) = r1 := by
    rw [List.filter_eq_self]
    intro x hx
    have : x.1 ∈ near := h1.1 ▸ List.mem_map.2 ⟨x, hx, rfl⟩
    simpa using fun e : x.1 = f => hnd.2.2 _ this f (List.mem_cons_self ..) (by rw [e])
  rw [hf1] at hv
  cases hg : firstSome (r1.map fun x => (k.get x.2).map (Val.foundIn x.1)) with
  | some w =>
    have hv' : ((some w).or _) = some v := hg ▸ hv
    exact (show ((some w).or _) = some v from hv')
  | none =>
    have hv' : firstSome ((r2.filter (·.1 ≠ f)).map fun x => (k.get x.2).map (Val.foundIn x.1)) = some v := by
      have : ((none : Option (Val Atom)).or _) = some v := hg ▸ hv
      exact this
    obtain ⟨x, hx, hxv⟩ := List.mem_map.1 (firstSome_some_mem hv')
    have hx2 : x.1 ∈ f :: far := h2.1 ▸ List.mem_map.2 ⟨x, (List.mem_filter.1 hx).1, rfl⟩
    cases hgx : k.get x.2 with
    | none => rw [hgx] at hxv; cases hxv
    | some w =>
      rw [hgx] at hxv
      cases hxv
      cases hp
      exact absurd rfl (hnd.2.2 _ hn _ hx2)

/-- Of a list written as arrays nothing is lost and the order stays: without the elements of the new file it is what it was. -/
theorem C78_arrays (hparse : ∀ s c, parse s = .ok c → c.WF) (h : AddedFile fs fs' f) (hc : loadConfig fs parse cwd home = .ok c)
    (hc' : loadConfig fs' parse cwd home = .ok c') (k : ListKey ⊕ ProgKey) {l : List (Val Str)}
    (hl : k.elim (fun k => k.get c) (fun k => k.get c) = some (.array, l)) :
    ∃ l', k.elim (fun k => k.get c') (fun k => k.get c') = some (.array, l') ∧ l'.filter (fun v => !v.isFrom f) = l := by
  cases k with
  | inl k =>
    obtain ⟨raws, hr, he⟩ := C06_arrays_joined hparse hc
    obtain ⟨raws', hr', he'⟩ := C06_arrays_joined hparse hc'
    rw [filesRead_unique hr (h.raws hr')] at he
    have h1 : JoinedList (spelledIn k.get (raws'.filter (·.1 ≠ f))) (k.get c) := he k
    have h2 : JoinedList (spelledIn k.get raws') (k.get c') := he' k
    have hl' : k.get c = some (.array, l) := hl
    rw [hl'] at h1
    have hsub := spelledIn_filter_subset f k.get raws'
    show ∃ l', k.get c' = some (.array, l') ∧ _
    generalize hz : spelledIn k.get (raws'.filter (·.1 ≠ f)) = xs at *
    generalize hz' : spelledIn k.get raws' = xs' at *
    generalize k.get c' = r at h2
    cases h1 with
    | array hne ha =>
      cases h2 with
      | unset =>
        obtain ⟨x, hx⟩ := List.exists_mem_of_ne_nil _ hne
        cases hsub x hx
      | array hne' ha' =>
        refine ⟨_, rfl, ?_⟩
        have := elemsOf_filter f k.get raws'.reverse
        rw [List.filter_reverse] at this
        simp only [elemsOf, List.filterMap_reverse] at this
        rw [← hz, ← hz']
        exact this
      | string hs =>
        obtain ⟨x, hx⟩ := List.exists_mem_of_ne_nil _ hne
        have := hs x (hsub x hx)
        rw [ha x hx] at this
        cases this
    | string hs => cases hs _ (List.mem_cons_self ..)
  | inr k =>
    obtain ⟨raws, hr, he⟩ := C07_commands_joined hparse hc
    obtain ⟨raws', hr', he'⟩ := C07_commands_joined hparse hc'
    rw [filesRead_unique hr (h.raws hr')] at he
    have h1 : JoinedProg (spelledIn k.get (raws'.filter (·.1 ≠ f))) (k.get c) := he k
    have h2 : JoinedProg (spelledIn k.get raws') (k.get c') := he' k
    have hl' : k.get c = some (.array, l) := hl
    rw [hl'] at h1
    have hsub := spelledIn_filter_subset f k.get raws'
    show ∃ l', k.get c' = some (.array, l') ∧ _
    generalize hz : spelledIn k.get (raws'.filter (·.1 ≠ f)) = xs at *
    generalize hz' : spelledIn k.get raws' = xs' at *
    generalize k.get c' = r at h2
    cases h1 with
    | array hne ha =>
      cases h2 with
      | unset =>
        obtain ⟨x, hx⟩ := List.exists_mem_of_ne_nil _ hne
        cases hsub x hx
      | array hne' ha' =>
        refine ⟨_, rfl, ?_⟩
        have := elemsOf_filter f k.get raws'
        rw [← hz, ← hz']
        exact this
      | string hs =>
        obtain ⟨x, hx⟩ := List.exists_mem_of_ne_nil _ hne
        have := hs x (hsub x hx)
        rw [ha x hx] at this
        cases this
    | string hs => cases hs _ (List.mem_cons_self ..)

/-- A list that was unset, or written as a string, stays the same, or all its elements are now those of the new file. -/
theorem C78_strings (hparse : ∀ s c, parse s = .ok c → c.WF) (h : AddedFile fs fs' f) (hc : loadConfig fs parse cwd home = .ok c)
    (hc' : loadConfig fs' parse cwd home = .ok c') (k : ListKey ⊕ ProgKey)
    (hl : ∀ l, k.elim (fun k => k.get c) (fun k => k.get c) ≠ some (.array, l)) :
    k.elim (fun k => k.get c') (fun k => k.get c') = k.elim (fun k => k.get c) (fun k => k.get c) ∨
      ∃ r l', k.elim (fun k => k.get c') (fun k => k.get c') = some (r, l') ∧ ∀ v ∈ l', v.isFrom f = true := by
  cases k with
  | inl k =>
    obtain ⟨raws, hr, he⟩ := C06_arrays_joined hparse hc
    obtain ⟨raws', hr', he'⟩ := C06_arrays_joined hparse hc'
    rw [filesRead_unique hr (h.raws hr')] at he
    have h1 : JoinedList (spelledIn k.get (raws'.filter (·.1 ≠ f))) (k.get c) := he k
    have h2 : JoinedList (spelledIn k.get raws') (k.get c') := he' k
    have hl' : ∀ l, k.get c ≠ some (.array, l) := hl
    have hsub := spelledIn_filter_subset f k.get raws'
    have hnew : ∀ x ∈ spelledIn k.get raws', x ∈ spelledIn k.get (raws'.filter (·.1 ≠ f)) ∨ _ := fun x hx => spelledIn_mem_new (f := f) hx
    have hhead := spelledIn_head f k.get raws'
    show k.get c' = k.get c ∨ ∃ r l', k.get c' = some (r, l') ∧ _
    generalize spelledIn k.get (raws'.filter (·.1 ≠ f)) = xs at *
    generalize spelledIn k.get raws' = xs' at *
    generalize k.get c' = r' at *
    generalize k.get c = r at *
    cases h1 with
    | array => exact absurd rfl (hl' _)
    | unset =>
      cases h2 with
      | unset => exact .inl rfl
      | array hne ha =>
        refine .inr ⟨_, _, rfl, fun v hv => ?_⟩
        obtain ⟨y, hy, hvy⟩ := List.mem_flatten.1 hv
        obtain ⟨x, hx, rfl⟩ := List.mem_map.1 hy
        rcases hnew x (List.mem_reverse.1 hx) with h3 | h3
        · cases h3
        · exact h3 v hvy
      | @string x xs hs =>
        refine .inr ⟨_, _, rfl, ?_⟩
        rcases hnew x (List.mem_cons_self ..) with h3 | h3
        · cases h3
        · exact h3
    | @string x xs hs =>
      cases h2 with
      | unset => cases hsub x (List.mem_cons_self ..)
      | array hne ha =>
        have := ha x (hsub x (List.mem_cons_self ..))
        rw [hs x (List.mem_cons_self ..)] at this
        cases this
      | @string x' xs' hs' =>
        rcases hhead with h3 | ⟨y, h3, h4⟩
        · left; exact h3
        · cases h3; exact .inr ⟨_, _, rfl, h4⟩
  | inr k =>
    obtain ⟨raws, hr, he⟩ := C07_commands_joined hparse hc
    obtain ⟨raws', hr', he'⟩ := C07_commands_joined hparse hc'
    rw [filesRead_unique hr (h.raws hr')] at he
    have h1 : JoinedProg (spelledIn k.get (raws'.filter (·.1 ≠ f))) (k.get c) := he k
    have h2 : JoinedProg (spelledIn k.get raws') (k.get c') := he' k
    have hl' : ∀ l, k.get c ≠ some (.array, l) := hl
    have hsub := spelledIn_filter_subset f k.get raws'
    have hnew : ∀ x ∈ spelledIn k.get raws', x ∈ spelledIn k.get (raws'.filter (·.1 ≠ f)) ∨ _ := fun x hx => spelledIn_mem_new (f := f) hx
    have hhead := spelledIn_head f k.get raws'
    show k.get c' = k.get c ∨ ∃ r l', k.get c' = some (r, l') ∧ _
    generalize spelledIn k.get (raws'.filter (·.1 ≠ f)) = xs at *
    generalize spelledIn k.get raws' = xs' at *
    generalize k.get c' = r' at *
    generalize k.get c = r at *
    cases h1 with
    | array => exact absurd rfl (hl' _)
    | unset =>
      cases h2 with
      | unset => exact .inl rfl
      | array hne ha =>
        refine .inr ⟨_, _, rfl, fun v hv => ?_⟩
        obtain ⟨y, hy, hvy⟩ := List.mem_flatten.1 hv
        obtain ⟨x, hx, rfl⟩ := List.mem_map.1 hy
        rcases hnew x hx with h3 | h3
        · cases h3
        · exact h3 v hvy
      | @string x xs hs =>
        refine .inr ⟨_, _, rfl, ?_⟩
        rcases hnew x (List.mem_cons_self ..) with h3 | h3
        · cases h3
        · exact h3
    | @string x xs hs =>
      cases h2 with
      | unset => cases hsub x (List.mem_cons_self ..)
      | array hne ha =>
        have := ha x (hsub x (List.mem_cons_self ..))
        rw [hs x (List.mem_cons_self ..)] at this
        cases this
      | @string x' xs' hs' =>
        rcases hhead with h3 | ⟨y, h3, h4⟩
        · left; exact h3
        · cases h3; exact .inr ⟨_, _, rfl, h4⟩

/-- No entry of a table is lost, and the new entries are those of the new file. -/
theorem C78_entries (hparse : ∀ s c, parse s = .ok c → c.WF) (h : AddedFile fs fs' f) (hc : loadConfig fs parse cwd home = .ok c)
    (hc' : loadConfig fs' parse cwd home = .ok c') (k : TableKey) :
    (k.present c = true → k.present c' = true) ∧
      (k.present c' = true → k.present c = true ∨
        ∃ text raw, fs'.read f = .ok text ∧ parse text = .ok raw ∧ k.present raw = true) := by
  obtain ⟨raws, hr, he⟩ := C09_union hparse hc
  obtain ⟨raws', hr', he'⟩ := C09_union hparse hc'
  rw [filesRead_unique hr (h.raws hr')] at he
  rw [he, he']
  constructor
  · rintro ⟨p, raw, hm, hp⟩
    exact ⟨p, raw, (List.mem_filter.1 hm).1, hp⟩
  · rintro ⟨p, raw, hm, hp⟩
    by_cases e : p = f
    · subst e
      obtain ⟨text, h1, h2⟩ := hr'.2 p raw hm
      exact .inr ⟨text, raw, h1, h2, hp⟩
    · exact .inl ⟨p, raw, List.mem_filter.2 ⟨hm, by simpa using e⟩, hp⟩

/-! ### Cases -/

/-- `sampleFs` without the farther file. -/
def nearFs : Fs := { sampleFs with ex := fun p => p = "/w/p/.cargo/config".toList }

theorem config_last (d : Path) : (Path.join d "config".toList).getLast? = some 'g' := by
  have : ∃ y, Path.join d "config".toList = y ++ "config".toList := by
    unfold Path.join
    rw [if_neg (by decide)]
    split
    · exact ⟨[], rfl⟩
    · exact ⟨d, rfl⟩
    · exact ⟨d ++ ['/'], by rw [List.append_assoc]; rfl⟩
  obtain ⟨y, hy⟩ := this
  rw [hy, List.getLast?_append]
  rfl

theorem sample_added : AddedFile nearFs sampleFs "/w/.cargo/config.toml".toList where
  absent := by decide
  present := by decide
  others p hp := by
    refine ⟨?_, rfl⟩
    show (decide _ || decide _) = decide _
    rw [decide_eq_false hp, Bool.or_false]
  hides d hd := by
    have h := config_last d
    rw [← hd] at h
    exact absurd h (by decide)

/-- Removing the farther file of the sample world, and what it changes. -/
example : ∃ c c', loadConfig nearFs sampleParse "/w/p".toList none = .ok c ∧ loadConfig sampleFs sampleParse "/w/p".toList none = .ok c' ∧
    (∀ k : ScalarKey, k.get c' = k.get c ∨ ∃ v, k.get c' = some v ∧ v.isFrom "/w/.cargo/config.toml".toList = true) ∧
    ∀ k : TableKey, k.present c = true → k.present c' = true := by
  obtain ⟨c', hc'⟩ := sample_loads
  obtain ⟨c, hc⟩ := C78_removal sample_wf sample_added hc'
  exact ⟨c, c', hc, hc', C78_scalar sample_wf sample_added hc hc', fun k => (C78_entries sample_wf sample_added hc hc' k).1⟩

example : (loadConfig nearFs sampleParse "/w/p".toList none).isOk = true ∧
    (loadConfig sampleFs sampleParse "/w/p".toList none).isOk = true ∧
    walk sampleFs.ex "/w/p".toList none = ["/w/p/.cargo/config".toList] ++ "/w/.cargo/config.toml".toList :: [] := by decide +kernel

/-- The value of the nearer file stays, the elements of the new one are put before those of the nearer file, and what was unset is now
that of the new file. -/
example : (loadConfig nearFs sampleParse "/w/p".toList none).toOption.bind (fun c => ScalarKey.buildJobs.get c) =
    (loadConfig sampleFs sampleParse "/w/p".toList none).toOption.bind (fun c => ScalarKey.buildJobs.get c) := by decide +kernel

example : (loadConfig nearFs sampleParse "/w/p".toList none).toOption.bind (fun c => ListKey.buildRustflags.get c) =
    some (.array, [⟨"-Cfar".toList, some (.path "/w/p/.cargo/config".toList)⟩]) := by decide +kernel

example : (loadConfig nearFs sampleParse "/w/p".toList none).toOption.bind (fun c => ScalarKey.buildRustc.get c) = none := by
  decide +kernel

/-- A new file `config` beside a file `config.toml` hides it: all that was set there is lost. -/
theorem C78_hidden : ∃ (fs fs' : Fs) (f : Path) (parse : Str → Res Config) (cwd : Path) (c c' : Config),
    fs.ex f = false ∧ fs'.ex f = true ∧ (∀ p, p ≠ f → fs'.ex p = fs.ex p ∧ fs'.read p = fs.read p) ∧
      loadConfig fs parse cwd none = .ok c ∧ loadConfig fs' parse cwd none = .ok c' ∧
      (ScalarKey.buildRustc.get c).isSome = true ∧ ScalarKey.buildRustc.get c' = none := by
  refine ⟨{ ex := fun p => p = "/.cargo/config.toml".toList, read := fun p => .ok p },
    { ex := fun p => p = "/.cargo/config.toml".toList || p = "/.cargo/config".toList, read := fun p => .ok p },
    "/.cargo/config".toList, fun s => if s = "/.cargo/config.toml".toList then .ok sampleFar else .ok {}, "/".toList,
    sampleFar.setPath "/.cargo/config.toml".toList, {}, by decide, by decide, fun p hp => ⟨?_, rfl⟩, rfl, rfl, rfl, rfl⟩
  show (decide _ || decide _) = decide _
  rw [decide_eq_false hp, Bool.or_false]

/-- The statements of C78 about that world: the two walks, what is set in the nearer file stays, and so do the elements it gives. -/
example : ∃ c c', loadConfig nearFs sampleParse "/w/p".toList none = .ok c ∧ loadConfig sampleFs sampleParse "/w/p".toList none = .ok c' ∧
    walk nearFs.ex "/w/p".toList none = (walk sampleFs.ex "/w/p".toList none).filter (· ≠ "/w/.cargo/config.toml".toList) ∧
    ScalarKey.buildJobs.get c' = some ⟨.int 4, some (.path "/w/p/.cargo/config".toList)⟩ ∧
    (∃ l', ListKey.buildRustflags.get c' = some (.array, l') ∧ l'.filter (fun v => !v.isFrom "/w/.cargo/config.toml".toList) =
      [⟨"-Cfar".toList, some (.path "/w/p/.cargo/config".toList)⟩]) ∧
    (ListKey.buildTarget.get c' = ListKey.buildTarget.get c ∨
      ∃ r l', ListKey.buildTarget.get c' = some (r, l') ∧ ∀ v ∈ l', v.isFrom "/w/.cargo/config.toml".toList = true) := by
  obtain ⟨c', hc'⟩ := sample_loads
  obtain ⟨c, hc⟩ := C78_removal sample_wf sample_added hc'
  have get : ∀ {α : Type} (g : Config → α), (loadConfig nearFs sampleParse "/w/p".toList none).toOption.map g = some (g c) := by
    intro α g; rw [hc]; rfl
  have hj : ScalarKey.buildJobs.get c = some ⟨.int 4, some (.path "/w/p/.cargo/config".toList)⟩ :=
    Option.some.inj ((get (ScalarKey.buildJobs.get ·)).symm.trans (by decide +kernel))
  have hl : ListKey.buildRustflags.get c = some (.array, [⟨"-Cfar".toList, some (.path "/w/p/.cargo/config".toList)⟩]) :=
    Option.some.inj ((get (ListKey.buildRustflags.get ·)).symm.trans (by decide +kernel))
  have ht : ListKey.buildTarget.get c = none :=
    Option.some.inj ((get (ListKey.buildTarget.get ·)).symm.trans (by decide +kernel))
  exact ⟨c, c', hc, hc', C78_walk sample_added _ _,
    C78_nearer sample_wf sample_added hc hc' (near := ["/w/p/.cargo/config".toList]) (far := []) (by decide +kernel) .buildJobs hj rfl
      (List.mem_singleton.2 rfl),
    C78_arrays sample_wf sample_added hc hc' (.inl .buildRustflags) hl,
    C78_strings sample_wf sample_added hc hc' (.inl .buildTarget) fun l h => by cases ht.symm.trans h⟩

end CC
