import Verif.Spec.Subdir
import Verif.Props.Moved
import Verif.Props.AddedFile
/-
C86: loading in a directory and in one below it.
-/
namespace CC

variable {fs : Fs} {parse : Str → Res Config} {sub top : Path} {home : Option Path} {between : List Path} {c c' : Config}

/-- Every directory that is passed on the way to the root is above. -/
theorem C86_above (h : top ∈ Path.ancestors sub) : ∃ between, Below sub top between := by
  induction sub using parent_induction with
  | h s ih =>
    rw [Path.ancestors_eq] at h
    unfold Below
    rcases List.mem_cons.1 h with rfl | h
    · exact ⟨[], rfl⟩
    · cases hp : Path.parent s with
      | none => rw [hp] at h; cases h
      | some q =>
        rw [hp] at h
        obtain ⟨b, hb⟩ := ih q hp h
        refine ⟨s :: b, ?_⟩
        rw [Path.ancestors_eq, hp]
        dsimp only
        rw [show Path.ancestors q = b ++ Path.ancestors top from hb]
        rfl

theorem remainingHome_between (ho : HomeOutside home between) (as : List Path) :
    remainingHome (between ++ as) home = remainingHome as home := by
  unfold remainingHome
  cases home with
  | none => rfl
  | some h =>
    have : (between.any fun a => Path.eqv h (Path.join a ".cargo".toList)) = false := by
      rw [List.any_eq_false]
      intro d hd he
      refine ho h rfl d hd ?_
      unfold Path.eqv at he
      exact (by simpa using he : Path.components h = _).symm
    simp only [Option.filter, List.any_append, this, Bool.false_or]

/-- C86: the files visited in `sub` are those of the directories in between, and then those visited in `top`. -/
theorem C86_walk (h : Below sub top between) (ho : HomeOutside home between) (ex : Path → Bool) :
    ∃ near, ConfigsOf ex (between.map fun d => Path.join d ".cargo".toList) near ∧ walk ex sub home = near ++ walk ex top home := by
  refine ⟨(between.map fun d => Path.join d ".cargo".toList).filterMap (configPath ex), configsOf_filterMap _ _, ?_⟩
  rw [walk_eq, walk_eq, show Path.ancestors sub = _ from h]
  unfold pendingDirs
  rw [remainingHome_between ho, List.map_append, List.append_assoc, List.filterMap_append]

theorem read_split {near : List Path} (hw : walk fs.ex sub home = near ++ walk fs.ex top home) {raws : List (Path × Config)}
    (hr : FilesRead fs.read parse (walk fs.ex sub home) raws) :
    ∃ r1 r2, raws = r1 ++ r2 ∧ FilesRead fs.read parse near r1 ∧ FilesRead fs.read parse (walk fs.ex top home) r2 := by
  rw [hw] at hr
  exact filesRead_append.1 hr

/-- C86: what can be loaded in `sub` can be loaded in `top`. -/
theorem C86_loads (hparse : ∀ s c, parse s = .ok c → c.WF) (h : Below sub top between) (ho : HomeOutside home between)
    (hc : loadConfig fs parse sub home = .ok c') : ∃ c, loadConfig fs parse top home = .ok c := by
  obtain ⟨near, _, hw⟩ := C86_walk h ho fs.ex
  obtain ⟨raws, hr, _⟩ := C12_all_read hc
  obtain ⟨r1, r2, rfl, _, h2⟩ := read_split hw hr
  rw [C08_load_fails_iff hparse h2]
  exact (List.pairwise_append.1 ((C08_load_fails_iff hparse hr).1 ⟨c', hc⟩)).2.1

/-- C86: a single value is that of the first file in between that has it, and otherwise the one in `top`. -/
theorem C86_scalar (hparse : ∀ s c, parse s = .ok c → c.WF) (h : Below sub top between) (ho : HomeOutside home between)
    (hc : loadConfig fs parse top home = .ok c) (hc' : loadConfig fs parse sub home = .ok c') :
    ∃ near raws, ConfigsOf fs.ex (between.map fun d => Path.join d ".cargo".toList) near ∧ FilesRead fs.read parse near raws ∧
      ∀ k : ScalarKey, k.get c' = (firstSome (raws.map fun (p, raw) => (k.get raw).map (Val.foundIn p))).or (k.get c) := by
  obtain ⟨near, hn, hw⟩ := C86_walk h ho fs.ex
  obtain ⟨raws, hr, he⟩ := C05_nearest_wins hparse hc
  obtain ⟨raws', hr', he'⟩ := C05_nearest_wins hparse hc'
  obtain ⟨r1, r2, rfl, h1, h2⟩ := read_split hw hr'
  cases filesRead_unique hr h2
  refine ⟨near, r1, hn, h1, fun k => ?_⟩
  rw [he', he, List.map_append, firstSome_append]

/-- Values in files are attributed to them. -/
theorem spelled_near {near : List Path} (g : Config → Option (Repr' × List (Val Str))) (r1 : List (Path × Config))
    (h1 : FilesRead fs.read parse near r1) : ∀ x ∈ spelledIn g r1, ∀ v ∈ x.2, ∃ f ∈ near, v.isFrom f = true := by
  intro x hx v hv
  obtain ⟨y, hy, hxy⟩ := List.mem_filterMap.1 hx
  refine ⟨y.1, h1.1 ▸ List.mem_map.2 ⟨y, hy, rfl⟩, ?_⟩
  cases hg : g y.2 with
  | none => rw [hg] at hxy; cases hxy
  | some z =>
    rw [hg] at hxy
    cases hxy
    obtain ⟨u, _, rfl⟩ := List.mem_map.1 hv
    unfold Val.isFrom Val.foundIn
    simp

/-- C86: to a list written as arrays only elements of files in between are appended; to a command they are prepended. -/
theorem C86_arrays (hparse : ∀ s c, parse s = .ok c → c.WF) (h : Below sub top between) (ho : HomeOutside home between)
    (hc : loadConfig fs parse top home = .ok c) (hc' : loadConfig fs parse sub home = .ok c') :
    ∃ near, ConfigsOf fs.ex (between.map fun d => Path.join d ".cargo".toList) near ∧
      (∀ (k : ListKey) l, k.get c = some (.array, l) → ∃ l', k.get c' = some (.array, l ++ l') ∧ ∀ v ∈ l', ∃ f ∈ near, v.isFrom f = true) ∧
      ∀ (k : ProgKey) l, k.get c = some (.array, l) → ∃ l', k.get c' = some (.array, l' ++ l) ∧ ∀ v ∈ l', ∃ f ∈ near, v.isFrom f = true := by
  obtain ⟨near, hn, hw⟩ := C86_walk h ho fs.ex
  have hfrom := fun g r1 h1 => spelled_near (fs := fs) (parse := parse) (near := near) g r1 h1
  refine ⟨near, hn, fun k l hl => ?_, fun k l hl => ?_⟩
  · obtain ⟨raws, hr, he⟩ := C06_arrays_joined hparse hc
    obtain ⟨raws', hr', he'⟩ := C06_arrays_joined hparse hc'
    obtain ⟨r1, r2, rfl, h1, h2⟩ := read_split hw hr'
    cases filesRead_unique hr h2
    have hf := hfrom k.get r1 h1
    have g1 : JoinedList (spelledIn k.get raws) (k.get c) := he k
    have g2 : JoinedList (spelledIn k.get (r1 ++ raws)) (k.get c') := he' k
    rw [hl] at g1
    rw [show spelledIn k.get (r1 ++ raws) = spelledIn k.get r1 ++ spelledIn k.get raws from List.filterMap_append] at g2
    generalize spelledIn k.get raws = xs at *
    generalize spelledIn k.get r1 = ys at *
    generalize hz : ys ++ xs = zs at *
    generalize k.get c' = r at *
    cases g1 with
    | string hs => cases hs _ (List.mem_cons_self ..)
    | array hne ha =>
      obtain ⟨x, hx⟩ := List.exists_mem_of_ne_nil _ hne
      have hxz : x ∈ zs := hz ▸ List.mem_append_right _ hx
      cases g2 with
      | unset => cases hxz
      | string hs =>
        have := hs x hxz
        rw [ha x hx] at this
        cases this
      | array hne' ha' =>
        refine ⟨(ys.reverse.map Prod.snd).flatten, ?_, fun v hv => ?_⟩
        · rw [← hz]; simp
        · obtain ⟨y, hy, hvy⟩ := List.mem_flatten.1 hv
          obtain ⟨u, hu, rfl⟩ := List.mem_map.1 hy
          exact hf u (List.mem_reverse.1 hu) v hvy
  · obtain ⟨raws, hr, he⟩ := C07_commands_joined hparse hc
    obtain ⟨raws', hr', he'⟩ := C07_commands_joined hparse hc'
    obtain ⟨r1, r2, rfl, h1, h2⟩ := read_split hw hr'
    cases filesRead_unique hr h2
    have hf := hfrom k.get r1 h1
    have g1 : JoinedProg (spelledIn k.get raws) (k.get c) := he k
    have g2 : JoinedProg (spelledIn k.get (r1 ++ raws)) (k.get c') := he' k
    rw [hl] at g1
    rw [show spelledIn k.get (r1 ++ raws) = spelledIn k.get r1 ++ spelledIn k.get raws from List.filterMap_append] at g2
    generalize spelledIn k.get raws = xs at *
    generalize spelledIn k.get r1 = ys at *
    generalize hz : ys ++ xs = zs at *
    generalize k.get c' = r at *
    cases g1 with
    | string hs => cases hs _ (List.mem_cons_self ..)
    | array hne ha =>
      obtain ⟨x, hx⟩ := List.exists_mem_of_ne_nil _ hne
      have hxz : x ∈ zs := hz ▸ List.mem_append_right _ hx
      cases g2 with
      | unset => cases hxz
      | string hs =>
        have := hs x hxz
        rw [ha x hx] at this
        cases this
      | array hne' ha' =>
        refine ⟨(ys.map Prod.snd).flatten, ?_, fun v hv => ?_⟩
        · rw [← hz]; simp
        · obtain ⟨y, hy, hvy⟩ := List.mem_flatten.1 hv
          obtain ⟨u, hu, rfl⟩ := List.mem_map.1 hy
          exact hf u hu v hvy

/-- C86: a list or command that is unset or written as a string in `top` stays the same, or all its elements come from files in
between. -/
theorem C86_strings (hparse : ∀ s c, parse s = .ok c → c.WF) (h : Below sub top between) (ho : HomeOutside home between)
    (hc : loadConfig fs parse top home = .ok c) (hc' : loadConfig fs parse sub home = .ok c') :
    ∃ near, ConfigsOf fs.ex (between.map fun d => Path.join d ".cargo".toList) near ∧
      ∀ k : ListKey ⊕ ProgKey, (∀ l, k.elim (fun k => k.get c) (fun k => k.get c) ≠ some (.array, l)) →
        k.elim (fun k => k.get c') (fun k => k.get c') = k.elim (fun k => k.get c) (fun k => k.get c) ∨
        ∃ r l', k.elim (fun k => k.get c') (fun k => k.get c') = some (r, l') ∧ ∀ v ∈ l', ∃ f ∈ near, v.isFrom f = true := by
  obtain ⟨near, hn, hw⟩ := C86_walk h ho fs.ex
  have hfrom := fun g r1 h1 => spelled_near (fs := fs) (parse := parse) (near := near) g r1 h1
  refine ⟨near, hn, fun k hl => ?_⟩
  cases k with
  | inl k =>
    obtain ⟨raws, hr, he⟩ := C06_arrays_joined hparse hc
    obtain ⟨raws', hr', he'⟩ := C06_arrays_joined hparse hc'
    obtain ⟨r1, r2, rfl, h1, h2⟩ := read_split hw hr'
    cases filesRead_unique hr h2
    have hf := hfrom k.get r1 h1
    have g1 : JoinedList (spelledIn k.get raws) (k.get c) := he k
    have g2 : JoinedList (spelledIn k.get (r1 ++ raws)) (k.get c') := he' k
    have hl' : ∀ l, k.get c ≠ some (.array, l) := hl
    show k.get c' = k.get c ∨ ∃ r l', k.get c' = some (r, l') ∧ _
    rw [show spelledIn k.get (r1 ++ raws) = spelledIn k.get r1 ++ spelledIn k.get raws from List.filterMap_append] at g2
    generalize spelledIn k.get raws = xs at *
    generalize spelledIn k.get r1 = ys at *
    generalize hz : ys ++ xs = zs at *
    generalize k.get c' = r' at *
    generalize k.get c = r at *
    cases g1 with
    | array => exact absurd rfl (hl' _)
    | unset =>
      rw [List.append_nil] at hz
      subst hz
      cases g2 with
      | unset => exact .inl rfl
      | array hne ha =>
        refine .inr ⟨_, _, rfl, fun v hv => ?_⟩
        obtain ⟨y, hy, hvy⟩ := List.mem_flatten.1 hv
        obtain ⟨x, hx, rfl⟩ := List.mem_map.1 hy
        exact hf x (List.mem_reverse.1 hx) v hvy
      | @string x xs hs => exact .inr ⟨_, _, rfl, hf x (List.mem_cons_self ..)⟩
    | @string x xs hs =>
      have hxz : x ∈ zs := hz ▸ List.mem_append_right _ (List.mem_cons_self ..)
      cases g2 with
      | unset => cases hxz
      | array hne ha =>
        have := ha x hxz
        rw [hs x (List.mem_cons_self ..)] at this
        cases this
      | @string x' xs' hs' =>
        cases ys with
        | nil => cases hz; exact .inl rfl
        | cons y ys => cases hz; exact .inr ⟨_, _, rfl, hf _ (List.mem_cons_self ..)⟩
  | inr k =>
    obtain ⟨raws, hr, he⟩ := C07_commands_joined hparse hc
    obtain ⟨raws', hr', he'⟩ := C07_commands_joined hparse hc'
    obtain ⟨r1, r2, rfl, h1, h2⟩ := read_split hw hr'
    cases filesRead_unique hr h2
    have hf := hfrom k.get r1 h1
    have g1 : JoinedProg (spelledIn k.get raws) (k.get c) := he k
    have g2 : JoinedProg (spelledIn k.get (r1 ++ raws)) (k.get c') := he' k
    have hl' : ∀ l, k.get c ≠ some (.array, l) := hl
    show k.get c' = k.get c ∨ ∃ r l', k.get c' = some (r, l') ∧ _
    rw [show spelledIn k.get (r1 ++ raws) = spelledIn k.get r1 ++ spelledIn k.get raws from List.filterMap_append] at g2
    generalize spelledIn k.get raws = xs at *
    generalize spelledIn k.get r1 = ys at *
    generalize hz : ys ++ xs = zs at *
    generalize k.get c' = r' at *
    generalize k.get c = r at *
    cases g1 with
    | array => exact absurd rfl (hl' _)
    | unset =>
      rw [List.append_nil] at hz
      subst hz
      cases g2 with
      | unset => exact .inl rfl
      | array hne ha =>
        refine .inr ⟨_, _, rfl, fun v hv => ?_⟩
        obtain ⟨y, hy, hvy⟩ := List.mem_flatten.1 hv
        obtain ⟨x, hx, rfl⟩ := List.mem_map.1 hy
        exact hf x hx v hvy
      | @string x xs hs => exact .inr ⟨_, _, rfl, hf x (List.mem_cons_self ..)⟩
    | @string x xs hs =>
      have hxz : x ∈ zs := hz ▸ List.mem_append_right _ (List.mem_cons_self ..)
      cases g2 with
      | unset => cases hxz
      | array hne ha =>
        have := ha x hxz
        rw [hs x (List.mem_cons_self ..)] at this
        cases this
      | @string x' xs' hs' =>
        cases ys with
        | nil => cases hz; exact .inl rfl
        | cons y ys => cases hz; exact .inr ⟨_, _, rfl, hf _ (List.mem_cons_self ..)⟩

/-- C86: no entry of a table is lost. -/
theorem C86_entries (hparse : ∀ s c, parse s = .ok c → c.WF) (h : Below sub top between) (ho : HomeOutside home between)
    (hc : loadConfig fs parse top home = .ok c) (hc' : loadConfig fs parse sub home = .ok c') (k : TableKey) (hk : k.present c = true) :
    k.present c' = true := by
  obtain ⟨near, _, hw⟩ := C86_walk h ho fs.ex
  obtain ⟨raws, hr, he⟩ := C09_union hparse hc
  obtain ⟨raws', hr', he'⟩ := C09_union hparse hc'
  obtain ⟨r1, r2, rfl, h1, h2⟩ := read_split hw hr'
  cases filesRead_unique hr h2
  obtain ⟨p, raw, hm, hp⟩ := (he k).1 hk
  exact (he' k).2 ⟨p, raw, List.mem_append_right _ hm, hp⟩

/-- No config file is in between. -/
theorem walk_nothing (h : Below sub top between) (ho : HomeOutside home between) {ex : Path → Bool}
    (hn : ∀ d ∈ between, ∀ f, ¬ IsConfigOf ex (Path.join d ".cargo".toList) f) : walk ex sub home = walk ex top home := by
  obtain ⟨near, h1, h2⟩ := C86_walk h ho ex
  have : near = [] := by
    cases near with
    | nil => rfl
    | cons f near =>
      exfalso
      clear h2 h ho
      induction between with
      | nil => cases h1
      | cons d ds ih =>
        cases h1 with
        | found hf _ => exact hn d List.mem_cons_self _ hf
        | missing _ hr => exact ih (fun d hd => hn d (List.mem_cons_of_mem _ hd)) hr
  rw [h2, this]; rfl

/-- C86: if there is no config file in between, the files give the same, including the places to which values are attributed and the
errors. -/
theorem C86_nothing_between (h : Below sub top between) (ho : HomeOutside home between)
    (hn : ∀ d ∈ between, ∀ f, ¬ IsConfigOf fs.ex (Path.join d ".cargo".toList) f) :
    loadConfig fs parse sub home = loadConfig fs parse top home := by
  unfold loadConfig
  rw [walk_nothing h ho hn]

variable {p : ProcEnv} {o : Options}

theorem same_contents (h : Below sub top between) (ho : HomeOutside home between)
    (hn : ∀ d ∈ between, ∀ f, ¬ IsConfigOf fs.ex (Path.join d ".cargo".toList) f) (hh : HomeOf p o top home) (hh' : HomeOf p o sub home)
    (hd : ∀ h, home = some h → Path.components h ≠ [] ∧ Path.components h ≠ [.root]) :
    SameContents p p o o fs fs top sub ((walk fs.ex top home).map fun f => (f, f)) where
  vars := .inr rfl
  options := ⟨o.cargoHome, rfl⟩
  here := ⟨home, hh, by rw [List.map_map]; exact (List.map_id (walk fs.ex top home)).symm ▸ walk_files fs top home, hd⟩
  there := ⟨home, hh', by
    rw [List.map_map, ← walk_nothing h ho hn]; exact (List.map_id (walk fs.ex sub home)).symm ▸ walk_files fs sub home, hd⟩
  read f f' hm := by obtain ⟨x, _, hx⟩ := List.mem_map.1 hm; cases hx; rfl

/-- Values from the same variable or the same file. -/
inductive SameOrigin (files : List Path) : Definition → Definition → Prop where
  | env (n : Str) : SameOrigin files (.environment n) (.environment n)
  | file (f : Path) : f ∈ files → SameOrigin files (.path f) (.path f)

theorem same_places (hd : ∀ h, home = some h → Path.components h ≠ [] ∧ Path.components h ≠ [.root]) :
    Places (SameOrCurrent top sub) top sub (SameOrigin (walk fs.ex top home)) := by
  refine ⟨.env, fun d d' hd' => ?_⟩
  cases hd' with
  | env n => exact ⟨top, sub, rfl, rfl, .current⟩
  | file f hf =>
    obtain ⟨b, hb⟩ := files_grandparent (walk_files fs top home) hd hf
    exact ⟨b, b, hb, hb, .same b⟩

theorem same_full (h : Below sub top between) (ho : HomeOutside home between)
    (hn : ∀ d ∈ between, ∀ f, ¬ IsConfigOf fs.ex (Path.join d ".cargo".toList) f) (hh : HomeOf p o top home) (hh' : HomeOf p o sub home)
    (hd : ∀ h, home = some h → Path.components h ≠ [] ∧ Path.components h ≠ [.root]) (parse : Str → Res Config) :
    Alike (fun x x' => MovedFull (SameOrCurrent top sub) (SameOrigin (walk fs.ex top home)) top sub x.1 x'.1 ∧
        CellsRel (SameOrCurrent top sub) x.2 x'.2)
      (EConfig.loadWithOptions p fs parse top o) (EConfig.loadWithOptions p fs parse sub o) :=
  (same_contents h ho hn hh hh' hd).fullAt (same_places hd)
    (fun f f' hm => by obtain ⟨x, hx, he⟩ := List.mem_map.1 hm; cases he; exact .file _ hx) parse

/-- C86: then a resolved config is the same too, except for relative paths from variables. -/
theorem C86_resolved (h : Below sub top between) (ho : HomeOutside home between)
    (hn : ∀ d ∈ between, ∀ f, ¬ IsConfigOf fs.ex (Path.join d ".cargo".toList) f) (hh : HomeOf p o top home) (hh' : HomeOf p o sub home)
    (hd : ∀ h, home = some h → Path.components h ≠ [] ∧ Path.components h ≠ [.root]) (parse : Str → Res Config) :
    Alike (fun x x' => MovedConfig (SameOrCurrent top sub) x.1 x'.1)
      (EConfig.loadWithOptions p fs parse top o) (EConfig.loadWithOptions p fs parse sub o) :=
  (same_full h ho hn hh hh' hd parse).mono fun _ _ hx => hx.1.moved

/-- C86: and so are the answers to all queries. -/
theorem C86_answers (h : Below sub top between) (ho : HomeOutside home between)
    (hn : ∀ d ∈ between, ∀ f, ¬ IsConfigOf fs.ex (Path.join d ".cargo".toList) f) (hh : HomeOf p o top home) (hh' : HomeOf p o sub home)
    (hd : ∀ h, home = some h → Path.components h ≠ [] ∧ Path.components h ≠ [.root]) {c c' : EConfig} {s s' : Cells} {w w' : World}
    (hl : EConfig.loadWithOptions p fs parse top o = .ok (c, s)) (hl' : EConfig.loadWithOptions p fs parse sub o = .ok (c', s'))
    (hw : SameTools (SameOrCurrent top sub) w w') (qs : List Query) (q : Query) :
    Alike (MovedAnswer (SameOrCurrent top sub))
      (c.ask q w (afterQueries w (qs.map fun q => (c, q)) s)).1 (c'.ask q w' (afterQueries w' (qs.map fun q => (c', q)) s')).1 := by
  have hx := same_full h ho hn hh hh' hd parse
  rw [hl, hl'] at hx
  exact (ask_rel (same_places hd) hx.1 q w w' _ _ hw (after_rel (same_places hd) hx.1 hw qs hx.2)).1

/-! ### samples -/

section sample

/-- The directory `/w/p` of the sample world is below `/w`, and `/w/p/q/r` below `/w/p`. -/
theorem subdir_below : Below "/w/p".toList "/w".toList ["/w/p".toList] := by unfold Below; decide +kernel
theorem subdir_below' : Below "/w/p/q/r".toList "/w/p".toList ["/w/p/q/r".toList, "/w/p/q".toList] := by unfold Below; decide +kernel

example : ∃ between, Below "/w/p".toList "/".toList between := C86_above (by decide +kernel)

/-- In the sample world `/w/p/.cargo/config` is in between. -/
example : ∃ c c', loadConfig sampleFs sampleParse "/w".toList none = .ok c ∧ loadConfig sampleFs sampleParse "/w/p".toList none = .ok c' ∧
    (∃ near raws, ConfigsOf sampleFs.ex ["/w/p/.cargo".toList] near ∧ FilesRead sampleFs.read sampleParse near raws ∧
      ∀ k : ScalarKey, k.get c' = (firstSome (raws.map fun (p, raw) => (k.get raw).map (Val.foundIn p))).or (k.get c)) ∧
    ∀ k : TableKey, k.present c = true → k.present c' = true := by
  obtain ⟨c', hc'⟩ := sample_loads
  have ho : HomeOutside none ["/w/p".toList] := nofun
  obtain ⟨c, hc⟩ := C86_loads sample_wf subdir_below ho hc'
  obtain ⟨near, raws, h1, h2, h3⟩ := C86_scalar sample_wf subdir_below ho hc hc'
  exact ⟨c, c', hc, hc', ⟨near, raws, h1, h2, h3⟩, fun k hk => C86_entries sample_wf subdir_below ho hc hc' k hk⟩

/-- The flags of the farther file come first, both in `/w` and in `/w/p`. -/
example : (loadConfig sampleFs sampleParse "/w".toList none).toOption.bind (fun c => ListKey.buildRustflags.get c) =
    (some (.array, [⟨"-g".toList, some (.path "/w/.cargo/config.toml".toList)⟩,
      ⟨"-O".toList, some (.path "/w/.cargo/config.toml".toList)⟩])) := by decide +kernel

/-- Nothing is between `/w/p` and `/w/p/q/r`. -/
example : loadConfig sampleFs sampleParse "/w/p/q/r".toList none = loadConfig sampleFs sampleParse "/w/p".toList none := by
  refine C86_nothing_between subdir_below' nofun fun d hd f hf => ?_
  rw [← configPath_some] at hf
  have : ∀ d ∈ ["/w/p/q/r".toList, "/w/p/q".toList], configPath sampleFs.ex (Path.join d ".cargo".toList) = none := by decide +kernel
  rw [this d hd] at hf
  cases hf

/-- A relative path from a variable is joined to the current directory, one from a file to the directory of the file. -/
example : (["/w/p".toList, "/w/p/q/r".toList].map fun cwd => (EConfig.loadWithOptions {} sampleFs sampleParse cwd
      { env := some [("CARGO_BUILD_RUSTDOC".toList, .unicode "bin/rustdoc".toList)] }).toOption.map fun x =>
        (x.1.build.rustc, x.1.build.rustdoc)) =
    [some (some "/w/bin/rustc".toList, some "/w/p/bin/rustdoc".toList),
     some (some "/w/bin/rustc".toList, some "/w/p/q/r/bin/rustdoc".toList)] := by decide +kernel

/-- The walks, the flags, and a list that is unset. -/
example : ∃ c c' near, loadConfig sampleFs sampleParse "/w".toList none = .ok c ∧ loadConfig sampleFs sampleParse "/w/p".toList none = .ok c' ∧
    walk sampleFs.ex "/w/p".toList none = near ++ walk sampleFs.ex "/w".toList none ∧
    (∃ l', ListKey.buildRustflags.get c' = some (.array, [⟨"-g".toList, some (.path "/w/.cargo/config.toml".toList)⟩,
      ⟨"-O".toList, some (.path "/w/.cargo/config.toml".toList)⟩] ++ l')) ∧
    (ListKey.buildTarget.get c' = ListKey.buildTarget.get c ∨ ∃ x, ListKey.buildTarget.get c' = some x) := by
  obtain ⟨c', hc'⟩ := sample_loads
  have ho : HomeOutside none ["/w/p".toList] := nofun
  obtain ⟨c, hc⟩ := C86_loads sample_wf subdir_below ho hc'
  have get : ∀ {α : Type} (g : Config → α), (loadConfig sampleFs sampleParse "/w".toList none).toOption.map g = some (g c) := by
    intro α g; rw [hc]; rfl
  have hl : ListKey.buildRustflags.get c = some (.array, [⟨"-g".toList, some (.path "/w/.cargo/config.toml".toList)⟩,
      ⟨"-O".toList, some (.path "/w/.cargo/config.toml".toList)⟩]) :=
    Option.some.inj ((get (ListKey.buildRustflags.get ·)).symm.trans (by decide +kernel))
  have ht : ListKey.buildTarget.get c = none :=
    Option.some.inj ((get (ListKey.buildTarget.get ·)).symm.trans (by decide +kernel))
  obtain ⟨near, _, hw⟩ := C86_walk subdir_below ho sampleFs.ex
  obtain ⟨_, _, h1, _⟩ := C86_arrays sample_wf subdir_below ho hc hc'
  obtain ⟨_, _, h2⟩ := C86_strings sample_wf subdir_below ho hc hc'
  obtain ⟨l', h3, _⟩ := h1 .buildRustflags _ hl
  refine ⟨c, c', near, hc, hc', hw, ⟨l', h3⟩, ?_⟩
  rcases h2 (.inl .buildTarget) (fun l h => by cases ht.symm.trans h) with h | ⟨r, l, h, _⟩
  · exact .inl h
  · exact .inr ⟨_, h⟩

/-- The statements about resolved configs in `/w/p` and `/w/p/q/r`. -/
example (parse : Str → Res Config) : Alike (fun x x' => MovedConfig (SameOrCurrent "/w/p".toList "/w/p/q/r".toList) x.1 x'.1)
    (EConfig.loadWithOptions {} sampleFs parse "/w/p".toList {}) (EConfig.loadWithOptions {} sampleFs parse "/w/p/q/r".toList {}) := by
  refine C86_resolved (p := {}) (o := {}) subdir_below' (home := none) nofun (fun d hd f hf => ?_) (HomeRule.nothing _ (.inl rfl)) (HomeRule.nothing _ (.inl rfl)) nofun parse
  rw [← configPath_some] at hf
  have : ∀ d ∈ ["/w/p/q/r".toList, "/w/p/q".toList], configPath sampleFs.ex (Path.join d ".cargo".toList) = none := by decide +kernel
  rw [this d hd] at hf
  cases hf

/-- Tools that do the same for all commands. -/
example : SameTools (SameOrCurrent "/w/p".toList "/w/p/q/r".toList) ⟨true, fun _ _ => .notStarted [], fun _ _ => false⟩
    ⟨true, fun _ _ => .notStarted [], fun _ _ => false⟩ := ⟨rfl, fun _ _ _ _ => rfl, fun _ _ => rfl⟩

/-- The condition on the Cargo home is needed: if it is in between, its file is the last one in `top`, but not in `sub`. -/
theorem C86_home_between : ∃ (ex : Path → Bool) (sub top home : Path) (between : List Path), Below sub top between ∧
    walk ex top (some home) = ["/w/.cargo/config".toList, "/w/p/.cargo/config".toList] ∧
    walk ex sub (some home) = ["/w/p/.cargo/config".toList, "/w/.cargo/config".toList] :=
  ⟨fun f => f = "/w/.cargo/config".toList || f = "/w/p/.cargo/config".toList, "/w/p".toList, "/w".toList, "/w/p/.cargo".toList,
    ["/w/p".toList], subdir_below, by decide +kernel, by decide +kernel⟩

end sample

end CC
