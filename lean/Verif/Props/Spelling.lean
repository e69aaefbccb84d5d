import Verif.Spec.Spelling
import Verif.Props.Moved
import Verif.Props.Resolve
/-
How the directory and the Cargo home are written does not matter: C89.
-/
namespace CC

variable {p p' : ProcEnv} {o o' : Options} {fs : Fs} {cwd cwd' : Path} {home home' : Option Path}

theorem components_ne_nil {d : Path} (h : d ≠ []) : Path.components d ≠ [] := by
  intro e
  unfold Path.components at e
  obtain ⟨e1, e2⟩ := List.append_eq_nil_iff.1 e
  unfold Path.lead at e1
  cases d with
  | nil => exact h rfl
  | cons x r =>
    split at e1
    · cases e1
    · rename_i ha
      split at e1
      · cases e1
      · rename_i hd
        have hx : x ≠ '/' := by
          intro hx; subst hx; exact ha rfl
        have e3 := List.map_eq_nil_iff.1 e2
        unfold Path.kept at e3
        rw [List.filter_eq_nil_iff] at e3
        unfold splitOn at hd e3
        rw [if_neg hx] at hd e3
        cases hs : splitOn '/' r with
        | nil => exact splitOn_ne_nil _ _ hs
        | cons p ps =>
          rw [hs] at hd e3
          have := e3 _ List.mem_cons_self
          simp only [Path.junk, Bool.not_eq_true', Bool.not_eq_false, Bool.or_eq_true, beq_iff_eq, reduceCtorEq, false_or] at this
          exact hd (by rw [← this]; rfl)

theorem join_samePath {d d' : Path} (x : Path) (h : SamePath d d') : SamePath (Path.join d x) (Path.join d' x) := by
  unfold SamePath at *
  by_cases hx : ∃ r, x = '/' :: r
  · obtain ⟨r, rfl⟩ := hx
    rw [(C13_join d []).1, (C13_join d' []).1]
  · have hx' : ∀ r, x ≠ '/' :: r := fun r e => hx ⟨r, e⟩
    by_cases hd : d = []
    · subst hd
      have : d' = [] := by
        cases hd' : d' with
        | nil => rfl
        | cons a l => exact absurd (hd' ▸ h.symm : Path.components (a :: l) = Path.components []) (components_ne_nil (by simp))
      rw [this]
    · have hd' : d' ≠ [] := by
        intro e
        subst e
        exact components_ne_nil hd h
      rw [(C13_join d x).2.1 hx' hd, (C13_join d' x).2.1 hx' hd', h]

theorem parent_samePath {d d' : Path} (h : SamePath d d') : OptionRel SamePath (Path.parent d) (Path.parent d') := by
  unfold SamePath at h
  cases h1 : Path.parent d with
  | none =>
    rw [parent_none_iff, h, ← parent_none_iff] at h1
    rw [h1]
    exact .none
  | some q =>
    cases h2 : Path.parent d' with
    | none =>
      rw [parent_none_iff, ← h, ← parent_none_iff, h1] at h2
      cases h2
    | some q' =>
      obtain ⟨a, ha⟩ := parent_components d q h1
      obtain ⟨b, hb⟩ := parent_components d' q' h2
      rw [ha, hb] at h
      exact .some (List.append_inj_left' h rfl)

theorem ancestors_samePath {d d' : Path} (h : SamePath d d') : ListRel SamePath (Path.ancestors d) (Path.ancestors d') := by
  induction d using parent_induction generalizing d' with
  | h s ih =>
    rw [Path.ancestors_eq s, Path.ancestors_eq d']
    have hp := parent_samePath h
    generalize hq : Path.parent s = q at hp
    generalize Path.parent d' = q' at hp
    cases hp with
    | none => exact .cons h .nil
    | some hr => exact .cons h (ih _ hq hr)

theorem mem_left {α β : Type} {R : α → β → Prop} {l : List α} {l' : List β} (h : ListRel R l l') {a : α} (ha : a ∈ l) :
    ∃ b ∈ l', R a b := by
  induction h with
  | nil => cases ha
  | cons h1 _ ih =>
    rcases List.mem_cons.1 ha with rfl | ha
    · exact ⟨_, List.mem_cons_self, h1⟩
    · obtain ⟨b, h2, h3⟩ := ih ha
      exact ⟨b, List.mem_cons_of_mem _ h2, h3⟩

theorem mem_right {α β : Type} {R : α → β → Prop} {l : List α} {l' : List β} (h : ListRel R l l') {b : β} (hb : b ∈ l') :
    ∃ a ∈ l, R a b := by
  induction h with
  | nil => cases hb
  | cons h1 _ ih =>
    rcases List.mem_cons.1 hb with rfl | hb
    · exact ⟨_, List.mem_cons_self, h1⟩
    · obtain ⟨a, h2, h3⟩ := ih hb
      exact ⟨a, List.mem_cons_of_mem _ h2, h3⟩

theorem dirs_samePath (hc : SamePath cwd cwd') (hh : OptionRel SamePath home home') {dirs dirs' : List Path}
    (h : SearchDirs cwd home dirs) (h' : SearchDirs cwd' home' dirs') : ListRel SamePath dirs dirs' := by
  have hl : ListRel SamePath ((Path.ancestors cwd).map fun d => Path.join d ".cargo".toList)
      ((Path.ancestors cwd').map fun d => Path.join d ".cargo".toList) := by
    have := ancestors_samePath hc
    generalize Path.ancestors cwd = l at this
    generalize Path.ancestors cwd' = l' at this
    induction this with
    | nil => exact .nil
    | cons h1 _ ih => exact .cons (join_samePath _ h1) ih
  unfold SearchDirs at h h'
  dsimp only at h h'
  generalize (Path.ancestors cwd).map (fun d => Path.join d ".cargo".toList) = l at *
  generalize (Path.ancestors cwd').map (fun d => Path.join d ".cargo".toList) = l' at *
  cases hh with
  | none =>
    dsimp only at h h'
    rw [h, h']; exact hl
  | @some a b hab =>
    dsimp only at h h'
    unfold SamePath at hab
    rcases h with ⟨⟨d, h1, h2⟩, rfl⟩ | ⟨h1, rfl⟩
    · rcases h' with ⟨-, rfl⟩ | ⟨h1', rfl⟩
      · exact hl
      · obtain ⟨d', h3, h4⟩ := mem_left hl h1
        exact absurd (h4.symm.trans (h2.trans hab)) (h1' d' h3)
    · rcases h' with ⟨⟨d', h1', h2'⟩, rfl⟩ | ⟨h1', rfl⟩
      · obtain ⟨d, h3, h4⟩ := mem_right hl h1'
        exact absurd (h4.trans (h2'.trans hab.symm)) (h1 d h3)
      · have : ∀ {l l' : List Path}, ListRel SamePath l l' → ListRel SamePath (l ++ [a]) (l' ++ [b]) := by
          intro l l' hl
          induction hl with
          | nil => exact .cons hab .nil
          | cons h1 _ ih => exact .cons h1 ih
        exact this hl

theorem configPath_samePath (hf : fs.BySamePath) {d d' : Path} (h : SamePath d d') :
    OptionRel SamePath (configPath fs.ex d) (configPath fs.ex d') := by
  have h1 := join_samePath "config".toList h
  have h2 := join_samePath "config.toml".toList h
  unfold configPath
  dsimp only
  rw [(hf _ _ h1).1, (hf _ _ h2).1]
  split
  · exact .some h1
  · split
    · exact .some h2
    · exact .none

theorem walk_samePath (hf : fs.BySamePath) (hc : SamePath cwd cwd') (hh : OptionRel SamePath home home') :
    ListRel SamePath (walk fs.ex cwd home) (walk fs.ex cwd' home') := by
  rw [walk_eq, walk_eq]
  have := dirs_samePath hc hh (pendingDirs_searchDirs cwd home) (pendingDirs_searchDirs cwd' home')
  generalize pendingDirs (Path.ancestors cwd) home = l at this
  generalize pendingDirs (Path.ancestors cwd') home' = l' at this
  induction this with
  | nil => exact .nil
  | @cons d d' _ _ h1 _ ih =>
    have := configPath_samePath hf h1
    rw [List.filterMap_cons, List.filterMap_cons]
    generalize configPath fs.ex d = x at this
    generalize configPath fs.ex d' = x' at this
    cases this with
    | none => exact ih
    | some h2 => exact .cons h2 ih

/-- C89: the config files found are the same ones. -/
theorem C89_files (hf : fs.BySamePath) (h : Respelled p p' o o' cwd cwd' home home') {l l' : List Path} (hl : FilesOf fs cwd home l)
    (hl' : FilesOf fs cwd' home' l') : ListRel SamePath l l' := by
  rw [files_unique hl (walk_files fs cwd home), files_unique hl' (walk_files fs cwd' home')]
  exact walk_samePath hf h.directory h.homes

/-- Definitions that are the same but for how a file is written. -/
inductive SameFile (files : List (Path × Path)) : Definition → Definition → Prop where
  | env (n : Str) : SameFile files (.environment n) (.environment n)
  | file (f f' : Path) : (f, f') ∈ files → SameFile files (.path f) (.path f')

theorem zip_rel {l l' : List Path} (h : ListRel SamePath l l') : ((l.zip l').map Prod.fst = l ∧ (l.zip l').map Prod.snd = l') ∧
    ∀ f f', (f, f') ∈ l.zip l' → SamePath f f' := by
  induction h with
  | nil => exact ⟨⟨rfl, rfl⟩, fun _ _ h => (by cases h)⟩
  | cons h1 _ ih =>
    refine ⟨⟨by simp [ih.1.1], by simp [ih.1.2]⟩, fun f f' hm => ?_⟩
    rcases List.mem_cons.1 hm with e | hm
    · cases e; exact h1
    · exact ih.2 f f' hm

theorem respelled_contents (hf : fs.BySamePath) (h : Respelled p p' o o' cwd cwd' home home') :
    SameContents p p' o o' fs fs cwd cwd' ((walk fs.ex cwd home).zip (walk fs.ex cwd' home')) where
  vars := h.vars
  options := h.options
  here := ⟨home, h.here, by rw [(zip_rel (walk_samePath hf h.directory h.homes)).1.1]; exact walk_files fs cwd home, h.proper⟩
  there := ⟨home', h.there, by rw [(zip_rel (walk_samePath hf h.directory h.homes)).1.2]; exact walk_files fs cwd' home', by
    have hh := h.homes
    have hp := h.proper
    intro b hb
    subst hb
    generalize home = hm at hh hp
    cases hh with
    | some e => rw [← show Path.components _ = Path.components b from e]; exact hp _ rfl⟩
  read f f' hm := (hf _ _ ((zip_rel (walk_samePath hf h.directory h.homes)).2 f f' hm)).2

theorem respelled_places (hf : fs.BySamePath) (h : Respelled p p' o o' cwd cwd' home home') :
    Places SamePath cwd cwd' (SameFile ((walk fs.ex cwd home).zip (walk fs.ex cwd' home'))) := by
  have hs := respelled_contents hf h
  refine ⟨.env, fun d d' hd => ?_⟩
  cases hd with
  | env n => exact ⟨cwd, cwd', rfl, rfl, h.directory⟩
  | file f f' hm =>
    obtain ⟨b, b', h1, h2, -⟩ := hs.places.root _ _ (SameSpot.file f f' hm)
    refine ⟨b, b', h1, h2, ?_⟩
    have hsame := (zip_rel (walk_samePath hf h.directory h.homes)).2 f f' hm
    have h3 : (Path.parent f).bind Path.parent = some b := h1
    have h4 : (Path.parent f').bind Path.parent = some b' := h2
    have hp := parent_samePath hsame
    generalize Path.parent f = x at h3 hp
    generalize Path.parent f' = x' at h4 hp
    cases hp with
    | none => cases h3
    | some h5 =>
      have h6 := parent_samePath h5
      rw [show Path.parent _ = some b from h3, show Path.parent _ = some b' from h4] at h6
      cases h6 with
      | some h7 => exact h7

theorem respelled_full (hf : fs.BySamePath) (h : Respelled p p' o o' cwd cwd' home home') (parse : Str → Res Config) :
    Alike (fun x x' => MovedFull SamePath (SameFile ((walk fs.ex cwd home).zip (walk fs.ex cwd' home'))) cwd cwd' x.1 x'.1 ∧
        CellsRel SamePath x.2 x'.2)
      (EConfig.loadWithOptions p fs parse cwd o) (EConfig.loadWithOptions p' fs parse cwd' o') :=
  (respelled_contents hf h).fullAt (respelled_places hf h) (fun f f' hm => .file f f' hm) parse

/-- C89: the same outcome; the settings are the same, where paths may be written differently. -/
theorem C89_load (hf : fs.BySamePath) (h : Respelled p p' o o' cwd cwd' home home') (parse : Str → Res Config) :
    Alike (fun x x' => MovedConfig SamePath x.1 x'.1)
      (EConfig.loadWithOptions p fs parse cwd o) (EConfig.loadWithOptions p' fs parse cwd' o') :=
  (respelled_full hf h parse).mono fun _ _ hx => hx.1.moved

/-- C89: paths that `MovedConfig SamePath` and `MovedAnswer SamePath` allow to differ are equal as paths. -/
theorem C89_paths {x x' : Path} (h : MovedPath SamePath x x') : SamePath x x' := by
  cases h with
  | same => rfl
  | below b b' rel hb _ => exact join_samePath rel hb

variable {parse : Str → Res Config} {c c' : EConfig} {s s' : Cells} {w w' : World}

/-- C89: the same answers, in the same sense. -/
theorem C89_answers (hf : fs.BySamePath) (h : Respelled p p' o o' cwd cwd' home home')
    (hl : EConfig.loadWithOptions p fs parse cwd o = .ok (c, s)) (hl' : EConfig.loadWithOptions p' fs parse cwd' o' = .ok (c', s'))
    (hw : SameTools SamePath w w') (qs : List Query) (q : Query) : Alike (MovedAnswer SamePath)
      (c.ask q w (afterQueries w (qs.map fun q => (c, q)) s)).1 (c'.ask q w' (afterQueries w' (qs.map fun q => (c', q)) s')).1 := by
  have hx := respelled_full hf h parse
  rw [hl, hl'] at hx
  exact (ask_rel (respelled_places hf h) hx.1 q w w' _ _ hw (after_rel (respelled_places hf h) hx.1 hw qs hx.2)).1

/-- C89: the same commands are run, in the same sense. -/
theorem C89_commands (hf : fs.BySamePath) (h : Respelled p p' o o' cwd cwd' home home')
    (hl : EConfig.loadWithOptions p fs parse cwd o = .ok (c, s)) (hl' : EConfig.loadWithOptions p' fs parse cwd' o' = .ok (c', s'))
    (hw : SameTools SamePath w w') (qs : List Query) :
    ListRel (fun x x' => ListRel (MovedPath SamePath) (x.program :: x.args) (x'.program :: x'.args))
      (afterQueries w (qs.map fun q => (c, q)) s).trace (afterQueries w' (qs.map fun q => (c', q)) s').trace := by
  have hx := respelled_full hf h parse
  rw [hl, hl'] at hx
  exact (after_rel (respelled_places hf h) hx.1 hw qs hx.2).trace

/-- C89: the Cargo home that is found, if it is not given in the options, is the same one. -/
theorem C89_home (hc : SamePath cwd cwd') (h : HomeOf p o cwd home) (h' : HomeOf p o cwd' home') : OptionRel SamePath home home' := by
  have refl : ∀ x : Option Path, OptionRel SamePath x x := fun x => by
    cases x with
    | none => exact .none
    | some _ => exact .some rfl
  unfold HomeOf at h h'
  cases ho : o.cargoHome with
  | some x =>
    rw [ho] at h h'
    dsimp only at h h'
    rw [h, h']
    exact refl x
  | none =>
    rw [ho] at h h'
    dsimp only at h h'
    generalize (firstValue p.vars "CARGO_HOME".toList).map OsStr.path = v at h h'
    generalize p.home = ph at h h'
    cases h with
    | absolute v ph h1 =>
      cases h' with
      | absolute => exact .some rfl
      | relative _ _ _ h2 => exact absurd h1 h2
      | unset _ _ h2 =>
        obtain ⟨r, rfl⟩ := h1
        rcases h2 with h2 | h2 <;> cases h2
      | nothing _ h2 =>
        obtain ⟨r, rfl⟩ := h1
        rcases h2 with h2 | h2 <;> cases h2
    | relative v ph h1 h1' =>
      cases h' with
      | absolute _ _ h2 => exact absurd h2 h1'
      | relative => exact .some (join_samePath v hc)
      | unset _ _ h2 => rcases h2 with h2 | h2 <;> cases h2; exact absurd rfl h1
      | nothing _ h2 => rcases h2 with h2 | h2 <;> cases h2; exact absurd rfl h1
    | unset v ph h1 =>
      cases h' with
      | absolute _ _ h2 =>
        obtain ⟨r, rfl⟩ := h2
        rcases h1 with h1 | h1 <;> cases h1
      | relative _ _ h2 => rcases h1 with h1 | h1 <;> cases h1; exact absurd rfl h2
      | unset => exact .some rfl
    | nothing v h1 =>
      cases h' with
      | absolute _ _ h2 =>
        obtain ⟨r, rfl⟩ := h2
        rcases h1 with h1 | h1 <;> cases h1
      | relative _ _ h2 => rcases h1 with h1 | h1 <;> cases h1; exact absurd rfl h2
      | nothing => exact .none

section sample

/-- The files of the sample world, in a file system where only the components of a path count. -/
def spellingFs : Fs :=
  { ex := fun f => Path.components f = Path.components "/w/p/.cargo/config".toList ||
      Path.components f = Path.components "/w/.cargo/config.toml".toList
    read := fun f =>
      if Path.components f = Path.components "/w/p/.cargo/config".toList then .ok "near".toList
      else if Path.components f = Path.components "/w/.cargo/config.toml".toList then .ok "far".toList else .err (.io []) }

theorem spellingFs_by : spellingFs.BySamePath := fun f f' h => by
  unfold SamePath at h
  unfold spellingFs
  dsimp only
  rw [h]
  exact ⟨rfl, rfl⟩

/-- `CARGO_HOME=h` in `/w/p` and in `/w/./p//`. -/
def spellingEnv : ProcEnv := { vars := [(.unicode "CARGO_HOME".toList, .unicode "h".toList)] }

theorem spelling_respelled : Respelled spellingEnv spellingEnv {} {} "/w/p".toList "/w/./p//".toList
    (some "/w/p/h".toList) (some "/w/./p//h".toList) where
  vars := .inr rfl
  options := ⟨none, rfl⟩
  directory := by unfold SamePath; decide +kernel
  here := HomeRule.relative "h".toList none (by decide) (fun ⟨_, h⟩ => by cases h)
  there := HomeRule.relative "h".toList none (by decide) (fun ⟨_, h⟩ => by cases h)
  homes := .some (show Path.components _ = Path.components _ by decide +kernel)
  proper := by
    intro h e
    cases e
    decide +kernel

example : OptionRel SamePath (some "/w/p/h".toList) (some "/w/./p//h".toList) :=
  C89_home spelling_respelled.directory spelling_respelled.here spelling_respelled.there

example : ListRel SamePath (walk spellingFs.ex "/w/p".toList (some "/w/p/h".toList)) (walk spellingFs.ex "/w/./p//".toList (some "/w/./p//h".toList)) :=
  C89_files spellingFs_by spelling_respelled (walk_files _ _ _) (walk_files _ _ _)

/-- The files are found, and are written differently. -/
example : walk spellingFs.ex "/w/p".toList (some "/w/p/h".toList) = ["/w/p/.cargo/config".toList, "/w/.cargo/config.toml".toList] ∧
    walk spellingFs.ex "/w/./p//".toList (some "/w/./p//h".toList) =
      ["/w/./p//.cargo/config".toList, "/w/.cargo/config.toml".toList] := by decide +kernel

/-- A relative path from a variable is joined to the directory as it is written. -/
example : (["/w/p".toList, "/w/./p//".toList].map fun cwd => (EConfig.loadWithOptions {} spellingFs sampleParse cwd
      { env := some [("CARGO_BUILD_RUSTDOC".toList, .unicode "bin/rustdoc".toList)] }).toOption.map fun x =>
        (x.1.build.rustc, x.1.build.rustdoc)) =
    [some (some "/w/bin/rustc".toList, some "/w/p/bin/rustdoc".toList),
     some (some "/w/bin/rustc".toList, some "/w/./p//bin/rustdoc".toList)] := by decide +kernel

example : SamePath "/w/p/bin/rustdoc".toList "/w/./p//bin/rustdoc".toList :=
  C89_paths (.below "/w/p".toList "/w/./p//".toList "bin/rustdoc".toList spelling_respelled.directory (by decide))

/-- Both loads succeed, and the configs give the same answers and run the same commands. -/
example (qs : List Query) (q : Query) (w : World) (hw : SameTools SamePath w w) : ∃ c s c' s',
    EConfig.loadWithOptions spellingEnv spellingFs sampleParse "/w/p".toList {} = .ok (c, s) ∧
    EConfig.loadWithOptions spellingEnv spellingFs sampleParse "/w/./p//".toList {} = .ok (c', s') ∧ MovedConfig SamePath c c' ∧
    Alike (MovedAnswer SamePath)
      (c.ask q w (afterQueries w (qs.map fun q => (c, q)) s)).1 (c'.ask q w (afterQueries w (qs.map fun q => (c', q)) s')).1 ∧
    ListRel (fun x x' => ListRel (MovedPath SamePath) (x.program :: x.args) (x'.program :: x'.args))
      (afterQueries w (qs.map fun q => (c, q)) s).trace (afterQueries w (qs.map fun q => (c', q)) s').trace := by
  have hx := C89_load spellingFs_by spelling_respelled sampleParse
  have e : (EConfig.loadWithOptions spellingEnv spellingFs sampleParse "/w/p".toList {}).isOk = true := by decide +kernel
  cases h1 : EConfig.loadWithOptions spellingEnv spellingFs sampleParse "/w/p".toList {} with
  | ok a =>
    cases h2 : EConfig.loadWithOptions spellingEnv spellingFs sampleParse "/w/./p//".toList {} with
    | ok b =>
      rw [h1, h2] at hx
      exact ⟨a.1, a.2, b.1, b.2, rfl, rfl, hx, C89_answers spellingFs_by spelling_respelled h1 h2 hw qs q,
        C89_commands spellingFs_by spelling_respelled h1 h2 hw qs⟩
    | err _ => rw [h1, h2] at hx; cases hx
    | panic => rw [h1, h2] at hx; cases hx
  | err _ => rw [h1] at e; cases e
  | panic => rw [h1] at e; cases e

end sample

end CC
