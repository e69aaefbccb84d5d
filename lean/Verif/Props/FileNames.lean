import Verif.Spec.FileNames
import Verif.Props.Spelling
/-
The two names of a config file are interchangeable: C90.
-/
namespace CC

theorem splitOn_join (d : Path) : ∃ l, ∀ n, Path.Simple n → splitOn '/' (Path.join d n) = l ++ [n] := by
  rcases Path.join_relative d "x".toList rfl with ⟨rfl, -⟩ | ⟨e, rfl, -⟩ | ⟨hd, hj⟩
  · refine ⟨[], fun n hn => ?_⟩
    rcases Path.join_relative [] n hn.notAbs with ⟨-, h⟩ | ⟨e, h, -⟩ | ⟨h, -⟩
    · rw [h, splitOn_of_not_mem _ _ hn.1]; rfl
    · simp at h
    · exact absurd rfl h
  · refine ⟨splitOn '/' e, fun n hn => ?_⟩
    have h : Path.join (e ++ ['/']) n = e ++ '/' :: n := by
      unfold Path.join
      rw [hn.notAbs]
      simp
    rw [h, splitOn_append, splitOn_of_not_mem _ _ hn.1]
  · refine ⟨splitOn '/' d, fun n hn => ?_⟩
    have h : Path.join d n = d ++ '/' :: n := by
      have hl : ∃ c, d.getLast? = some c ∧ c ≠ '/' := by
        cases hg : d.getLast? with
        | none => exact absurd (List.getLast?_eq_none_iff.1 hg) hd
        | some c =>
          refine ⟨c, rfl, fun hc => ?_⟩
          subst hc
          obtain ⟨e, rfl⟩ := List.getLast?_eq_some_iff.1 hg
          unfold Path.join at hj
          rw [show Path.isAbsolute "x".toList = false from rfl] at hj
          simp at hj
      obtain ⟨c, h1, h2⟩ := hl
      unfold Path.join
      rw [hn.notAbs, h1]
      simp only [Bool.false_eq_true, if_false]
    rw [h, splitOn_append, splitOn_of_not_mem _ _ hn.1]

theorem isAbsolute_cons (x : Char) (r : Path) : Path.isAbsolute (x :: r) = decide (x = '/') := by
  by_cases h : x = '/'
  · subst h; rfl
  · unfold Path.isAbsolute
    split
    · rename_i e; exact absurd (List.cons.inj e).1 h
    · simp [h]

theorem isAbsolute_join (d : Path) {n n' : Str} (hn : Path.Simple n) (hn' : Path.Simple n') :
    Path.isAbsolute (Path.join d n) = Path.isAbsolute (Path.join d n') := by
  cases d with
  | nil =>
    have h : ∀ m, Path.Simple m → Path.isAbsolute (Path.join [] m) = false := fun m hm => by
      unfold Path.join
      rw [hm.notAbs]
      exact hm.notAbs
    rw [h n hn, h n' hn']
  | cons x r =>
    have h : ∀ m, Path.Simple m → Path.isAbsolute (Path.join (x :: r) m) = Path.isAbsolute (x :: r) := fun m hm => by
      unfold Path.join
      rw [hm.notAbs]
      simp only [Bool.false_eq_true, if_false]
      split
      · rename_i h; cases List.getLast?_eq_none_iff.1 h
      · rw [List.cons_append, isAbsolute_cons, isAbsolute_cons]
      · rw [List.cons_append, isAbsolute_cons, isAbsolute_cons]
    rw [h n hn, h n' hn']

theorem parent_join_simple (d : Path) {n n' : Str} (hn : Path.Simple n) (hn' : Path.Simple n') :
    Path.parent (Path.join d n) = Path.parent (Path.join d n') := by
  obtain ⟨l, hl⟩ := splitOn_join d
  have hs : Path.leadStr (Path.join d n) = Path.leadStr (Path.join d n') := by
    unfold Path.leadStr
    rw [isAbsolute_join d hn hn', hl n hn, hl n' hn']
    cases l with
    | cons a l => rfl
    | nil =>
      have h : ∀ m, Path.Simple m → m ≠ ['.'] := fun m hm e => by
        have := hm.2.1
        rw [e] at this
        exact absurd this (by decide)
      have h1 := h n hn
      have h2 := h n' hn'
      simp [h1, h2]
  unfold Path.parent
  rw [hl n hn, hl n' hn', hs]
  simp only [List.reverse_append, List.reverse_cons, List.reverse_nil, List.nil_append, List.singleton_append, List.dropWhile_cons,
    hn.2.1, hn'.2.1, Bool.false_eq_true, if_false]

theorem config_parent {ex ex' : Path → Bool} {d f f' : Path} (h : IsConfigOf ex d f) (h' : IsConfigOf ex' d f') :
    Path.parent f = Path.parent f' := by
  obtain ⟨n, hn, rfl⟩ := isConfigOf_name h
  obtain ⟨n', hn', rfl⟩ := isConfigOf_name h'
  exact parent_join_simple d hn hn'

/-- Files that may stand for each other: they are in the same directory and have the same contents. -/
def SameFileIn (fs fs' : Fs) (f f' : Path) : Prop := Path.parent f = Path.parent f' ∧ fs.read f = fs'.read f'

variable {p : ProcEnv} {o : Options} {fs fs' : Fs} {cwd : Path} {home : Option Path} {dirs : List Path}

theorem configs_sameIn (h : ∀ d ∈ dirs, SameConfigIn fs fs' d) :
    ListRel (SameFileIn fs fs') (dirs.filterMap (configPath fs.ex)) (dirs.filterMap (configPath fs'.ex)) := by
  induction dirs with
  | nil => exact .nil
  | cons d l ih =>
    have ih := ih fun x hx => h x (List.mem_cons_of_mem _ hx)
    rw [List.filterMap_cons, List.filterMap_cons]
    rcases h d List.mem_cons_self with ⟨h1, h2⟩ | ⟨f, f', h1, h2, h3⟩
    · have e1 : configPath fs.ex d = none := by
        cases hc : configPath fs.ex d with
        | none => rfl
        | some f => exact absurd (configPath_some.1 hc) (h1 f)
      have e2 : configPath fs'.ex d = none := by
        cases hc : configPath fs'.ex d with
        | none => rfl
        | some f => exact absurd (configPath_some.1 hc) (h2 f)
      rw [e1, e2]
      exact ih
    · rw [configPath_some.2 h1, configPath_some.2 h2]
      exact .cons ⟨config_parent h1 h2, h3⟩ ih

theorem walk_sameIn (hd : SearchDirs cwd home dirs) (h : ∀ d ∈ dirs, SameConfigIn fs fs' d) :
    ListRel (SameFileIn fs fs') (walk fs.ex cwd home) (walk fs'.ex cwd home) := by
  have hs := pendingDirs_searchDirs cwd home
  have e : pendingDirs (Path.ancestors cwd) home = dirs := by
    unfold SearchDirs at hd hs
    dsimp only at hd hs
    cases home with
    | none => dsimp only at hd hs; rw [hd, hs]
    | some x =>
      dsimp only at hd hs
      rcases hd with ⟨⟨d, h1, h2⟩, hd⟩ | ⟨h1, hd⟩
      · rcases hs with ⟨-, hs⟩ | ⟨h3, -⟩
        · rw [hd, hs]
        · exact absurd h2 (h3 d h1)
      · rcases hs with ⟨⟨d, h3, h4⟩, -⟩ | ⟨-, hs⟩
        · exact absurd h4 (h1 d h3)
        · rw [hd, hs]
  rw [walk_eq, walk_eq, e]
  exact configs_sameIn h

theorem zip_relOf {R : Path → Path → Prop} {l l' : List Path} (h : ListRel R l l') :
    ((l.zip l').map Prod.fst = l ∧ (l.zip l').map Prod.snd = l') ∧ ∀ f f', (f, f') ∈ l.zip l' → R f f' := by
  induction h with
  | nil => exact ⟨⟨rfl, rfl⟩, fun _ _ h => (by cases h)⟩
  | cons h1 _ ih =>
    refine ⟨⟨by simp [ih.1.1], by simp [ih.1.2]⟩, fun f f' hm => ?_⟩
    rcases List.mem_cons.1 hm with e | hm
    · cases e; exact h1
    · exact ih.2 f f' hm

theorem named_contents (hd : SearchDirs cwd home dirs) (h : ∀ d ∈ dirs, SameConfigIn fs fs' d) (hh : HomeOf p o cwd home)
    (hp : ∀ h, home = some h → Path.components h ≠ [] ∧ Path.components h ≠ [.root]) :
    SameContents p p o o fs fs' cwd cwd ((walk fs.ex cwd home).zip (walk fs'.ex cwd home)) where
  vars := .inr rfl
  options := ⟨o.cargoHome, rfl⟩
  here := ⟨home, hh, by rw [(zip_relOf (walk_sameIn hd h)).1.1]; exact walk_files fs cwd home, hp⟩
  there := ⟨home, hh, by rw [(zip_relOf (walk_sameIn hd h)).1.2]; exact walk_files fs' cwd home, hp⟩
  read f f' hm := ((zip_relOf (walk_sameIn hd h)).2 f f' hm).2

theorem named_places (hd : SearchDirs cwd home dirs) (h : ∀ d ∈ dirs, SameConfigIn fs fs' d)
    (hp : ∀ h, home = some h → Path.components h ≠ [] ∧ Path.components h ≠ [.root]) :
    Places Eq cwd cwd (SameFile ((walk fs.ex cwd home).zip (walk fs'.ex cwd home))) := by
  refine ⟨.env, fun d d' hd' => ?_⟩
  cases hd' with
  | env n => exact ⟨cwd, cwd, rfl, rfl, rfl⟩
  | file f f' hm =>
    have hz := zip_relOf (walk_sameIn hd h)
    have hf : f ∈ walk fs.ex cwd home := by
      rw [← hz.1.1]
      exact List.mem_map.2 ⟨_, hm, rfl⟩
    obtain ⟨b, hb⟩ := files_grandparent (walk_files fs cwd home) hp hf
    refine ⟨b, b, hb, ?_, rfl⟩
    show grandparent f' = some b
    unfold grandparent
    rw [← (hz.2 f f' hm).1]
    exact hb

theorem named_full (hd : SearchDirs cwd home dirs) (h : ∀ d ∈ dirs, SameConfigIn fs fs' d) (hh : HomeOf p o cwd home)
    (hp : ∀ h, home = some h → Path.components h ≠ [] ∧ Path.components h ≠ [.root]) (parse : Str → Res Config) :
    Alike (fun x x' => MovedFull Eq (SameFile ((walk fs.ex cwd home).zip (walk fs'.ex cwd home))) cwd cwd x.1 x'.1 ∧ CellsRel Eq x.2 x'.2)
      (EConfig.loadWithOptions p fs parse cwd o) (EConfig.loadWithOptions p fs' parse cwd o) :=
  (named_contents hd h hh hp).fullAt (named_places hd h hp) (fun f f' hm => .file f f' hm) parse

/-! ### what did not move is equal -/

theorem movedPath_eq {x x' : Path} (h : MovedPath Eq x x') : x = x' := by
  cases h with
  | same => rfl
  | below b b' rel hb => rw [hb]

theorem optionRel_eq {α : Type} {R : α → α → Prop} (hR : ∀ a b, R a b → a = b) {x x' : Option α} (h : OptionRel R x x') : x = x' := by
  cases h with
  | none => rfl
  | some h => rw [hR _ _ h]

theorem listRel_eq {α : Type} {R : α → α → Prop} (hR : ∀ a b, R a b → a = b) {x x' : List α} (h : ListRel R x x') : x = x' := by
  induction h with
  | nil => rfl
  | cons h _ ih => rw [hR _ _ h, ih]

theorem movedCommand_eq {x x' : EPathAndArgs} (h : MovedCommand Eq x x') : x = x' := by
  cases x; cases x'
  obtain ⟨h1, h2⟩ := h
  cases movedPath_eq h1; cases h2; rfl

theorem movedTriple_eq {x x' : TargetTriple} (h : MovedTriple Eq x x') : x = x' := by
  cases x; cases x'
  obtain ⟨h1, h2⟩ := h
  cases optionRel_eq (fun _ _ => movedPath_eq) h2; cases h1; rfl

theorem movedEnv_eq {x x' : Str × EEnvValue} (h : MovedEnv Eq x x') : x = x' := by
  obtain ⟨k, v, fo, r⟩ := x; obtain ⟨k', v', fo', r'⟩ := x'
  obtain ⟨h1, h2, h3, h4⟩ := h
  cases movedPath_eq h2; cases h1; cases h3; cases h4; rfl

theorem movedSettings_eq {x x' : ETarget} (h : MovedSettings Eq x x') : x = x' := by
  cases x; cases x'
  obtain ⟨h1, h2, h3, h4⟩ := h
  cases optionRel_eq (fun _ _ => movedPath_eq) h1
  cases optionRel_eq (fun _ _ => movedCommand_eq) h2
  cases h3; cases h4; rfl

theorem movedAnswer_eq {x x' : Answer} (h : MovedAnswer Eq x x') : x = x' := by
  cases h with
  | target h => rw [movedSettings_eq h]
  | path h => rw [optionRel_eq (fun _ _ => movedPath_eq) h]
  | prog h => rw [optionRel_eq (fun _ _ => movedCommand_eq) h]
  | rustc h =>
    rename_i x x'
    cases x; cases x'
    cases listRel_eq (fun _ _ => movedPath_eq) h; rfl
  | targets h => rw [listRel_eq (fun _ _ => movedTriple_eq) h]
  | strings h => rw [listRel_eq (fun _ _ => movedPath_eq) h]
  | flags | host | rustcVersion | cargoVersion => rfl

theorem movedConfig_eq {c c' : EConfig} (h : MovedConfig Eq c c') : SamePublic c c' where
  alias := h.alias
  jobs := h.build.jobs
  rustc := optionRel_eq (fun _ _ => movedPath_eq) h.build.rustc
  rustcWrapper := optionRel_eq (fun _ _ => movedPath_eq) h.build.rustcWrapper
  rustcWorkspaceWrapper := optionRel_eq (fun _ _ => movedPath_eq) h.build.rustcWorkspaceWrapper
  rustdoc := optionRel_eq (fun _ _ => movedPath_eq) h.build.rustdoc
  target := optionRel_eq (fun _ _ => listRel_eq fun _ _ => movedTriple_eq) h.build.target
  targetDir := optionRel_eq (fun _ _ => movedPath_eq) h.build.targetDir
  rustflags := h.build.rustflags
  rustdocflags := h.build.rustdocflags
  incremental := h.build.incremental
  depInfoBasedir := optionRel_eq (fun _ _ => movedPath_eq) h.build.depInfoBasedir
  doc := by
    have := optionRel_eq (fun _ _ => movedCommand_eq) h.doc
    cases hc : c.doc; cases hc' : c'.doc
    rw [hc, hc'] at this
    exact congrArg EDoc.mk this
  env := listRel_eq (fun _ _ => movedEnv_eq) h.env
  futureIncompatReport := h.futureIncompatReport
  cargoNew := h.cargoNew
  http := h.http
  net := h.net
  registries := h.registries
  registry := h.registry
  term := h.term

theorem sameTools_refl (w : World) : SameTools Eq w w where
  checks := rfl
  run n x x' h := by
    cases x; cases x'
    cases listRel_eq (fun _ _ => movedPath_eq) h; rfl
  exist _ _ := rfl

/-! ### the property -/

/-- C90: whichever of its two names each config file has, loading succeeds in both cases or in neither, and all public fields are equal. -/
theorem C90_load (hd : SearchDirs cwd home dirs) (h : ∀ d ∈ dirs, SameConfigIn fs fs' d) (hh : HomeOf p o cwd home)
    (hp : ∀ h, home = some h → Path.components h ≠ [] ∧ Path.components h ≠ [.root]) (parse : Str → Res Config) :
    Alike (fun x x' => SamePublic x.1 x'.1) (EConfig.loadWithOptions p fs parse cwd o) (EConfig.loadWithOptions p fs' parse cwd o) :=
  (named_full hd h hh hp parse).mono fun _ _ hx => movedConfig_eq hx.1.moved

variable {parse : Str → Res Config} {c c' : EConfig} {s s' : Cells}

/-- C90: all queries have equal answers, whatever was asked before and whatever the tools do. -/
theorem C90_answers (hd : SearchDirs cwd home dirs) (h : ∀ d ∈ dirs, SameConfigIn fs fs' d) (hh : HomeOf p o cwd home)
    (hp : ∀ h, home = some h → Path.components h ≠ [] ∧ Path.components h ≠ [.root])
    (hl : EConfig.loadWithOptions p fs parse cwd o = .ok (c, s)) (hl' : EConfig.loadWithOptions p fs' parse cwd o = .ok (c', s'))
    (w : World) (qs : List Query) (q : Query) : Alike Eq
      (c.ask q w (afterQueries w (qs.map fun q => (c, q)) s)).1 (c'.ask q w (afterQueries w (qs.map fun q => (c', q)) s')).1 := by
  have hx := named_full hd h hh hp parse
  rw [hl, hl'] at hx
  have hpl := named_places hd h hp
  exact (ask_rel hpl hx.1 q w w _ _ (sameTools_refl w) (after_rel hpl hx.1 (sameTools_refl w) qs hx.2)).1.mono
    fun _ _ => movedAnswer_eq

/-- C90: and the same commands are run. -/
theorem C90_commands (hd : SearchDirs cwd home dirs) (h : ∀ d ∈ dirs, SameConfigIn fs fs' d) (hh : HomeOf p o cwd home)
    (hp : ∀ h, home = some h → Path.components h ≠ [] ∧ Path.components h ≠ [.root])
    (hl : EConfig.loadWithOptions p fs parse cwd o = .ok (c, s)) (hl' : EConfig.loadWithOptions p fs' parse cwd o = .ok (c', s'))
    (w : World) (qs : List Query) :
    (afterQueries w (qs.map fun q => (c, q)) s).trace = (afterQueries w (qs.map fun q => (c', q)) s').trace := by
  have hx := named_full hd h hh hp parse
  rw [hl, hl'] at hx
  refine listRel_eq (fun x x' hc => ?_) (after_rel (named_places hd h hp) hx.1 (sameTools_refl w) qs hx.2).trace
  cases x; cases x'
  cases listRel_eq (fun _ _ => movedPath_eq) hc; rfl

/-! ### samples -/

section sample

/-- The sample world with the names exchanged. -/
def renamedFs : Fs :=
  { ex := fun f => f = "/w/p/.cargo/config.toml".toList || f = "/w/.cargo/config".toList
    read := fun f =>
      if f = "/w/p/.cargo/config.toml".toList then .ok "near".toList
      else if f = "/w/.cargo/config".toList then .ok "far".toList else .err (.io []) }

theorem renamed_dirs : SearchDirs "/w/p".toList none ["/w/p/.cargo".toList, "/w/.cargo".toList, "/.cargo".toList] := by
  unfold SearchDirs; decide +kernel

theorem renamed_near : sampleFs.read "/w/p/.cargo/config".toList = renamedFs.read "/w/p/.cargo/config.toml".toList := by
  unfold sampleFs renamedFs
  dsimp only
  rw [if_pos rfl, if_pos rfl]

theorem renamed_far : sampleFs.read "/w/.cargo/config.toml".toList = renamedFs.read "/w/.cargo/config".toList := by
  unfold sampleFs renamedFs
  dsimp only
  rw [if_neg (by decide +kernel), if_pos rfl, if_neg (by decide +kernel), if_pos rfl]

theorem renamed_same : ∀ d ∈ ["/w/p/.cargo".toList, "/w/.cargo".toList, "/.cargo".toList], SameConfigIn sampleFs renamedFs d := by
  intro d hd
  simp only [List.mem_cons, List.not_mem_nil, or_false] at hd
  rcases hd with rfl | rfl | rfl
  · exact .inr ⟨_, _, configPath_some.1 (show _ = some "/w/p/.cargo/config".toList by decide +kernel),
      configPath_some.1 (show _ = some "/w/p/.cargo/config.toml".toList by decide +kernel),
      renamed_near⟩
  · exact .inr ⟨_, _, configPath_some.1 (show _ = some "/w/.cargo/config.toml".toList by decide +kernel),
      configPath_some.1 (show _ = some "/w/.cargo/config".toList by decide +kernel),
      renamed_far⟩
  · refine .inl ⟨fun f hf => ?_, fun f hf => ?_⟩
    · rw [← configPath_some, show configPath sampleFs.ex "/.cargo".toList = none by decide +kernel] at hf; cases hf
    · rw [← configPath_some, show configPath renamedFs.ex "/.cargo".toList = none by decide +kernel] at hf; cases hf

/-- Both loads succeed with equal settings, and give equal answers with the same commands. -/
example (w : World) (qs : List Query) (q : Query) : ∃ c s c' s', EConfig.loadWithOptions {} sampleFs sampleParse "/w/p".toList {} = .ok (c, s) ∧
    EConfig.loadWithOptions {} renamedFs sampleParse "/w/p".toList {} = .ok (c', s') ∧ SamePublic c c' ∧
    Alike Eq (c.ask q w (afterQueries w (qs.map fun q => (c, q)) s)).1 (c'.ask q w (afterQueries w (qs.map fun q => (c', q)) s')).1 ∧
    (afterQueries w (qs.map fun q => (c, q)) s).trace = (afterQueries w (qs.map fun q => (c', q)) s').trace := by
  have hh : HomeOf {} {} "/w/p".toList none := HomeRule.nothing _ (.inl rfl)
  have hx := C90_load renamed_dirs renamed_same hh nofun sampleParse
  have e : (EConfig.loadWithOptions {} sampleFs sampleParse "/w/p".toList {}).isOk = true := by decide +kernel
  cases h1 : EConfig.loadWithOptions {} sampleFs sampleParse "/w/p".toList {} with
  | ok a =>
    cases h2 : EConfig.loadWithOptions {} renamedFs sampleParse "/w/p".toList {} with
    | ok b =>
      rw [h1, h2] at hx
      exact ⟨a.1, a.2, b.1, b.2, rfl, rfl, hx, C90_answers renamed_dirs renamed_same hh nofun h1 h2 w qs q,
        C90_commands renamed_dirs renamed_same hh nofun h1 h2 w qs⟩
    | err _ => rw [h1, h2] at hx; cases hx
    | panic => rw [h1, h2] at hx; cases hx
  | err _ => rw [h1] at e; cases e
  | panic => rw [h1] at e; cases e

/-- The unresolved configs do differ: they tell the names. -/
example : ([sampleFs, renamedFs].map fun fs => (loadConfig fs sampleParse "/w/p".toList none).toOption.map fun c => c.build.rustc.map Val.defn) =
    [some (some (some (.path "/w/.cargo/config.toml".toList))), some (some (some (.path "/w/.cargo/config".toList)))] := by decide +kernel

end sample

end CC
