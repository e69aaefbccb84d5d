import Verif.Lemmas.EnvOrFile
import Verif.Props.TargetDocs
/-
A setting may be stated in the environment or in the config file of the current directory: C92.
-/
namespace CC

variable {p p' : ProcEnv} {fs fs' : Fs} {toml toml' : Str → Res Toml} {cwd cwd' : Path} {o o' : Options} {c c' : EConfig} {s s' : Cells}
  {look look' : Str → Option OsStr} {home home' : Option Path} {docs docs' : List (Path × Toml)}

/-- C92, settings taken over as they are: it makes no difference whether a variable states the value or the config file of the current
directory does. -/
theorem C92_plain (h : Loads p fs toml cwd o look home docs c s) (h' : Loads p' fs' toml' cwd o' look' home' docs' c' s')
    (k : ScalarKey) {a : Atom} (he : k.InEnv look a) (hf : k.InFileHere cwd look' docs' a) : k.plain c = k.plain c' := by
  obtain ⟨de, hb⟩ := h.behind
  obtain ⟨de', hb'⟩ := h'.behind
  obtain ⟨n, hs⟩ := source_inEnv (docs := docs) he
  obtain ⟨f, _, hs'⟩ := source_inFile hf
  have g := hb.scalar k
  have g' := hb'.scalar k
  rw [hs] at g
  rw [hs'] at g'
  have hv : (k.get de).map Val.val = (k.get de').map Val.val := scalarVal_inj k (by
    have e := congrArg (Option.map Prod.fst) g
    have e' := congrArg (Option.map Prod.fst) g'
    simp only [Option.map_map, Function.comp_def, Option.map_some] at e e'
    exact e.trans e'.symm)
  have e1 := fun x => hb.plain k (x := x)
  have e2 := fun x => hb'.plain k (x := x)
  have e3 : (k.plain c).isSome = (k.plain c').isSome := by cases k <;> rfl
  generalize k.plain c = u at *
  generalize k.plain c' = v at *
  cases u with
  | none => cases v with
    | none => rfl
    | some b => cases e3
  | some u => cases v with
    | none => cases e3
    | some v => rw [e1 u rfl, e2 v rfl, hv]

/-- C92, programs: likewise; the two paths are equal as paths (they may differ in repeated slashes and the like). -/
theorem C92_programs (h : Loads p fs toml cwd o look home docs c s) (h' : Loads p' fs' toml' cwd o' look' home' docs' c' s')
    (k : ScalarKey) {a : Atom} (he : k.InEnv look a) (hf : k.InFileHere cwd look' docs' a) {x x' : Option Path}
    (hx : k.program c = some x) (hx' : k.program c' = some x') : ∃ y y', x = some y ∧ x' = some y' ∧ SamePath y y' := by
  obtain ⟨n, hs⟩ := source_inEnv (docs := docs) he
  obtain ⟨f, hh, hs'⟩ := source_inFile hf
  have g := C57_programs h k x hx
  have g' := C57_programs h' k x' hx'
  rw [hs] at g
  rw [hs'] at g'
  cases g with
  | some g => cases g' with
    | some g' =>
      obtain ⟨t, e, g⟩ := g
      obtain ⟨t', e', g'⟩ := g'
      cases Toml.str.inj (e.symm.trans e')
      exact ⟨_, _, rfl, rfl, programPath_here hh g g'⟩

/-- C92, directories: likewise. -/
theorem C92_directories (h : Loads p fs toml cwd o look home docs c s) (h' : Loads p' fs' toml' cwd o' look' home' docs' c' s')
    (k : ScalarKey) {a : Atom} (he : k.InEnv look a) (hf : k.InFileHere cwd look' docs' a) {x x' : Option Path}
    (hx : k.directory c = some x) (hx' : k.directory c' = some x') : ∃ y y', x = some y ∧ x' = some y' ∧ SamePath y y' := by
  obtain ⟨n, hs⟩ := source_inEnv (docs := docs) he
  obtain ⟨f, hh, hs'⟩ := source_inFile hf
  have g := C57_directories h k x hx
  have g' := C57_directories h' k x' hx'
  rw [hs] at g
  rw [hs'] at g'
  cases g with
  | some g => cases g' with
    | some g' =>
      obtain ⟨t, e, g⟩ := g
      obtain ⟨t', e', g'⟩ := g'
      cases Toml.str.inj (e.symm.trans e')
      exact ⟨_, _, rfl, rfl, dirPath_here hh g g'⟩

/-- C92, lists of strings: likewise, if no other config file mentions the list (those of several files would be joined). -/
theorem C92_lists (h : Loads p fs toml cwd o look home docs c s) (h' : Loads p' fs' toml' cwd o' look' home' docs' c' s')
    (k : ListKey) {ws : List Str} (he : k.InEnv look ws) (hf : k.InFileHere cwd look' docs' ws) : k.plain c = k.plain c' := by
  have e1 : ∀ x, k.plain c = some x → x = some ws := fun x hx => by
    obtain ⟨y, hy, rfl⟩ := C57_lists h k x hx
    obtain ⟨n, r, rfl⟩ := list_inEnv he hy
    simp [Function.comp_def]
  have e2 : ∀ x, k.plain c' = some x → x = some ws := fun x hx => by
    obtain ⟨y, hy, rfl⟩ := C57_lists h' k x hx
    obtain ⟨f, r, _, rfl⟩ := list_inFile hf hy
    simp [Function.comp_def]
  have e3 : (k.plain c).isSome = (k.plain c').isSome := by cases k <;> rfl
  generalize k.plain c = u at *
  generalize k.plain c' = v at *
  cases u with
  | none => cases v with
    | none => rfl
    | some b => cases e3
  | some u => cases v with
    | none => cases e3
    | some v => rw [e1 u rfl, e2 v rfl]

/-- C92, `build.target`: likewise; spec files are the same files. -/
theorem C92_build_target (h : Loads p fs toml cwd o look home docs c s) (h' : Loads p' fs' toml' cwd o' look' home' docs' c' s')
    {ws : List Str} (he : ListKey.buildTarget.InEnv look ws) (hf : ListKey.buildTarget.InFileHere cwd look' docs' ws) :
    ∃ l l', c.build.target = some l ∧ c'.build.target = some l' ∧ ListRel SameTarget l l' := by
  obtain ⟨y, hy, g⟩ := C57_build_target h
  obtain ⟨y', hy', g'⟩ := C57_build_target h'
  obtain ⟨n, r, rfl⟩ := list_inEnv he hy
  obtain ⟨f, r', hh, rfl⟩ := list_inFile hf hy'
  generalize c.build.target = u at *
  generalize c'.build.target = v at *
  cases g with
  | some g => cases g' with
    | some g' => exact ⟨_, _, rfl, rfl, targets_here hh g g'⟩

/-- C92, the linker of a target: it makes no difference whether `CARGO_TARGET_<TRIPLE>_LINKER` states it or `target.<triple>.linker` in
the config file of the current directory. -/
theorem C92_linker (h : Loads p fs toml cwd o look home docs c s) (h' : Loads p' fs' toml' cwd o' look' home' docs' c' s')
    {t : TargetTriple} {w w' : World} {e e' : ETarget} {z z' : Cells} (hq : c.target t w s = (.ok e, z))
    (hq' : c'.target t w' s' = (.ok e', z')) {text : Str}
    (he : look (targetEnvName t.triple "LINKER") = some (.unicode text))
    (hn : look' (targetEnvName t.triple "LINKER") = none)
    {f : Path} {doc : Toml} {rest : List (Path × Toml)} (hd : docs' = (f, doc) :: rest) (hf : IsConfigHere cwd f)
    (ht : doc.at ["target".toList, t.triple, "linker".toList] = some (.str text)) :
    ∃ y y', e.linker = some y ∧ e'.linker = some y' ∧ SamePath y y' := by
  subst hd
  obtain ⟨_, ⟨ks, hk, _⟩, _⟩ := C63_tables h hq
  obtain ⟨_, ⟨ks', hk', _⟩, _⟩ := C63_tables h' hq'
  have g := C63_linker h hq hk
  have g' := C63_linker h' hq' hk'
  have hs' : (ScalarKey.targetLinker t.triple).source look' ((f, doc) :: rest) = some (.str text, .path f) := by
    have : doc.at ((ScalarKey.targetLinker t.triple).path doc.envIsTable) = some (.str text) := ht
    have hr : readEnv look' (ScalarKey.targetLinker t.triple).consulted = none := rfl
    simp only [ScalarKey.source, hr, List.map_cons, this, Option.map_some, firstSome]
  simp only [textOf, he, Option.map_some, firstSome] at g
  simp only [textOf, hn, Option.map_none, List.map_cons, hs', firstSome] at g'
  generalize e.linker = u at *
  generalize e'.linker = v at *
  cases g with
  | some g => cases g' with
    | some g' =>
      obtain ⟨x, e, g⟩ := g
      obtain ⟨x', e', g'⟩ := g'
      cases Toml.str.inj e
      cases Toml.str.inj e'
      exact ⟨_, _, rfl, rfl, programPath_here hf g g'⟩

/-- C92, the runner of a target: likewise, if no other config file mentions it. -/
theorem C92_runner (h : Loads p fs toml cwd o look home docs c s) (h' : Loads p' fs' toml' cwd o' look' home' docs' c' s')
    {t : TargetTriple} {w w' : World} {e e' : ETarget} {z z' : Cells} (hq : c.target t w s = (.ok e, z))
    (hq' : c'.target t w' s' = (.ok e', z')) {text : Str}
    (he : look (targetEnvName t.triple "RUNNER") = some (.unicode text))
    (hn : look' (targetEnvName t.triple "RUNNER") = none)
    {f : Path} {doc x : Toml} {r : Repr'} {rest : List (Path × Toml)} (hd : docs' = (f, doc) :: rest) (hf : IsConfigHere cwd f)
    (ht : doc.at ["target".toList, t.triple, "runner".toList] = some x) (hx : TomlList true x r (wordsIn text))
    (hr : ∀ f' d', (f', d') ∈ rest → d'.at ["target".toList, t.triple, "runner".toList] = none) :
    ∃ y y', e.runner = some y ∧ e'.runner = some y' ∧ SamePath y.path y'.path ∧ y.args = y'.args := by
  subst hd
  obtain ⟨_, ⟨ks, hk, _⟩, _⟩ := C63_tables h hq
  obtain ⟨_, ⟨ks', hk', _⟩, _⟩ := C63_tables h' hq'
  obtain ⟨ys, g1, g⟩ := C63_runner h hq hk
  obtain ⟨ys', g1', g'⟩ := C63_runner h' hq' hk'
  cases g1' with
  | cons a b =>
    obtain ⟨xs, l1, l2, _⟩ := a
    have l1' : ListsIn true ["target".toList, t.triple, "runner".toList] ((f, doc) :: rest) xs := l1
    cases l1' with
    | unset h2 => rw [ht] at h2; cases h2
    | set h2 h3 h4 =>
      cases ht.symm.trans h2
      cases listsIn_none h4 hr
      obtain ⟨rfl, rfl⟩ := tomlList_unique hx h3
      obtain ⟨r', e2⟩ := joinedProg_one (l2 (by simp))
      subst e2
      simp only [textOf, he, Option.map_some, firstSome] at g
      simp only [textOf, hn, Option.map_none, List.map_cons, Option.map_some, firstSome] at g'
      generalize e.runner = u at *
      generalize e'.runner = v at *
      cases g with
      | some g => cases g' with
        | some g' =>
          obtain ⟨v1, a1, e1, p1, q1⟩ := g
          obtain ⟨v2, a2, e2, p2, q2⟩ := g'
          cases hw : wordsIn text with
          | nil => rw [hw] at e1; cases e1
          | cons w0 ws =>
            rw [hw, List.map_cons, List.cons.injEq] at e1 e2
            obtain ⟨rfl, rfl⟩ := e1
            obtain ⟨rfl, rfl⟩ := e2
            exact ⟨_, _, rfl, rfl, programPath_here hf p1 p2, by rw [q1, q2]; simp [Function.comp_def]⟩

/-! ### a sample -/

/-- The process states in its environment what `/w/p/.cargo/config` says in the sample of Props/EndToEnd.lean. -/
def statingProc : ProcEnv :=
  { vars := [(.unicode "CARGO_BUILD_JOBS".toList, .unicode "4".toList), (.unicode "RUSTFLAGS".toList, .unicode "-O -g".toList),
      (.unicode "RUSTC".toList, .unicode "bin/rustc".toList), (.unicode "CARGO_BUILD_TARGET".toList, .unicode "spec/a.json".toList),
      (.unicode "CARGO_TARGET_DIR".toList, .unicode "out".toList), (.unicode "CARGO_TARGET_A_B_LINKER".toList, .unicode "bin/ld".toList),
      (.unicode "CARGO_TARGET_A_B_RUNNER".toList, .unicode "bin/run -x".toList)]
    home := none }

/-- A document saying the same. -/
def statingDoc : Toml := .tbl [("build".toList, .tbl [("jobs".toList, .int 4), ("rustflags".toList, .arr [.str "-O".toList, .str "-g".toList]),
  ("rustc".toList, .str "bin/rustc".toList), ("target".toList, .str "spec/a.json".toList),
  ("target-dir".toList, .str "out".toList)]),
  ("target".toList, .tbl [("a-b".toList, .tbl [("linker".toList, .str "bin/ld".toList),
    ("runner".toList, .arr [.str "bin/run".toList, .str "-x".toList])])])]

/-- It is the only config file, `/w/p/.cargo/config`. -/
def statingFs : Fs where
  ex f := decide (f = "/w/p/.cargo/config".toList)
  read f := if f = "/w/p/.cargo/config".toList then .ok [] else .err (.io [])

theorem sample_stating_distinct (s : Str) (t : Toml) (h : (fun _ => Res.ok statingDoc : Str → Res Toml) s = .ok t) : t.DistinctKeys := by
  cases h
  refine distinct_tbl (by decide) fun x hx => ?_
  simp only [List.mem_cons, List.not_mem_nil, or_false] at hx
  rcases hx with rfl | rfl
  · refine distinct_tbl (by decide) fun x hx => ?_
    simp only [List.mem_cons, List.not_mem_nil, or_false] at hx
    rcases hx with rfl | rfl | rfl | rfl | rfl <;> exact distinct_leaf rfl
  · refine distinct_tbl (by decide) fun x hx => ?_
    simp only [List.mem_cons, List.not_mem_nil, or_false] at hx
    subst hx
    refine distinct_tbl (by decide) fun x hx => ?_
    simp only [List.mem_cons, List.not_mem_nil, or_false] at hx
    rcases hx with rfl | rfl <;> exact distinct_leaf rfl

theorem sample_stating_load {p : ProcEnv} {fs : Fs} {toml : Str → Res Toml} {cwd : Path} {o : Options}
    (hd : ∀ s t, toml s = .ok t → t.DistinctKeys) (ho : o.env = none)
    (h : (EConfig.loadWithOptions p fs (fun s => toml s >>= Config.de) cwd o).isOk = true) :
    ∃ look home docs c s, Loads p fs toml cwd o look home docs c s := by
  cases hr : EConfig.loadWithOptions p fs (fun s => toml s >>= Config.de) cwd o with
  | ok r =>
    obtain ⟨c, s⟩ := r
    obtain ⟨look, home, docs, hl, _⟩ := C57_determined hd (fun e he => by rw [ho] at he; cases he) hr
    exact ⟨look, home, docs, c, s, hl⟩
  | err e => rw [hr] at h; cases h
  | panic => rw [hr] at h; cases h

/-- No tool can be started. -/
def statingWorld : World := { checks := true, run := fun _ _ => .notStarted [], exist := fun _ _ => false }

theorem sample_stating_query {p : ProcEnv} {fs : Fs} {toml : Str → Res Toml} {cwd : Path} {o : Options} {t : TargetTriple}
    (hd : ∀ s t, toml s = .ok t → t.DistinctKeys) (ho : o.env = none)
    (h : (match EConfig.loadWithOptions p fs (fun s => toml s >>= Config.de) cwd o with
      | .ok (c, s) => (c.target t statingWorld s).1.isOk
      | _ => false) = true) :
    ∃ look home docs c s e z, Loads p fs toml cwd o look home docs c s ∧ c.target t statingWorld s = (.ok e, z) := by
  cases hr : EConfig.loadWithOptions p fs (fun s => toml s >>= Config.de) cwd o with
  | ok r =>
    obtain ⟨c, s⟩ := r
    obtain ⟨look, home, docs, hl, _⟩ := C57_determined hd (fun e he => by rw [ho] at he; cases he) hr
    rw [hr] at h
    simp only at h
    cases hq : c.target t statingWorld s with
    | mk r z =>
      rw [hq] at h
      cases r with
      | ok e => exact ⟨look, home, docs, c, s, e, z, hl, hq⟩
      | err e => cases h
      | panic => cases h
  | err e => rw [hr] at h; cases h
  | panic => rw [hr] at h; cases h

theorem sample_stating_documents :
    DocumentsOf statingFs (fun _ => .ok statingDoc) "/w/p".toList none [("/w/p/.cargo/config".toList, statingDoc)] := by
  obtain ⟨dirs, d1, d2⟩ := C01_walk statingFs.ex "/w/p".toList none
  refine ⟨dirs, d1, ?_, fun f t h => ?_⟩
  · have : walk statingFs.ex "/w/p".toList none = ["/w/p/.cargo/config".toList] := by decide +kernel
    rw [this] at d2
    exact d2
  · simp only [List.mem_cons, List.not_mem_nil, or_false, Prod.mk.injEq] at h
    obtain ⟨rfl, rfl⟩ := h
    exact ⟨[], by simp only [statingFs, if_pos], rfl⟩

/-- One load takes everything from the environment, where there is no config file; the other takes everything from
`/w/p/.cargo/config`, where no variable is set.  The settings are the same. -/
example : ∃ look docs c s look' docs' c' s',
    Loads statingProc ⟨fun _ => false, fun _ => .err (.io [])⟩ (fun _ => .ok statingDoc) "/w/p".toList { cargoHome := some none }
      look none docs c s ∧
    Loads ⟨[], none⟩ statingFs (fun _ => .ok statingDoc) "/w/p".toList { cargoHome := some none } look' none docs' c' s' ∧
    c.build.jobs = c'.build.jobs ∧ c.build.rustflags.map EFlags.flags = c'.build.rustflags.map EFlags.flags ∧
    (∃ y y', c.build.rustc = some y ∧ c'.build.rustc = some y' ∧ SamePath y y') ∧
    (∃ y y', c.build.targetDir = some y ∧ c'.build.targetDir = some y' ∧ SamePath y y') ∧
    ∃ l l', c.build.target = some l ∧ c'.build.target = some l' ∧ ListRel SameTarget l l' := by
  obtain ⟨look, home, docs, c, s, h⟩ := sample_stating_load (p := statingProc) (fs := ⟨fun _ => false, fun _ => .err (.io [])⟩)
    (cwd := "/w/p".toList) (o := { cargoHome := some none }) sample_stating_distinct rfl (by decide +kernel)
  obtain ⟨look', home', docs', c', s', h'⟩ := sample_stating_load (p := ⟨[], none⟩) (fs := statingFs)
    (cwd := "/w/p".toList) (o := { cargoHome := some none }) sample_stating_distinct rfl (by decide +kernel)
  have e1 : home = none := h.home
  have e2 : home' = none := h'.home
  subst e1 e2
  have e3 := documents_unique h'.docs sample_stating_documents
  subst e3
  have e4 := env_unique h.env (cwd := []) rfl
  have e5 : ∀ n, look' n = none := fun n => by
    rw [← env_unique h'.env (cwd := []) rfl]
    rfl
  subst e4
  refine ⟨_, docs, c, s, look', _, c', s', h, h', ?_, ?_, ?_, ?_, ?_⟩
  · have := C92_plain h h' .buildJobs (a := .int 4) ⟨_, rfl⟩ ⟨fun n _ => e5 n, _, _, _, rfl, .inl rfl, rfl⟩
    exact optMap_inj (fun _ _ e => Atom.int.inj e) (Option.some.inj this)
  · have := C92_lists h h' .buildRustflags (ws := ["-O".toList, "-g".toList]) ⟨_, _, rfl⟩
      ⟨fun n _ => e5 n, _, _, _, _, _, rfl, .inl rfl, rfl, .array ["-O".toList, "-g".toList], fun _ _ h => (by cases h)⟩
    exact Option.some.inj this
  · exact C92_programs h h' .buildRustc (a := .str "bin/rustc".toList) ⟨_, rfl⟩ ⟨fun n _ => e5 n, _, _, _, rfl, .inl rfl, rfl⟩ rfl rfl
  · exact C92_directories h h' .buildTargetDir (a := .str "out".toList) ⟨_, rfl⟩ ⟨fun n _ => e5 n, _, _, _, rfl, .inl rfl, rfl⟩ rfl rfl
  · exact C92_build_target h h' (ws := ["spec/a.json".toList]) ⟨_, _, rfl⟩
      ⟨fun n _ => e5 n, _, _, _, _, _, rfl, .inl rfl, rfl, .whole _ rfl, fun _ _ h => (by cases h)⟩

/-- Likewise for the queries about the target `a-b`. -/
example : ∃ look docs c s look' docs' c' s' e z e' z',
    Loads statingProc ⟨fun _ => false, fun _ => .err (.io [])⟩ (fun _ => .ok statingDoc) "/w/p".toList { cargoHome := some none }
      look none docs c s ∧
    Loads ⟨[], none⟩ statingFs (fun _ => .ok statingDoc) "/w/p".toList { cargoHome := some none } look' none docs' c' s' ∧
    c.target ⟨"a-b".toList, none⟩ statingWorld s = (.ok e, z) ∧ c'.target ⟨"a-b".toList, none⟩ statingWorld s' = (.ok e', z') ∧
    (∃ y y', e.linker = some y ∧ e'.linker = some y' ∧ SamePath y y') ∧
    ∃ y y', e.runner = some y ∧ e'.runner = some y' ∧ SamePath y.path y'.path ∧ y.args = y'.args := by
  obtain ⟨look, home, docs, c, s, e, z, h, hq⟩ := sample_stating_query (p := statingProc) (fs := ⟨fun _ => false, fun _ => .err (.io [])⟩)
    (cwd := "/w/p".toList) (o := { cargoHome := some none }) (t := ⟨"a-b".toList, none⟩) sample_stating_distinct rfl (by decide +kernel)
  obtain ⟨look', home', docs', c', s', e', z', h', hq'⟩ := sample_stating_query (p := ⟨[], none⟩) (fs := statingFs)
    (cwd := "/w/p".toList) (o := { cargoHome := some none }) (t := ⟨"a-b".toList, none⟩) sample_stating_distinct rfl (by decide +kernel)
  have e1 : home = none := h.home
  have e2 : home' = none := h'.home
  subst e1 e2
  have e3 := documents_unique h'.docs sample_stating_documents
  subst e3
  have e4 := env_unique h.env (cwd := []) rfl
  have e5 : ∀ n, look' n = none := fun n => by
    rw [← env_unique h'.env (cwd := []) rfl]
    rfl
  subst e4
  refine ⟨_, docs, c, s, look', _, c', s', e, z, e', z', h, h', hq, hq', ?_, ?_⟩
  · exact C92_linker h h' hq hq' (text := "bin/ld".toList) rfl (e5 _) rfl (.inl rfl) rfl
  · exact C92_runner h h' hq hq' (text := "bin/run -x".toList) rfl (e5 _) rfl (.inl rfl) rfl
      (.array ["bin/run".toList, "-x".toList]) (fun _ _ h => (by cases h))

end CC
