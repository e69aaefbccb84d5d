import Verif.Lemmas.Get
import Verif.Props.Cause
/-
What the example `get` prints: C84.

`toml` stands for the TOML parser; it is assumed that the tables of the documents it returns have distinct keys.
-/
namespace CC

variable {p : ProcEnv} {fs : Fs} {toml : Str → Res Toml} {cwd : Path} {home : Option Path} {docs : List (Path × Toml)}

/-- C84: the lines for one config are the values of the written document that are not tables, each with its place, in the order of
the places. -/
theorem C84_lines (c : Config) : ∃ es : List (List Str × Toml), printConfig .toml c = es.map .ofEntry ∧
    es.Pairwise (fun a b => PlaceBefore a.1 b.1) ∧ ∀ p v, (p, v) ∈ es ↔ c.ser.at p = some v ∧ ∀ l, v ≠ .tbl l :=
  printConfig_entries c

example : printConfig .toml { term := { verbose := some ⟨true, none⟩ }, build := { jobs := some ⟨3, none⟩, rustc := some ⟨"r".toList, none⟩ } } =
    [.setting "build.jobs".toList (.int 3), .setting "build.rustc".toList (.str "r".toList), .setting "term.verbose".toList (.bool true)] := rfl

theorem load_get (hh : HomeOf p {} cwd home) (parse : Str → Res Config) :
    Config.load (.ok cwd) p fs parse = loadConfig fs parse cwd home := by
  show loadConfig fs parse cwd (p.cargoHomeWithCwd cwd) = _
  rw [cargoHome_of_rule hh]

theorem merged_shows (ht : ∀ s t, toml s = .ok t → t.DistinctKeys) (hdocs : DocumentsOf fs toml cwd home docs) (hg : DocsGood docs) :
    ∃ c es, loadConfig fs (fun s => toml s >>= Config.de) cwd home = .ok c ∧ printConfig .toml c = es.map .ofEntry ∧ Shows docs es ∧
      ∀ p v, (p, v) ∈ es ↔ c.ser.at p = some v ∧ ∀ l, v ≠ .tbl l := by
  obtain ⟨c, hc⟩ := load_of_docs ht hdocs hg
  obtain ⟨docs', raws', h1, _, hf, hr⟩ := load_unpack ht hc
  cases documents_unique h1 hdocs
  obtain ⟨raws, hf', hm⟩ := loadPaths_ok.1 hc
  rw [filesRead_unique hf hf'] at hr
  obtain ⟨es, h⟩ := shows_of hr (located_wf (fun s c => toml_wf s c) hf') hm
  exact ⟨c, es, hc, h⟩

/-- C84, `--merged=yes`: if the config files that apply are in order, the settings of all of them taken together are printed, each
once, in order, and nothing else. -/
theorem C84_merged (ht : ∀ s t, toml s = .ok t → t.DistinctKeys) (hh : HomeOf p {} cwd home) (hdocs : DocumentsOf fs toml cwd home docs)
    (hg : DocsGood docs) : ∃ es ns, Shows docs es ∧
      getMain (.ok cwd) p fs (fun s => toml s >>= Config.de) .toml .yes = (es.map .ofEntry, some ns, .ok ()) := by
  obtain ⟨c, es, h1, h2, h3, _⟩ := merged_shows ht hdocs hg
  refine ⟨es, getNotes p.vars, h3, ?_⟩
  simp only [getMain, getPrint, load_get hh, h1, h2]

/-- The sample files meet the conditions. -/
example : HomeOf sampleProc {} "/w/p".toList none ∧ ∃ docs, DocumentsOf sampleFs sampleToml "/w/p".toList none docs ∧ DocsGood docs := by
  refine ⟨.nothing _ (.inl rfl), ?_⟩
  have hok : (loadConfig sampleFs (fun s => sampleToml s >>= Config.de) "/w/p".toList none).isOk = true := by decide +kernel
  generalize hr : loadConfig sampleFs (fun s => sampleToml s >>= Config.de) "/w/p".toList none = r at hok
  cases r with
  | ok c =>
    obtain ⟨docs, _, h1, h2, _⟩ := load_unpack sampleToml_distinct hr
    exact ⟨docs, h1, h2⟩
  | err e => cases hok
  | panic => cases hok

/-- The sample files: `jobs` is from the nearer one, `rustflags` are joined and the entry of `[env]` is combined.  The variable
`CARGO_HTTP_TIMEOUT` is listed, but has no effect. -/
example : getMain (.ok "/w/p".toList) sampleProc sampleFs (fun s => sampleToml s >>= Config.de) .toml .yes =
    ([.setting "build.jobs".toList (.int 4), .setting "build.rustc".toList (.str "bin/rustc".toList),
      .setting "build.rustflags".toList (.arr [.str "-O".toList, .str "-g".toList]),
      .setting "build.target".toList (.str "spec/a.json".toList), .setting "env.E.relative".toList (.bool true),
      .setting "env.E.value".toList (.str "x".toList), .setting "http.timeout".toList (.int 30)],
      some [("CARGO_HTTP_TIMEOUT".toList, "5".toList)], .ok ()) := rfl

/-- C84, `--merged=yes --format=json`: one document with the same settings. -/
theorem C84_json (ht : ∀ s t, toml s = .ok t → t.DistinctKeys) (hh : HomeOf p {} cwd home) (hdocs : DocumentsOf fs toml cwd home docs)
    (hg : DocsGood docs) : ∃ es doc ns, Shows docs es ∧ (∀ p v, (p, v) ∈ es ↔ doc.at p = some v ∧ ∀ l, v ≠ .tbl l) ∧
      getMain (.ok cwd) p fs (fun s => toml s >>= Config.de) .json .yes = ([.json doc], some ns, .ok ()) := by
  obtain ⟨c, es, h1, h2, h3, h4⟩ := merged_shows ht hdocs hg
  refine ⟨es, c.ser, getNotes p.vars, h3, h4, ?_⟩
  simp only [getMain, getPrint, load_get hh, h1]
  rfl

/-- C84, `--merged=yes`: otherwise nothing is printed, and there is an error. -/
theorem C84_merged_fails (ht : ∀ s t, toml s = .ok t → t.DistinctKeys) (hh : HomeOf p {} cwd home) (hr : ∀ f, fs.read f ≠ .panic)
    (hp : ∀ s, toml s ≠ .panic) (h : ¬ ∃ docs, DocumentsOf fs toml cwd home docs ∧ DocsGood docs) (format : GetFormat) :
    ∃ e, getMain (.ok cwd) p fs (fun s => toml s >>= Config.de) format .yes = ([], none, .err e) := by
  cases hl : loadConfig fs (fun s => toml s >>= Config.de) cwd home with
  | ok c =>
    obtain ⟨docs, _, h1, hg, _⟩ := load_unpack ht hl
    exact absurd ⟨docs, h1, hg⟩ h
  | err e => exact ⟨e, by simp only [getMain, getPrint, load_get hh, hl]⟩
  | panic => exact absurd hl (C12_no_panic hr fun s => Res.bind_ne_panic (hp s) fun t _ => Config.de_ne_panic t)

/-- `build.rustflags` as a string in one file and as an array in the other: an error with `--merged=yes` ... -/
def apartToml (s : Str) : Res Toml :=
  if s = "near".toList then .ok (.tbl [("build".toList, .tbl [("rustflags".toList, .str "-g -O".toList)])]) else sampleToml s

example : (getMain (.ok "/w/p".toList) {} sampleFs (fun s => apartToml s >>= Config.de) .toml .yes).1 = [] ∧
    (getMain (.ok "/w/p".toList) {} sampleFs (fun s => apartToml s >>= Config.de) .toml .yes).2.2.isErr = true := ⟨rfl, rfl⟩

/-- ... but not with `--merged=no`. -/
example : getMain (.ok "/w/p".toList) {} sampleFs (fun s => apartToml s >>= Config.de) .toml .no =
    ([.comment "/w/p/.cargo/config".toList, .setting "build.rustflags".toList (.arr [.str "-g".toList, .str "-O".toList]), .blank,
      .comment "/w/.cargo/config.toml".toList,
      .setting "build.jobs".toList (.int 8), .setting "build.rustc".toList (.str "bin/rustc".toList),
      .setting "build.rustflags".toList (.arr [.str "-O".toList]),
      .setting "build.target".toList (.str "spec/a.json".toList), .setting "env.E.relative".toList (.bool true),
      .setting "env.E.value".toList (.str "y".toList), .setting "http.timeout".toList (.int 30), .blank],
      some [], .ok ()) := rfl

theorem walk_of_files (hh : HomeOf p {} cwd home) {files : List Path} (hf : FilesOf fs cwd home files) :
    walk fs.ex cwd (p.cargoHomeWithCwd cwd) = files := by
  rw [cargoHome_of_rule hh]
  obtain ⟨dirs, d1, d2⟩ := C01_walk fs.ex cwd home
  obtain ⟨dirs', d1', d2'⟩ := hf
  exact C01_spec_functional _ _ _ _ _ _ _ d1 d1' d2 d2'

/-- C84, `--merged=no`: for each config file that applies, nearest first, its name and its settings.  The files need not agree in how
they write what can be written in two ways. -/
theorem C84_unmerged (ht : ∀ s t, toml s = .ok t → t.DistinctKeys) (hh : HomeOf p {} cwd home) (hdocs : DocumentsOf fs toml cwd home docs)
    (hc : ∀ f t, (f, t) ∈ docs → t.IsConfig) : ∃ ls ns, FileBlocks docs ls ∧
      getMain (.ok cwd) p fs (fun s => toml s >>= Config.de) .toml .no = (ls, some ns, .ok ()) := by
  obtain ⟨dirs, d1, d2, d3⟩ := hdocs
  obtain ⟨ls, h1, h2⟩ := getFiles_append ht docs [] d3 hc
  refine ⟨ls, getNotes p.vars, h1, ?_⟩
  rw [List.append_nil] at h2
  simp only [getMain, getPrint, reduceCtorEq, if_false, walk_of_files hh ⟨dirs, d1, d2⟩, h2, getFiles, List.append_nil]

/-- C84, `--merged=no`: at the first file that is not in order it ends with an error about that file; the files before it have been
printed. -/
theorem C84_unmerged_stops (ht : ∀ s t, toml s = .ok t → t.DistinctKeys) (hh : HomeOf p {} cwd home) (hr : ∀ f, fs.read f ≠ .panic)
    (hp : ∀ s, toml s ≠ .panic) {f : Path} {rest : List Path} (hf : FilesOf fs cwd home (docs.map Prod.fst ++ f :: rest))
    (hd : ∀ f t, (f, t) ∈ docs → ∃ text, fs.read f = .ok text ∧ toml text = .ok t) (hc : ∀ f t, (f, t) ∈ docs → t.IsConfig)
    (hb : ∀ text t, fs.read f = .ok text → toml text = .ok t → ¬ t.IsConfig) :
    ∃ ls e, FileBlocks docs ls ∧ getMain (.ok cwd) p fs (fun s => toml s >>= Config.de) .toml .no = (ls, none, .err e) ∧
      ∀ sh, FileBlamed fs toml [f] (e.display sh) e.source := by
  obtain ⟨ls, h1, h2⟩ := getFiles_append ht docs (f :: rest) hd hc
  cases hl : loadFile fs (fun s => toml s >>= Config.de) f with
  | ok c =>
    obtain ⟨raw, ⟨text, h3, h4⟩, _⟩ := loadFile_ok.1 hl
    obtain ⟨t, h5, h6⟩ := Res.bind_eq_ok.1 h4
    exact absurd ((C62_accepted_iff t (ht _ _ h5)).1 ⟨raw, h6⟩) (hb text t h3 h5)
  | err e =>
    refine ⟨ls, e, h1, ?_, fun sh => loadFile_blame (docs := []) ⟨⟨[], rfl⟩, fun _ _ h => (by cases h), ⟨fun _ _ h => (by cases h), .nil⟩⟩ ht hl sh⟩
    simp only [getMain, getPrint, reduceCtorEq, if_false, walk_of_files hh hf, h2, getFiles, hl, List.append_nil]
  | panic =>
    unfold loadFile at hl
    refine absurd hl (Res.bind_ne_panic ?_ fun text _ => Res.bind_ne_panic ?_ fun c _ h => by cases h)
    · have := hr f
      generalize fs.read f = r at this
      cases r with
      | panic => exact absurd rfl this
      | _ => intro h; cases h
    · have : (toml text >>= Config.de) ≠ .panic := Res.bind_ne_panic (hp text) fun t _ => Config.de_ne_panic t
      show Res.withContext (toml text >>= Config.de) _ _ _ ≠ _
      generalize (toml text >>= Config.de) = r at this
      cases r with
      | panic => exact absurd rfl this
      | _ => intro h; cases h

/-- The farther file is not a config. -/
def badFarToml (s : Str) : Res Toml :=
  if s = "near".toList then .ok sampleNearDoc else .ok (.tbl [("build".toList, .tbl [("jobs".toList, .str "many".toList)])])

example : (getMain (.ok "/w/p".toList) {} sampleFs (fun s => badFarToml s >>= Config.de) .toml .no).1 =
      [.comment "/w/p/.cargo/config".toList, .setting "build.jobs".toList (.int 4),
      .setting "build.rustflags".toList (.arr [.str "-g".toList]), .setting "env.E.value".toList (.str "x".toList), .blank] ∧
    (getMain (.ok "/w/p".toList) {} sampleFs (fun s => badFarToml s >>= Config.de) .toml .no).2.2.isErr = true := ⟨rfl, rfl⟩

/-- C84: `--format=json` is refused with `--merged=no`, whatever the files are. -/
theorem C84_json_unmerged (current : Res Path) (p : ProcEnv) (fs : Fs) (parse : Str → Res Config) :
    ∃ e, getMain current p fs parse .json .no = ([], none, .err e) ∧ ∀ sh,
      e.display sh = "the `json` format does not support --merged=no, try the `toml` format instead".toList :=
  ⟨_, rfl, fun _ => rfl⟩

/-- C84: the variables have no influence on what is printed, except that `CARGO_HOME` is one of the places to look for a config
file. -/
theorem C84_environment (current : Res Path) {p p' : ProcEnv} (fs : Fs) (parse : Str → Res Config) (format : GetFormat)
    (merged : GetMerged) (h1 : firstValue p.vars "CARGO_HOME".toList = firstValue p'.vars "CARGO_HOME".toList) (h2 : p.home = p'.home) :
    (getMain current p fs parse format merged).1 = (getMain current p' fs parse format merged).1 ∧
    (getMain current p fs parse format merged).2.2 = (getMain current p' fs parse format merged).2.2 := by
  have key : ∀ q : ProcEnv, q.varOs "CARGO_HOME".toList = firstValue q.vars "CARGO_HOME".toList := fun q => by
    unfold firstValue ProcEnv.varOs; rw [List.head?_filter]
  have h : ∀ cwd, p.cargoHomeWithCwd cwd = p'.cargoHomeWithCwd cwd := fun cwd => by
    unfold ProcEnv.cargoHomeWithCwd
    rw [key, key, h1, h2]
  have e : getPrint current p fs parse format merged = getPrint current p' fs parse format merged := by
    simp only [getPrint, Config.load, Config.loadWithCwd, h]
  unfold getMain
  rw [e]
  generalize getPrint current p' fs parse format merged = r
  obtain ⟨ls, r⟩ := r
  cases r <;> exact ⟨rfl, rfl⟩

example : firstValue [(.unicode "CARGO_BUILD_JOBS".toList, .unicode "9".toList)] "CARGO_HOME".toList = firstValue [] "CARGO_HOME".toList := by
  decide +kernel

/-- C84: the note lists the variables that are Unicode and begin with `CARGO_`. -/
theorem C84_notes {current : Res Path} {p : ProcEnv} {fs : Fs} {parse : Str → Res Config} {format : GetFormat} {merged : GetMerged}
    {ls : List GetLine} {ns : List (Str × Str)} {r : Res Unit} (h : getMain current p fs parse format merged = (ls, some ns, r)) :
    ∀ k v, (k, v) ∈ ns ↔ (.unicode k, .unicode v) ∈ p.vars ∧ ∃ s, k = "CARGO_".toList ++ s := by
  have e : ns = getNotes p.vars := by
    unfold getMain at h
    generalize getPrint current p fs parse format merged = q at h
    obtain ⟨ls, q⟩ := q
    cases q <;> cases h
    rfl
  subst e
  exact mem_getNotes p.vars

example : getNotes [(.unicode "CARGO_HOME".toList, .unicode "/h".toList), (.unicode "CARGO".toList, .unicode "c".toList),
    (.unicode "CARGO_X".toList, .invalid [255])] = [("CARGO_HOME".toList, "/h".toList)] := by decide +kernel

/-- C84: the lines do not tell which keys have dots in them: an entry `"A.value"` of `[env]` is printed like the value of an entry `A`
that is a table. -/
theorem C84_ambiguous : ∃ t t' : Toml, ∃ c c' : Config, Config.de t = .ok c ∧ Config.de t' = .ok c' ∧
    printConfig .toml c = printConfig .toml c' ∧ ScalarKey.get c (.envValue "A".toList) ≠ ScalarKey.get c' (.envValue "A".toList) := by
  refine ⟨.tbl [("env".toList, .tbl [("A.value".toList, .str "x".toList)])],
    .tbl [("env".toList, .tbl [("A".toList, .tbl [("value".toList, .str "x".toList)])])],
    { env := [("A.value".toList, .value ⟨"x".toList, none⟩)] }, { env := [("A".toList, .table ⟨"x".toList, none⟩ none none)] },
    rfl, rfl, rfl, by decide⟩

/-- C84: if no key has a dot in it, the lines determine all settings. -/
theorem C84_determined {c c' : Config} (h : printConfig .toml c = printConfig .toml c')
    (hc : ∀ p v, c.ser.at p = some v → ∀ s ∈ p, '.' ∉ s) (hc' : ∀ p v, c'.ser.at p = some v → ∀ s ∈ p, '.' ∉ s) :
    ∀ p v, (∀ l, v ≠ .tbl l) → (c.ser.at p = some v ↔ c'.ser.at p = some v) := by
  obtain ⟨es, h1, _, h3⟩ := printConfig_entries c
  obtain ⟨es', h1', _, h3'⟩ := printConfig_entries c'
  have key : ∀ {c c' : Config} {es es' : List (List Str × Toml)},
      (∀ p v, (p, v) ∈ es ↔ c.ser.at p = some v ∧ ∀ l, v ≠ .tbl l) → (∀ p v, (p, v) ∈ es' ↔ c'.ser.at p = some v ∧ ∀ l, v ≠ .tbl l) →
      (∀ p v, c.ser.at p = some v → ∀ s ∈ p, '.' ∉ s) → (∀ p v, c'.ser.at p = some v → ∀ s ∈ p, '.' ∉ s) →
      es.map GetLine.ofEntry = es'.map .ofEntry → ∀ p v, (∀ l, v ≠ .tbl l) → c.ser.at p = some v → c'.ser.at p = some v := by
    intro c c' es es' g g' d d' e p v hv hp
    have hm : GetLine.ofEntry (p, v) ∈ es'.map .ofEntry := by
      rw [← e]; exact List.mem_map_of_mem ((g p v).2 ⟨hp, hv⟩)
    obtain ⟨⟨q, w⟩, hq, he⟩ := List.mem_map.1 hm
    obtain ⟨hq, _⟩ := (g' q w).1 hq
    have h1 : joinWith '.' q = joinWith '.' p := by injection he
    have h2 : w = v := by injection he
    subst h2
    have np : p ≠ [] := by
      rintro rfl
      obtain ⟨l, hl, _⟩ := Config.ser_get c
      rw [hl] at hp; cases hp; exact hv l rfl
    have nq : q ≠ [] := by
      rintro rfl
      obtain ⟨l, hl, _⟩ := Config.ser_get c'
      rw [hl] at hq; cases hq; exact hv l rfl
    rw [← joinWith_inj np nq (d p _ hp) (d' q _ hq) h1.symm] at hq
    exact hq
  rw [h1, h1'] at h
  intro p v hv
  exact ⟨key h3 h3' hc hc' h p v hv, key h3' h3 hc' hc h.symm p v hv⟩

example : ∀ s ∈ ["build".toList, "jobs".toList], '.' ∉ s := by decide

/-- C84: the command line.  Each option is taken once; the defaults are `toml` and `yes`. -/
theorem C84_arguments (f : GetFormat) (m : GetMerged) (as : List GetArg) : getArgs as = .ok (.run f m) ↔
    ∃ fs ms : List Str, as.Perm (fs.map .format ++ ms.map .merged) ∧
      (fs = [] ∧ f = .toml ∨ fs = ["toml".toList] ∧ f = .toml ∨ fs = ["json".toList] ∧ f = .json) ∧
      (ms = [] ∧ m = .yes ∨ ms = ["yes".toList] ∧ m = .yes ∨ ms = ["no".toList] ∧ m = .no) := by
  constructor
  · intro h
    rcases args_run h with ⟨rfl, rfl, rfl⟩ | ⟨s, rfl, hf, rfl⟩ | ⟨s, rfl, hm, rfl⟩ | ⟨s, t, h, hf, hm⟩
    · exact ⟨[], [], .refl _, .inl ⟨rfl, rfl⟩, .inl ⟨rfl, rfl⟩⟩
    · exact ⟨[s], [], .refl _, .inr (by simpa using getFormat_parse.1 hf), .inl ⟨rfl, rfl⟩⟩
    · exact ⟨[], [s], .refl _, .inl ⟨rfl, rfl⟩, .inr (by simpa using getMerged_parse.1 hm)⟩
    · refine ⟨[s], [t], ?_, .inr (by simpa using getFormat_parse.1 hf), .inr (by simpa using getMerged_parse.1 hm)⟩
      rcases h with rfl | rfl
      · exact .refl _
      · exact .swap _ _ _
  · rintro ⟨fs, ms, h, hf, hm⟩
    rcases hf with ⟨rfl, rfl⟩ | ⟨rfl, rfl⟩ | ⟨rfl, rfl⟩ <;> rcases hm with ⟨rfl, rfl⟩ | ⟨rfl, rfl⟩ | ⟨rfl, rfl⟩
    · rw [List.perm_nil.1 h]; rfl
    · rw [List.perm_singleton.1 h]; rfl
    · rw [List.perm_singleton.1 h]; rfl
    · rw [List.perm_singleton.1 h]; rfl
    · rcases perm_pair h with h | h <;> rw [h] <;> rfl
    · rcases perm_pair h with h | h <;> rw [h] <;> rfl
    · rw [List.perm_singleton.1 h]; rfl
    · rcases perm_pair h with h | h <;> rw [h] <;> rfl
    · rcases perm_pair h with h | h <;> rw [h] <;> rfl

example : getArgs [.merged "no".toList, .format "toml".toList] = .ok (.run .toml .no) := rfl
example : (getArgs [.format "toml".toList, .format "toml".toList]).isErr = true := rfl

end CC
