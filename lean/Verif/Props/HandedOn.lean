import Verif.Lemmas.HandedOn
import Verif.Lemmas.EnvOrFile
import Verif.Props.EnvOrFile
/-
Flags handed on in the environment arrive unchanged: C93.
-/
namespace CC

variable {p : ProcEnv} {fs : Fs} {toml : Str → Res Toml} {cwd : Path} {o : Options} {c : EConfig} {s : Cells}
  {look : Str → Option OsStr} {home : Option Path} {docs : List (Path × Toml)}

/-- C93, rustflags: if a program writes the flags `f` to `CARGO_ENCODED_RUSTFLAGS` (or to `RUSTFLAGS`), then a config loaded with that
environment has exactly these flags, at `build.rustflags` and in every answer to `Config::rustflags`, whatever the target is, the config
files say, the tools do and was asked before. -/
theorem C93_rustflags (h : Loads p fs toml cwd o look home docs c s) {f : EFlags}
    (hf : SentEncoded look "CARGO_ENCODED_RUSTFLAGS" f ∨ SentPlain look "CARGO_ENCODED_RUSTFLAGS" "RUSTFLAGS" f) :
    c.build.rustflags = some f ∧ ∀ (qs : List Query) (w : World) (t : TargetTriple) (a : Answer),
      (c.ask (.rustflags t) w (afterAll c w qs s)).1 = .ok a → a = .flags (some f) := by
  obtain ⟨de, cx, raws, g1, g2, g3, g4, g5, g6, g7⟩ := loaded_unpack h.tables h.map h.loaded h.env h.home h.docs
  have hP : ∀ t w s e s', s.target.get t.cliTarget = none → c.target t w s = (.ok e, s') → e.rustflags = some f := by
    intro t w s e s' hs hq
    refine flags_ext ?_
    rcases hf with hf | hf
    · obtain ⟨text, e1, e2⟩ := sentEncoded_pieces hf
      rw [(C29_env g2 g4 hs hq text).1 (by rw [g3]; exact e1), e2]
    · obtain ⟨text, e1, e2⟩ := sentPlain_words hf
      rw [(C29_env g2 g4 hs hq text).2 (by rw [g3]; exact hf.2.1) (by rw [g3]; exact e1), e2]
  constructor
  · refine flags_ext ?_
    have hk : ListKey.InEnv look .buildRustflags f.flags := by
      rcases hf with hf | hf
      · obtain ⟨text, e1, e2⟩ := sentEncoded_pieces hf
        refine ⟨"CARGO_ENCODED_RUSTFLAGS".toList, .array, ?_⟩
        simp only [ListKey.sources, asEncoded, readEnv, e1, e2, Option.map_some]
      · obtain ⟨text, e1, e2⟩ := sentPlain_words hf
        have e0 := hf.2.1
        refine ⟨"RUSTFLAGS".toList, .string, ?_⟩
        simp only [ListKey.sources, asEncoded, asWords, readEnv, e0, e1, e2, Option.map_some]
    obtain ⟨y, hy, e⟩ := C57_lists h .buildRustflags _ rfl
    obtain ⟨n, r, rfl⟩ := list_inEnv hk hy
    rw [e]
    simp [Function.comp_def]
  · intro qs w t a ha
    obtain ⟨e, s', hq, rfl⟩ := ask_ok (t := t) rfl ha
    have hk := always_target (Q := fun _ => True) (P := fun _ e => e.rustflags = some f) (fun t _ => hP t) (C33_loaded h.loaded).1 qs
      (fun _ _ _ _ => trivial) w trivial hq
    simp only [Query.view, hk]

/-- C93, rustdocflags: likewise with `CARGO_ENCODED_RUSTDOCFLAGS` and `RUSTDOCFLAGS`. -/
theorem C93_rustdocflags (h : Loads p fs toml cwd o look home docs c s) {f : EFlags}
    (hf : SentEncoded look "CARGO_ENCODED_RUSTDOCFLAGS" f ∨ SentPlain look "CARGO_ENCODED_RUSTDOCFLAGS" "RUSTDOCFLAGS" f) :
    c.build.rustdocflags = some f ∧ ∀ (qs : List Query) (w : World) (t : TargetTriple) (a : Answer),
      (c.ask (.rustdocflags t) w (afterAll c w qs s)).1 = .ok a → a = .flags (some f) := by
  obtain ⟨de, cx, raws, g1, g2, g3, g4, g5, g6, g7⟩ := loaded_unpack h.tables h.map h.loaded h.env h.home h.docs
  have hP : ∀ t w s e s', s.target.get t.cliTarget = none → c.target t w s = (.ok e, s') → e.rustdocflags = some f := by
    intro t w s e s' hs hq
    refine flags_ext ?_
    rcases hf with hf | hf
    · obtain ⟨text, e1, e2⟩ := sentEncoded_pieces hf
      rw [(C30_env g2 g4 hs hq text).1 (by rw [g3]; exact e1), e2]
    · obtain ⟨text, e1, e2⟩ := sentPlain_words hf
      rw [(C30_env g2 g4 hs hq text).2 (by rw [g3]; exact hf.2.1) (by rw [g3]; exact e1), e2]
  constructor
  · refine flags_ext ?_
    have hk : ListKey.InEnv look .buildRustdocflags f.flags := by
      rcases hf with hf | hf
      · obtain ⟨text, e1, e2⟩ := sentEncoded_pieces hf
        refine ⟨"CARGO_ENCODED_RUSTDOCFLAGS".toList, .array, ?_⟩
        simp only [ListKey.sources, asEncoded, readEnv, e1, e2, Option.map_some]
      · obtain ⟨text, e1, e2⟩ := sentPlain_words hf
        have e0 := hf.2.1
        refine ⟨"RUSTDOCFLAGS".toList, .string, ?_⟩
        simp only [ListKey.sources, asEncoded, asWords, readEnv, e0, e1, e2, Option.map_some]
    obtain ⟨y, hy, e⟩ := C57_lists h .buildRustdocflags _ rfl
    obtain ⟨n, r, rfl⟩ := list_inEnv hk hy
    rw [e]
    simp [Function.comp_def]
  · intro qs w t a ha
    obtain ⟨e, s', hq, rfl⟩ := ask_ok (t := t) rfl ha
    have hk := always_target (Q := fun _ => True) (P := fun _ e => e.rustdocflags = some f) (fun t _ => hP t) (C33_loaded h.loaded).1 qs
      (fun _ _ _ _ => trivial) w trivial hq
    simp only [Query.view, hk]

/-- C93, linker: a linker in `CARGO_TARGET_<triple>_LINKER`, if it is an absolute path or a plain name, is the one every answer to
`Config::linker` for this target has, whatever the config files say, the tools do and was asked before. -/
theorem C93_linker (h : Loads p fs toml cwd o look home docs c s) {t : TargetTriple} (ht : Constructed t) {text : Str}
    (he : look (targetEnvName t.triple "LINKER") = some (.unicode text)) (hp : PortableProgram text) (qs : List Query)
    (hqs : ∀ q ∈ qs, q.Proper) (w : World) (a : Answer) (ha : (c.ask (.linker t) w (afterAll c w qs s)).1 = .ok a) :
    a = .path (some text) := by
  obtain ⟨e, s', hq, rfl⟩ := ask_ok (t := t) rfl ha
  have hk := always_target (Q := Constructed) (P := fun k e => k = t.cliTarget → e.linker = some text)
    (fun t' ht' w s e s' hs hq hk => by
      cases cliTarget_inj ht' ht hk
      obtain ⟨holds, -, g⟩ := C27_linker hs hq
      have hv : envText c.cx.env (targetEnvName t.triple "LINKER") = some text := by simp only [envText, (loads_cx h).2, he]
      simp only [theLinker, hv, Option.map_some, firstSome] at g
      generalize e.linker = u at *
      cases g with
      | some g => rw [programPath_portable (v := ⟨text, _⟩) hp g])
    (C33_loaded h.loaded).1 qs hqs w ht hq rfl
  simp only [Query.view, hk]

/-- C93, runner: likewise with `CARGO_TARGET_<triple>_RUNNER`, whose words are the program and its arguments. -/
theorem C93_runner (h : Loads p fs toml cwd o look home docs c s) {t : TargetTriple} (ht : Constructed t) {text prog : Str} {args : List Str}
    (he : look (targetEnvName t.triple "RUNNER") = some (.unicode text)) (hw : wordsIn text = prog :: args) (hp : PortableProgram prog)
    (qs : List Query) (hqs : ∀ q ∈ qs, q.Proper) (w : World) (a : Answer)
    (ha : (c.ask (.runner t) w (afterAll c w qs s)).1 = .ok a) : a = .prog (some ⟨prog, args⟩) := by
  obtain ⟨e, s', hq, rfl⟩ := ask_ok (t := t) rfl ha
  have hk := always_target (Q := Constructed) (P := fun k e => k = t.cliTarget → e.runner = some ⟨prog, args⟩)
    (fun t' ht' w s e s' hs hq hk => by
      cases cliTarget_inj ht' ht hk
      obtain ⟨holds, -, g⟩ := C28_runner hs hq
      have hv : envText c.cx.env (targetEnvName t.triple "RUNNER") = some text := by simp only [envText, (loads_cx h).2, he]
      simp only [theRunner, hv, Option.map_some, firstSome, hw, List.map_cons] at g
      generalize e.runner = u at *
      cases g with
      | @some _ y g =>
        obtain ⟨v, l, e1, e2, e3⟩ := g
        obtain ⟨y1, y2⟩ := y
        simp only [List.cons.injEq] at e1
        obtain ⟨rfl, rfl⟩ := e1
        have e4 := programPath_portable (v := ⟨prog, _⟩) hp e2
        simp only at e3 e4
        rw [e3, e4]
        simp [Function.comp_def])
    (C33_loaded h.loaded).1 qs hqs w ht hq rfl
  simp only [Query.view, hk]

/-- C93, programs: a program stated by the first set variable of a setting (such as `RUSTC`), if it is an absolute path or a plain name,
is the one the resolved config has. -/
theorem C93_programs (h : Loads p fs toml cwd o look home docs c s) (k : ScalarKey) {y : Option Path} (hy : k.program c = some y) {text : Str}
    (he : k.InEnv look (.str text)) (hp : PortableProgram text) : y = some text := by
  have g := C57_programs h k y hy
  obtain ⟨n, e⟩ := source_inEnv (docs := docs) he
  rw [e] at g
  cases g with
  | some g =>
    obtain ⟨t, e1, g⟩ := g
    cases Toml.str.inj e1
    rw [programPath_portable (v := ⟨text, _⟩) hp g]

/-- The compiler handed on in `RUSTC`. -/
example : ∃ look docs c s, Loads ⟨[(.unicode "RUSTC".toList, .unicode "/bin/rustc".toList)], none⟩ statingFs (fun _ => .ok statingDoc) "/w/p".toList
      { cargoHome := some none } look none docs c s ∧ c.build.rustc = some "/bin/rustc".toList := by
  obtain ⟨look, home, docs, c, s, h⟩ := sample_stating_load (p := ⟨[(.unicode "RUSTC".toList, .unicode "/bin/rustc".toList)], none⟩)
    (fs := statingFs) (cwd := "/w/p".toList) (o := { cargoHome := some none }) sample_stating_distinct rfl (by decide +kernel)
  have e1 : home = none := h.home
  subst e1
  have e4 := env_unique h.env (cwd := []) rfl
  subst e4
  exact ⟨_, docs, c, s, h, C93_programs h .buildRustc rfl (text := "/bin/rustc".toList) ⟨_, rfl⟩ (.inl ⟨_, rfl⟩)⟩

/-- The flags `--cfg` and `a b` in `CARGO_ENCODED_RUSTFLAGS`, the flags `-D` and `x` in `RUSTDOCFLAGS`, and others for the target `a-b`. -/
def handingProc : ProcEnv :=
  { vars := [(.unicode "CARGO_ENCODED_RUSTFLAGS".toList, .unicode "--cfg\u001fa b".toList), (.unicode "RUSTDOCFLAGS".toList, .unicode "-D x".toList),
      (.unicode "CARGO_TARGET_A_B_RUSTFLAGS".toList, .unicode "-g".toList), (.unicode "RUSTFLAGS".toList, .unicode "-v".toList),
      (.unicode "CARGO_TARGET_A_B_LINKER".toList, .unicode "/bin/ld".toList), (.unicode "CARGO_TARGET_A_B_RUNNER".toList, .unicode "qemu -x".toList)]
    home := none }

/-- The config file and the other variables state different flags; those handed on are the ones in force, for the target `a-b` as well. -/
example : ∃ look docs c s,
    Loads handingProc statingFs (fun _ => .ok statingDoc) "/w/p".toList { cargoHome := some none } look none docs c s ∧
    c.build.rustflags = some ⟨["--cfg".toList, "a b".toList]⟩ ∧ c.build.rustdocflags = some ⟨["-D".toList, "x".toList]⟩ ∧
    (c.ask (.rustflags ⟨"a-b".toList, none⟩) statingWorld s).1 = .ok (.flags (some ⟨["--cfg".toList, "a b".toList]⟩)) ∧
    (c.ask (.linker ⟨"a-b".toList, none⟩) statingWorld s).1 = .ok (.path (some "/bin/ld".toList)) ∧
    (c.ask (.runner ⟨"a-b".toList, none⟩) statingWorld s).1 = .ok (.prog (some ⟨"qemu".toList, ["-x".toList]⟩)) := by
  obtain ⟨look, home, docs, c, s, e, z, h, hq⟩ := sample_stating_query (p := handingProc) (fs := statingFs)
    (cwd := "/w/p".toList) (o := { cargoHome := some none }) (t := ⟨"a-b".toList, none⟩) sample_stating_distinct rfl (by decide +kernel)
  have e1 : home = none := h.home
  subst e1
  have e4 := env_unique h.env (cwd := []) rfl
  subst e4
  have h1 := C93_rustflags h (f := ⟨["--cfg".toList, "a b".toList]⟩)
    (.inl ⟨.inr ⟨_, _, rfl, by decide⟩, "--cfg\u001fa b".toList, rfl, rfl⟩)
  have hw : ∀ w ∈ ["-D".toList, "x".toList], Word w := by
    intro w hm
    simp only [List.mem_cons, List.not_mem_nil, or_false] at hm
    rcases hm with rfl | rfl <;>
      exact ⟨by decide, by decide, by intro c hc; simp at hc; subst hc; decide, by intro c hc; simp at hc; subst hc; decide⟩
  have h2 := C93_rustdocflags h (f := ⟨["-D".toList, "x".toList]⟩)
    (.inr ⟨hw, rfl, "-D x".toList, rfl, rfl⟩)
  refine ⟨_, docs, c, s, h, h1.1, h2.1, ?_⟩
  have hq' : ∀ q : Query, q.targetOf = some ⟨"a-b".toList, none⟩ → (c.ask q statingWorld s).1 = .ok (q.view e) := by
    intro q ht
    rw [ask_target ht]
    simp only [Act.map, hq]
  have hc : Constructed ⟨"a-b".toList, none⟩ := ⟨"a-b".toList, none, none, rfl⟩
  refine ⟨?_, ?_, ?_⟩
  · have h3 := h1.2 [] statingWorld ⟨"a-b".toList, none⟩ _ (hq' (.rustflags _) rfl)
    rw [hq' _ rfl, h3]
  · have h3 := C93_linker h hc (text := "/bin/ld".toList) rfl (.inl ⟨_, rfl⟩) [] (fun _ h => (by cases h)) statingWorld _ (hq' (.linker _) rfl)
    rw [hq' _ rfl, h3]
  · have h3 := C93_runner h hc (text := "qemu -x".toList) (prog := "qemu".toList) (args := ["-x".toList]) rfl (by decide +kernel)
      (.inr (by decide)) [] (fun _ h => (by cases h)) statingWorld _ (hq' (.runner _) rfl)
    rw [hq' _ rfl, h3]


end CC
