import Verif.Spec.Entry
import Verif.Props.Walk
import Verif.Props.Load
import Verif.Props.Flags
import Verif.Props.Outcome
import Verif.Props.Rustc
import Verif.Props.Cause
/-
The ways to load a config agree and depend on the config files only: C72.  Values made in code: C73.
-/
namespace CC

variable {p : ProcEnv} {fs : Fs} {parse : Str → Res Config} {cwd : Path} {o : Options} {home : Option Path}

/-! ### C72 -/

/-- The number of calls of `next` that may still produce a path. -/
def WalkState.left (st : WalkState) : Nat := st.ancestors.length + if st.cargoHome.isNone then 0 else 1

theorem dedupHome_left (q : Path) (home : Option Path) :
    (if (dedupHome q home).isNone then 0 else 1) ≤ (if home.isNone then 0 else 1 : Nat) := by
  cases home with
  | none => exact Nat.le_refl _
  | some h =>
    simp only [dedupHome]
    split <;> simp

theorem next_left (ex : Path → Bool) : ∀ (as : List Path) (home : Option Path) {f : Path} {st' : WalkState},
    walkNext ex as home = (some f, st') → st'.left < WalkState.left ⟨as, home⟩
  | [], none, _, _, h => by simp [walkNext] at h
  | [], some d, _, _, h => by
    simp only [walkNext, Prod.mk.injEq] at h
    rw [← h.2]
    simp [WalkState.left]
  | a :: as, home, f, st', h => by
    have hd := dedupHome_left (Path.join a ".cargo".toList) home
    simp only [walkNext] at h
    generalize configPath ex (Path.join a ".cargo".toList) = x at h
    generalize dedupHome (Path.join a ".cargo".toList) home = home' at h hd
    cases x with
    | some g =>
      simp only [Prod.mk.injEq] at h
      rw [← h.2]
      simp only [WalkState.left, List.length_cons]
      omega
    | none =>
      have := next_left ex as home' h
      simp only [WalkState.left, List.length_cons] at this ⊢
      omega

theorem collect_yields (ex : Path → Bool) : ∀ (n : Nat) (st : WalkState), st.left < n → Yields ex st (WalkState.collect ex n st)
  | 0, _, h => absurd h (Nat.not_lt_zero _)
  | n + 1, st, h => by
    cases hn : st.next ex with
    | mk r st' =>
      cases r with
      | none =>
        have e : WalkState.collect ex (n + 1) st = [] := by simp only [WalkState.collect, hn]
        rw [e]
        exact .done hn
      | some f =>
        have e : WalkState.collect ex (n + 1) st = f :: WalkState.collect ex n st' := by simp only [WalkState.collect, hn]
        rw [e]
        have hl : st'.left < st.left := next_left ex st.ancestors st.cargoHome hn
        exact .more hn (collect_yields ex n st' (by omega))

theorem yields_unique {ex : Path → Bool} {st : WalkState} {a b : List Path} (ha : Yields ex st a) (hb : Yields ex st b) : a = b := by
  induction ha generalizing b with
  | done h =>
    cases hb with
    | done _ => rfl
    | more h' _ => rw [h] at h'; simp at h'
  | more h _ ih =>
    cases hb with
    | done h' => rw [h] at h'; simp at h'
    | more h' hb =>
      rw [h] at h'
      simp only [Prod.mk.injEq, Option.some.injEq] at h'
      obtain ⟨rfl, rfl⟩ := h'
      rw [ih hb]

theorem walk_yields (ex : Path → Bool) (cwd : Path) (home : Option Path) : Yields ex (WalkState.new cwd home) (walk ex cwd home) := by
  refine collect_yields ex _ _ ?_
  simp only [WalkState.left, WalkState.new]
  cases home <;> simp

/-- C72: `Walk::new` produces exactly the config files that apply in the directory for the `CARGO_HOME` of the process, in order. -/
theorem C72_walk (hh : HomeRule cwd ((firstValue p.vars "CARGO_HOME".toList).map OsStr.path) p.home home) (ex : Path → Bool)
    (l : List Path) : Yields ex (WalkState.newIn p cwd) l ↔ ∃ dirs, SearchDirs cwd home dirs ∧ ConfigsOf ex dirs l := by
  unfold WalkState.newIn
  rw [cargoHome_of_rule hh]
  constructor
  · intro h
    rw [yields_unique h (walk_yields ex cwd home)]
    exact C01_walk ex cwd home
  · rintro ⟨dirs, h1, h2⟩
    obtain ⟨dirs', h3, h4⟩ := C01_walk ex cwd home
    rw [C01_spec_functional ex cwd home _ _ _ _ h1 h3 h2 h4]
    exact walk_yields ex cwd home

/-- C72: the raw config is loaded from the files that `Walk::new` produces: without any it is the empty config, and a single one is loaded
as by `load_file`. -/
theorem C72_raw_files {l : List Path} (h : Yields fs.ex (WalkState.newIn p cwd) l) :
    (l = [] → Config.loadWithCwd p fs parse cwd = .ok {}) ∧
    ∀ f, l = [f] → Config.loadWithCwd p fs parse cwd = loadFile fs parse f := by
  have e := yields_unique h (walk_yields fs.ex cwd (p.cargoHomeWithCwd cwd))
  unfold Config.loadWithCwd loadConfig
  rw [← e]
  constructor
  · rintro rfl
    rfl
  · rintro f rfl
    simp only [loadPaths, loadLoop]
    cases loadFile fs parse f <;> rfl

theorem homeOf_default (hh : HomeRule cwd ((firstValue p.vars "CARGO_HOME".toList).map OsStr.path) p.home home) :
    HomeOf p {} cwd home := hh

/-- C72: `Config::load_with_cwd` reads the same files as `de::Config::load_with_cwd`: whatever goes wrong with them is
reported in the same way, and if nothing does, the resolved config is made of the raw one. -/
theorem C72_same_files (p : ProcEnv) (fs : Fs) (parse : Str → Res Config) (cwd : Path) :
    (∀ e, Config.loadWithCwd p fs parse cwd = .err e → EConfig.loadWithCwd p fs parse cwd = .err e) ∧
    (Config.loadWithCwd p fs parse cwd = .panic → EConfig.loadWithCwd p fs parse cwd = .panic) ∧
    ∀ raw fs' parse' , Config.loadWithCwd p fs parse cwd = .ok raw → Config.loadWithCwd p fs' parse' cwd = .ok raw →
      EConfig.loadWithCwd p fs parse cwd = EConfig.loadWithCwd p fs' parse' cwd := by
  have key : ∀ fs parse, EConfig.loadWithCwd p fs parse cwd =
      (Config.loadWithCwd p fs parse cwd >>= fun de => EConfig.fromUnresolved de (Options.intoContext {} p cwd).1 >>= fun c =>
        .ok (c, ((Options.withCargoHome {} (p.cargoHomeWithCwd cwd)).intoContext p cwd).2)) := fun _ _ => rfl
  refine ⟨fun e h => ?_, fun h => ?_, fun raw fs' parse' h h' => ?_⟩
  · rw [key, h]; rfl
  · rw [key, h]; rfl
  · rw [key, key, h, h']

/-- C72: loading in the current directory is loading in that directory; if there is none, nothing is read and the message says so. -/
theorem C72_current (current : Res Path) (p : ProcEnv) (fs : Fs) (parse : Str → Res Config) :
    (∀ cwd, current = .ok cwd → EConfig.load current p fs parse = EConfig.loadWithCwd p fs parse cwd ∧
      Config.load current p fs parse = Config.loadWithCwd p fs parse cwd) ∧
    ∀ what, current = .err (.io what) → ∃ e, EConfig.load current p fs parse = .err e ∧ Config.load current p fs parse = .err e ∧
      (∀ sh, e.display sh = "failed to get current directory".toList) ∧ e.source = some (.io what) ∧ e.toIo.kind = .os what := by
  constructor
  · rintro cwd rfl
    exact ⟨rfl, rfl⟩
  · rintro what rfl
    exact ⟨_, rfl, rfl, fun _ => rfl, rfl, rfl⟩

theorem configPath_congr {ex ex' : Path → Bool} {d : Path} (h1 : ex (Path.join d "config".toList) = ex' (Path.join d "config".toList))
    (h2 : ex (Path.join d "config.toml".toList) = ex' (Path.join d "config.toml".toList)) : configPath ex d = configPath ex' d := by
  unfold configPath
  dsimp only
  rw [h1, h2]

theorem walk_congr {fs fs' : Fs} (h : SameConfigs cwd home fs fs') : walk fs.ex cwd home = walk fs'.ex cwd home := by
  rw [walk_eq, walk_eq]
  have hs := pendingDirs_searchDirs cwd home
  generalize pendingDirs (Path.ancestors cwd) home = dirs at hs
  have : ∀ l : List Path, (∀ d ∈ l, d ∈ dirs) → l.filterMap (configPath fs.ex) = l.filterMap (configPath fs'.ex) := by
    intro l
    induction l with
    | nil => exact fun _ => rfl
    | cons d l ih =>
      intro hl
      rw [List.filterMap_cons, List.filterMap_cons, ih fun d hd => hl d (List.mem_cons_of_mem _ hd),
        configPath_congr (h.1 _ ⟨dirs, d, hs, hl d (by simp), .inl rfl⟩) (h.1 _ ⟨dirs, d, hs, hl d (by simp), .inr rfl⟩)]
  exact this dirs fun _ h => h

theorem loadLoop_congr {fs fs' : Fs} {parse : Str → Res Config} : ∀ {paths : List Path} {base : Option (Path × Config)},
    (∀ f ∈ paths, fs.read f = fs'.read f) → loadLoop fs parse paths base = loadLoop fs' parse paths base
  | [], _, _ => rfl
  | f :: paths, base, h => by
    have h1 : loadFile fs parse f = loadFile fs' parse f := by
      unfold loadFile
      rw [h f (by simp)]
    simp only [loadLoop, h1]
    cases loadFile fs' parse f with
    | err e => rfl
    | panic => rfl
    | ok c =>
      cases base with
      | none => exact loadLoop_congr fun g hg => h g (List.mem_cons_of_mem _ hg)
      | some b =>
        obtain ⟨bp, b⟩ := b
        refine congrArg (Res.bind (Res.ok c)) (funext fun c => ?_)
        refine congrArg (Res.bind _) (funext fun r => ?_)
        exact loadLoop_congr fun g hg => h g (List.mem_cons_of_mem _ hg)

theorem loadConfig_congr {fs fs' : Fs} (h : SameConfigs cwd home fs fs') : loadConfig fs parse cwd home = loadConfig fs' parse cwd home := by
  unfold loadConfig loadPaths
  rw [← walk_congr h]
  obtain ⟨dirs, h1, h2⟩ := C01_walk fs.ex cwd home
  rw [loadLoop_congr fun f hf => h.2 dirs _ f h1 h2 hf]

/-- C72: nothing but the config files matters: whatever else is created, removed or changed, and whatever is in a `config.toml` next to a
`config`, loading has the same outcome. -/
theorem C72_only_configs {fs fs' : Fs} (hh : HomeOf p o cwd home) (h : SameConfigs cwd home fs fs') :
    EConfig.loadWithOptions p fs parse cwd o = EConfig.loadWithOptions p fs' parse cwd o ∧
    loadConfig fs parse cwd home = loadConfig fs' parse cwd home :=
  ⟨by rw [load_steps hh, load_steps hh, loadConfig_congr h], loadConfig_congr h⟩

/-- A file next to the others, and another text in a `config.toml` next to a `config`. -/
example : SameConfigs "/w".toList none
    { ex := fun f => f = "/w/.cargo/config".toList || f = "/w/.cargo/config.toml".toList, read := fun f => .ok f }
    { ex := fun f => f = "/w/.cargo/config".toList || f = "/w/.cargo/config.toml".toList || f = "/w/Cargo.toml".toList
      read := fun f => if f = "/w/.cargo/config.toml".toList then .err (.io []) else .ok f } := by
  have hd : ∀ dirs, SearchDirs "/w".toList none dirs → dirs = ["/w/.cargo".toList, "/.cargo".toList] := by
    intro dirs h
    rw [show dirs = _ from h]
    decide +kernel
  constructor
  · rintro f ⟨dirs, d, h1, h2, h3⟩
    rw [hd dirs h1] at h2
    simp only [List.mem_cons, List.not_mem_nil, or_false] at h2
    rcases h2 with rfl | rfl <;> rcases h3 with rfl | rfl <;> decide +kernel
  · intro dirs files f h1 h2 h3
    obtain ⟨dirs', h4, h5⟩ := C01_walk (fun f => f = "/w/.cargo/config".toList || f = "/w/.cargo/config.toml".toList) "/w".toList none
    rw [C01_spec_functional _ _ _ _ _ _ _ h1 h4 h2 h5] at h3
    have e : walk (fun f => f = "/w/.cargo/config".toList || f = "/w/.cargo/config.toml".toList) "/w".toList none =
      ["/w/.cargo/config".toList] := by decide +kernel
    rw [e, List.mem_singleton] at h3
    rw [h3]
    rfl

/-- The raw config of the sample world, through the entry points. -/
example : ((Config.load (.ok "/w/p".toList) {} sampleFs sampleParse).toOption.bind fun c => ScalarKey.buildJobs.get c) =
    some ⟨.int 4, some (.path "/w/p/.cargo/config".toList)⟩ := by decide +kernel

example : (EConfig.load (.ok "/w/p".toList) {} sampleFs sampleParse).toOption.isSome = true := by decide +kernel

/-! ### C73 -/

/-- C73: the command run for a `PathAndArgs` made in code consists of the path and all arguments, in the order in which they were
passed. -/
theorem C73_command {x : EPathAndArgs} {path : Path} {args : List Str} (h : Built x path args) (more : List Str) :
    x.cmd more = ⟨path, args ++ more⟩ := by
  have : x.path = path ∧ x.args = args := by
    induction h with
    | new path => exact ⟨rfl, rfl⟩
    | arg s _ ih => exact ⟨ih.1, by rw [← ih.2]; rfl⟩
    | args l _ ih => exact ⟨ih.1, by rw [← ih.2]; rfl⟩
  unfold EPathAndArgs.cmd
  rw [this.1, this.2]

example : Built (((EPathAndArgs.new "sccache".toList).arg "rustc".toList).addArgs ["-C".toList, "a".toList]) "sccache".toList
    ["rustc".toList, "-C".toList, "a".toList] := .args _ (.arg _ (.new _))

/-- C73: flags that are pushed come after the others, in the order in which they are pushed. -/
theorem C73_push (f : EFlags) (ws : List Str) : (ws.foldl EFlags.push f).flags = f.flags ++ ws := by
  induction ws generalizing f with
  | nil => simp
  | cons w ws ih =>
    rw [List.foldl_cons, ih]
    simp [EFlags.push]

/-- C73: flags that are pushed one by one and then encoded are read again, if none is empty or contains the separator. -/
theorem C73_push_encode (w : Str) (ws : List Str) (hw : ∀ v ∈ w :: ws, v ≠ [] ∧ unitSep ∉ v) :
    ∃ s, (ws.foldl EFlags.push (EFlags.ofList [w])).encode = .ok s ∧ (EFlags.fromEncoded s).flags = w :: ws := by
  have e : (ws.foldl EFlags.push (EFlags.ofList [w])).flags = w :: ws := by rw [C73_push]; rfl
  obtain ⟨s, h1, h2⟩ := C50_roundtrip_partial (ws.foldl EFlags.push (EFlags.ofList [w])) (by rw [e]; simp) (by rw [e]; exact hw)
  exact ⟨s, h1, by rw [h2, e]⟩

variable {toml : Str → Res Toml} {look : Str → Option OsStr} {c : EConfig} {s : Cells}

theorem one_doc_list {f : Path} {t : Toml} {k : ListKey} {x : Toml} {y : Option (Repr' × List (Val Str))}
    (hn : ∀ e ∈ k.sources, look e.1 = none) (ha : t.at k.path = some x) (h : k.Source look [(f, t)] y) :
    ∃ r ws, TomlList k.splits x r ws ∧ y.map (fun y => y.2.map Val.val) = some ws := by
  have hr : ∀ l : List ListSource, (∀ e ∈ l, look e.1 = none) → readEnv look l = none := by
    intro l
    induction l with
    | nil => exact fun _ => rfl
    | cons e l ih =>
      intro h
      obtain ⟨n, rd⟩ := e
      simp only [readEnv, h (n, rd) (by simp)]
      exact ih fun e he => h e (List.mem_cons_of_mem _ he)
  unfold ListKey.Source at h
  rw [hr _ hn] at h
  obtain ⟨xs, h1, h2⟩ := h
  cases h1 with
  | unset h3 _ => rw [ha] at h3; cases h3
  | set h3 h4 h5 =>
    rename_i r ws
    rw [ha] at h3
    cases h3
    cases h5
    refine ⟨_, _, h4, ?_⟩
    generalize hz : (ws.map fun w => (⟨w, some (.path f)⟩ : Val Str)) = vs at h2
    have hv : vs.map Val.val = ws := by rw [← hz]; simp [Function.comp_def]
    cases h2 with
    | array _ _ => simp [hv]
    | string _ => simp [hv]

/-- The list after loading a single document in which it is written as a string, or as an array. -/
theorem one_doc_texts {f : Path} {t : Toml} {k : ListKey} {y : Option (Repr' × List (Val Str))}
    (hn : ∀ e ∈ k.sources, look e.1 = none) (hsplit : k.splits = true) (h : k.Source look [(f, t)] y) :
    (∀ x, t.at k.path = some (.str x) → y.map (fun y => y.2.map Val.val) = some (splitSpaceSeparated x)) ∧
    ∀ ws, t.at k.path = some (.arr (ws.map .str)) → y.map (fun y => y.2.map Val.val) = some ws := by
  constructor
  · intro x ha
    obtain ⟨r, ws, h1, h2⟩ := one_doc_list hn ha h
    rw [h2]
    cases h1 with
    | words _ _ => rw [show splitSpaceSeparated x = wordsIn x from (C51_words x _).2 ((C51_wordsIn x _).1 rfl)]
    | whole _ hs => rw [hsplit] at hs; cases hs
  · intro ws ha
    obtain ⟨r, ws', h1, h2⟩ := one_doc_list hn ha h
    rw [h2]
    generalize hz : Toml.arr (ws.map .str) = z at h1
    cases h1 with
    | array ws' =>
      have hz := Toml.arr.inj hz
      have inj : ∀ a b : List Str, a.map Toml.str = b.map Toml.str → a = b := by
        intro a
        induction a with
        | nil => intro b hb; cases b with
          | nil => rfl
          | cons _ _ => cases hb
        | cons x a ih => intro b hb; cases b with
          | nil => cases hb
          | cons y b =>
            simp only [List.map_cons, List.cons.injEq, Toml.str.injEq] at hb
            rw [hb.1, ih b hb.2]
      rw [inj _ _ hz]
    | words _ _ => cases hz
    | whole _ _ => cases hz

/-- C73: `build.rustflags` written in the only config file as a string, or as an array, gives the flags that are made in code
from the same string with `from_space_separated`, or from the same array, unless a variable is set. -/
theorem C73_flags_in_config {f : Path} {t : Toml} (h : Loads p fs toml cwd o look home [(f, t)] c s)
    (hn : ∀ n ∈ ["CARGO_ENCODED_RUSTFLAGS", "RUSTFLAGS", "CARGO_BUILD_RUSTFLAGS"], look n.toList = none) :
    (∀ x, t.at ["build".toList, "rustflags".toList] = some (.str x) → c.build.rustflags = some (EFlags.fromSpaceSeparated x)) ∧
    ∀ ws, t.at ["build".toList, "rustflags".toList] = some (.arr (ws.map .str)) → c.build.rustflags = some (EFlags.ofList ws) := by
  obtain ⟨y, h1, h2⟩ := C57_lists h .buildRustflags _ rfl
  have hn' : ∀ e ∈ ListKey.buildRustflags.sources, look e.1 = none := by
    intro e he
    simp only [ListKey.sources, asEncoded, asWords, List.mem_cons, List.not_mem_nil, or_false] at he
    rcases he with rfl | rfl | rfl
    · exact hn "CARGO_ENCODED_RUSTFLAGS" (by simp)
    · exact hn "RUSTFLAGS" (by simp)
    · exact hn "CARGO_BUILD_RUSTFLAGS" (by simp)
  obtain ⟨h3, h4⟩ := one_doc_texts hn' rfl h1
  have lift : ∀ l, c.build.rustflags.map (·.flags) = some l → c.build.rustflags = some ⟨l⟩ := by
    intro l hl
    cases hc : c.build.rustflags with
    | none => rw [hc] at hl; cases hl
    | some x => obtain ⟨x⟩ := x; rw [hc] at hl; cases hl; rfl
  exact ⟨fun x hx => lift _ (by rw [h2]; exact h3 x hx), fun ws hw => lift _ (by rw [h2]; exact h4 ws hw)⟩

/-- C73: an alias written in the only config file gives the list that is made in code from the same string or array. -/
theorem C73_alias_in_config {f : Path} {t : Toml} {k : Str} (h : Loads p fs toml cwd o look home [(f, t)] c s)
    (hn : look ("CARGO_ALIAS_".toList ++ k) = none) :
    (∀ x, t.at ["alias".toList, k] = some (.str x) → BMap.get c.alias k = some (EStringList.fromString x)) ∧
    ∀ ws, t.at ["alias".toList, k] = some (.arr (ws.map .str)) → BMap.get c.alias k = some (EStringList.fromArray ws) := by
  obtain ⟨y, h1, h2⟩ := C57_lists h (.alias k) _ rfl
  have hn' : ∀ e ∈ (ListKey.alias k).sources, look e.1 = none := by
    intro e he
    simp only [ListKey.sources, asWords, List.mem_cons, List.not_mem_nil, or_false] at he
    rw [he]
    exact hn
  obtain ⟨h3, h4⟩ := one_doc_texts hn' rfl h1
  have lift : ∀ l, (BMap.get c.alias k).map (·.list) = some l → BMap.get c.alias k = some ⟨l⟩ := by
    intro l hl
    cases hc : BMap.get c.alias k with
    | none => rw [hc] at hl; cases hl
    | some x => obtain ⟨x⟩ := x; rw [hc] at hl; cases hl; rfl
  exact ⟨fun x hx => lift _ (by rw [h2]; exact h3 x hx), fun ws hw => lift _ (by rw [h2]; exact h4 ws hw)⟩

/-- C73: the flags in `CARGO_ENCODED_RUSTFLAGS` are those made in code with `from_encoded`; without it, those in `RUSTFLAGS` are those
made with `from_space_separated`, whatever the config files say. -/
theorem C73_flags_in_env {docs : List (Path × Toml)} (h : Loads p fs toml cwd o look home docs c s) (x : Str) :
    (look "CARGO_ENCODED_RUSTFLAGS".toList = some (.unicode x) → c.build.rustflags = some (EFlags.fromEncoded x)) ∧
    (look "CARGO_ENCODED_RUSTFLAGS".toList = none → look "RUSTFLAGS".toList = some (.unicode x) →
      c.build.rustflags = some (EFlags.fromSpaceSeparated x)) := by
  obtain ⟨y, h1, h2⟩ := C57_lists h .buildRustflags _ rfl
  have lift : ∀ l, c.build.rustflags.map (·.flags) = some l → c.build.rustflags = some ⟨l⟩ := by
    intro l hl
    cases hc : c.build.rustflags with
    | none => rw [hc] at hl; cases hl
    | some x => obtain ⟨x⟩ := x; rw [hc] at hl; cases hl; rfl
  unfold ListKey.Source at h1
  constructor
  · intro hx
    have hr : readEnv look ListKey.buildRustflags.sources =
        some (some ("CARGO_ENCODED_RUSTFLAGS".toList, (.array, piecesAt (Char.ofNat 0x1f) x))) := by
      simp only [ListKey.sources, asEncoded, readEnv, hx, Option.map_some]
    rw [hr] at h1
    refine lift _ ?_
    rw [h2, show y = _ from h1]
    simp only [listFromVar, Option.map_some, List.map_map, Function.comp_def, List.map_id']
    rw [show splitEncoded x = piecesAt (Char.ofNat 0x1f) x from (C50_decode x _).2 ((C50_pieces _ x _).1 rfl)]
  · intro hu hx
    have hr : readEnv look ListKey.buildRustflags.sources = some (some ("RUSTFLAGS".toList, (.string, wordsIn x))) := by
      simp only [ListKey.sources, asEncoded, asWords, readEnv, hu, hx, Option.map_some]
    rw [hr] at h1
    refine lift _ ?_
    rw [h2, show y = _ from h1]
    simp only [listFromVar, Option.map_some, List.map_map, Function.comp_def, List.map_id']
    rw [show splitSpaceSeparated x = wordsIn x from (C51_words x _).2 ((C51_wordsIn x _).1 rfl)]

/-- A single config file with an alias and flags. -/
def aliasDoc : Toml := .tbl [("alias".toList, .tbl [("b".toList, .str "build  -v".toList)]),
  ("build".toList, .tbl [("rustflags".toList, .arr [.str "-C x".toList])])]

example : (EConfig.loadWithOptions {} (oneFile "/w/.cargo/config".toList) (fun _ => Config.de aliasDoc) "/w".toList {}).toOption.map
      (fun r => (BMap.get r.1.alias "b".toList, r.1.build.rustflags)) =
    some (some (EStringList.fromArray ["build".toList, "-v".toList]), some (EFlags.ofList ["-C x".toList])) := by decide +kernel

/-- It meets the conditions of `C73_flags_in_config` and `C73_alias_in_config`. -/
example : ∃ look home docs c s, Loads {} (oneFile "/w/.cargo/config".toList) (fun _ => .ok aliasDoc) "/w".toList {} look home docs c s ∧
    docs = [("/w/.cargo/config".toList, aliasDoc)] ∧ ∀ n, look n = none := by
  have hok : (EConfig.loadWithOptions {} (oneFile "/w/.cargo/config".toList) (fun _ => Config.de aliasDoc) "/w".toList {}).isOk = true := by
    decide +kernel
  have hd : ∀ (s : Str) (t : Toml), (fun _ => .ok aliasDoc : Str → Res Toml) s = .ok t → t.DistinctKeys := by
    intro s t h
    cases h
    refine distinct_tbl (by decide) fun x hx => ?_
    simp only [List.mem_cons, List.not_mem_nil, or_false] at hx
    rcases hx with rfl | rfl
    · refine distinct_tbl (by decide) fun x hx => distinct_leaf ?_
      simp only [List.mem_cons, List.not_mem_nil, or_false] at hx
      subst hx; rfl
    · refine distinct_tbl (by decide) fun x hx => distinct_leaf ?_
      simp only [List.mem_cons, List.not_mem_nil, or_false] at hx
      subst hx; rfl
  generalize hr : EConfig.loadWithOptions {} (oneFile "/w/.cargo/config".toList) (fun _ => Config.de aliasDoc) "/w".toList {} = r at hok
  cases r with
  | ok x =>
    obtain ⟨c, s⟩ := x
    obtain ⟨look, home, docs, h, _⟩ := C57_determined (toml := fun _ => .ok aliasDoc) hd (fun e he => by cases he) hr
    have hh : home = none := by
      have := h.home
      cases this with
      | nothing _ _ => rfl
    subst hh
    refine ⟨look, none, docs, c, s, h, ?_, fun n => ?_⟩
    · obtain ⟨dirs, h1, h2, h3⟩ := h.docs
      obtain ⟨dirs', h4, h5⟩ := C01_walk (oneFile "/w/.cargo/config".toList).ex "/w".toList none
      have e := C01_spec_functional _ _ _ _ _ _ _ h1 h4 h2 h5
      rw [show walk (oneFile "/w/.cargo/config".toList).ex "/w".toList none = ["/w/.cargo/config".toList] by decide +kernel] at e
      match docs, e, h3 with
      | [(f, t)], e, h3 =>
        obtain ⟨text, _, h6⟩ := h3 f t (by simp)
        cases h6
        simp only [List.map_cons, List.map_nil, List.cons.injEq, and_true] at e
        rw [e]
    · by_cases hc : CargoVariable n
      · exact ((h.env n).1 hc).trans rfl
      · exact (h.env n).2 hc
  | err e => cases hok
  | panic => cases hok

/-- Only the nearer of the sample files exists: it is the only one that `Walk::new` produces, and the raw config is that of the file. -/
example : Config.loadWithCwd {} { sampleFs with ex := fun p => p = "/w/p/.cargo/config".toList } sampleParse "/w/p".toList =
    loadFile { sampleFs with ex := fun p => p = "/w/p/.cargo/config".toList } sampleParse "/w/p/.cargo/config".toList := by
  obtain ⟨dirs, h1, h2⟩ := C01_walk (fun p => p = "/w/p/.cargo/config".toList) "/w/p".toList none
  refine (C72_raw_files ((C72_walk (p := {}) (cwd := "/w/p".toList) (HomeRule.nothing _ (Or.inl rfl)) _ _).2 ⟨dirs, h1, h2⟩)).2 _ ?_
  decide +kernel

/-- No current directory. -/
example : ∃ e, EConfig.load (.err (.io "ENOENT".toList)) {} sampleFs sampleParse = .err e ∧ e.toIo.kind = .os "ENOENT".toList := by
  obtain ⟨e, h1, -, -, -, h2⟩ := (C72_current (.err (.io "ENOENT".toList)) {} sampleFs sampleParse).2 _ rfl
  exact ⟨e, h1, h2⟩

/-- A file that cannot be read is reported in the same way by both entry points. -/
example : ∃ e, Config.loadWithCwd {} { sampleFs with read := fun _ => .err (.io []) } sampleParse "/w/p".toList = .err e ∧
    EConfig.loadWithCwd {} { sampleFs with read := fun _ => .err (.io []) } sampleParse "/w/p".toList = .err e := by
  cases h : Config.loadWithCwd {} { sampleFs with read := fun _ => .err (.io []) } sampleParse "/w/p".toList with
  | err e => exact ⟨e, rfl, (C72_same_files _ _ _ _).1 e h⟩
  | ok c =>
    have h2 : (Config.loadWithCwd {} { sampleFs with read := fun _ => .err (.io []) } sampleParse "/w/p".toList).isErr = true := by
      decide +kernel
    rw [h] at h2; cases h2
  | panic =>
    have h2 : (Config.loadWithCwd {} { sampleFs with read := fun _ => .err (.io []) } sampleParse "/w/p".toList).isErr = true := by
      decide +kernel
    rw [h] at h2; cases h2

example : ∃ s, (["a b".toList].foldl EFlags.push (EFlags.ofList ["-C".toList])).encode = .ok s ∧
    (EFlags.fromEncoded s).flags = ["-C".toList, "a b".toList] :=
  C73_push_encode "-C".toList ["a b".toList] (by decide)

example : (["-O".toList, "-g".toList].foldl EFlags.push (EFlags.ofList ["-C".toList])).flags = ["-C".toList, "-O".toList, "-g".toList] :=
  C73_push _ _

end CC
