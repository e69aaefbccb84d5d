import Verif.Props.Tools
import Verif.Props.Resolve
/-
The compiler and the targets to build: C47, C48, C49.
-/
namespace CC

variable {w : World} {s s' : Cells} {c : EConfig} {de : Config} {cx : Ctx}

/-! ### C47 -/

theorem queryRustc_set {b : EBuild} {r : EPathAndArgs} (h : s.rustc = some r) : queryRustc cx b w s = (.ok r, s) := by
  unfold queryRustc
  rw [Act.cells_bind, h]
  rfl

/-- C47: the value given with `ResolveOptions::rustc` is returned. -/
theorem C47_option (o : Options) (p : ProcEnv) (fs : Fs) (parse : Str → Res Config) (cwd : Path) (r : EPathAndArgs)
    (hl : EConfig.loadWithOptions p fs parse cwd (o.withRustc r) = .ok (c, s)) : c.rustc w s = (.ok r, s) := by
  refine queryRustc_set ?_
  unfold EConfig.loadWithOptions at hl
  dsimp only at hl
  simp only [Res.bind_eq_ok] at hl
  obtain ⟨de, -, c', -, hl⟩ := hl
  rw [← (Prod.mk.inj (Res.ok.inj hl)).2]
  unfold Cells.cargoHomeOf Options.intoContext Options.withRustc Options.withEnv
  cases o.env <;> cases o.cargoHome <;> rfl

/-- C47: otherwise it consists of the wrappers that are set and the compiler, in this order; asking for it runs no process. -/
theorem C47_line (c : EConfig) (w : World) (hs : s.rustc = none) : ∃ r p, (c.rustc w s).1 = .ok r ∧
    IsRustc c (w.exist s.clock) p ∧ r.path :: r.args = c.build.rustcWrapper.toList ++ c.build.rustcWorkspaceWrapper.toList ++ [p] ∧
    (c.rustc w s).2.trace = s.trace := by
  refine ⟨_, _, queryRustc_eq c.cx c.build w s, isRustc_found c _, ?_, ?_⟩
  · unfold rustcAnswer
    rw [hs]
    exact wrapped_line _ _
  · unfold EConfig.rustc
    obtain ⟨r, n, h⟩ := queryRustc_total c.cx c.build w s
    rw [h]

/-- There is exactly one path for the compiler, so that the previous theorem determines the result. -/
theorem C47_unique {exist : Path → Bool} {p q : Path} (hp : IsRustc c exist p) (hq : IsRustc c exist q) : p = q :=
  (isRustc_unique hp).trans (isRustc_unique hq).symm

/-- C47: the compiler next to cargo is found by going up one directory from the path of cargo (`upFrom`). -/
theorem C47_sibling (c : EConfig) :
    Path.components (Path.join (Path.pop c.cx.cargo.path) "rustc".toList) =
      upFrom (Path.components c.cx.cargo.path) ++ [.normal "rustc".toList] := by
  have hsimple : Path.Simple "rustc".toList := by unfold Path.Simple; decide
  rw [Path.components_join _ _ hsimple]
  generalize c.cx.cargo.path = q
  congr 1
  unfold Path.pop upFrom
  rcases List.eq_nil_or_concat (Path.kept q) with hk | ⟨ks, k, hk⟩
  · rw [Path.parent_of_kept_nil q hk]
    unfold Path.components
    rw [hk, List.map_nil, List.append_nil]
    split
    · rename_i h
      rw [h, Option.getD_some]
      decide
    · rename_i h
      rw [Option.getD_none, hk, List.map_nil, List.append_nil]
      unfold Path.lead at h ⊢
      split
      · simp
      · rename_i h1
        rw [if_neg h1] at h
        split
        · rename_i h2; rw [if_pos h2] at h; exact absurd rfl h
        · simp
  · rw [List.concat_eq_append] at hk
    obtain ⟨r, h1, h2, h3⟩ := Path.parent_of_kept q ks k hk
    rw [h1, Option.getD_some]
    unfold Path.components
    rw [hk, h2, h3, List.map_append, ← List.append_assoc, List.map_cons, List.map_nil, List.getLast?_append, List.dropLast_append_of_ne_nil (by simp)]
    unfold Path.toComp
    split <;> simp

/-- C47: it never changes once returned, whatever is asked, and however the public fields or the file system change. -/
theorem C47_stable {r : EPathAndArgs} (h : (c.rustc w s).1 = .ok r) (qs : List (EConfig × Query)) (c' : EConfig) (w' : World) :
    c'.rustc w' (afterQueries w qs (c.rustc w s).2) = (.ok r, afterQueries w qs (c.rustc w s).2) := by
  refine queryRustc_set ((grows_after w qs _).rustc _ ?_)
  unfold EConfig.rustc at h ⊢
  obtain ⟨r', n, h'⟩ := queryRustc_total c.cx c.build w s
  rw [h'] at h ⊢
  rw [Res.ok.inj h]

/-! ### C48 -/

theorem after_version (qs : List Query) (v : RustcVersion) (h : (afterAll c w qs s).rustcVersion = some v) :
    s.rustcVersion = some v ∨ ∃ n k, RustcReports (w.run n (rustcVV c (w.exist k))) v := by
  induction qs generalizing s with
  | nil => exact Or.inl h
  | cons q qs ih =>
    rcases ih (s := (c.ask q w s).2) h with h | h
    · exact ask_version c q w s v h
    · exact Or.inr h

/-- C48: the version returned was reported by `[wrapper] rustc -vV`, whatever was asked before. -/
theorem C48_reported (hs : s.rustcVersion = none) (qs : List Query) {v : RustcVersion}
    (h : (c.rustcVersion w (afterAll c w qs s)).1 = .ok v) :
    ∃ n k x, IsRustcVV c (w.exist k) x ∧ RustcReports (w.run n x) v := by
  have h1 := rustcVersion_stored h
  have h2 : (c.ask .rustcVersion w (afterAll c w qs s)).2.rustcVersion = some v := by
    show (Act.map Answer.rustcVersion (c.rustcVersion) w (afterAll c w qs s)).2.rustcVersion = some v
    rw [map_snd]
    exact h1
  rcases ask_version c _ w _ v h2 with h3 | ⟨n, k, h3⟩
  · rcases after_version qs v h3 with h4 | ⟨n, k, h4⟩
    · rw [hs] at h4; cases h4
    · exact ⟨n, k, _, isRustcVV c _, h4⟩
  · exact ⟨n, k, _, isRustcVV c _, h3⟩

/-- C48: if the tools do not change, the version is returned exactly if the compiler reports one. -/
theorem C48_succeeds_iff (hw : Steady w) (hs : s.rustcVersion = none) (hv : w.checks = false ∨ s.cargoVersion = none)
    {x : Cmd} (hx : IsRustcVV c (w.exist 0) x) (v : RustcVersion) :
    (c.rustcVersion w s).1 = .ok v ↔ RustcReports (w.run 0 x) v := by
  have steady : ∀ n k, w.run n (rustcVV c (w.exist k)) = w.run 0 x := by
    intro n k
    rw [isRustcVV_unique hx, (hw n 0).1, (hw k 0).2]
  have uniq : ∀ {v v'}, RustcReports (w.run 0 x) v → RustcReports (w.run 0 x) v' → v = v' := by
    intro v v' h h'
    rw [rustcReports_iff (cm := ⟨[], []⟩)] at h h'
    obtain ⟨a, h1, h2⟩ := h
    obtain ⟨b, h3, h4⟩ := h'
    cases h1.symm.trans h3
    exact Res.ok.inj (h2.symm.trans h4)
  have fwd : ∀ v, (c.rustcVersion w s).1 = .ok v → RustcReports (w.run 0 x) v := by
    intro v h
    have h2 : (c.ask .rustcVersion w s).2.rustcVersion = some v := by
      show (Act.map Answer.rustcVersion (c.rustcVersion) w s).2.rustcVersion = some v
      rw [map_snd]
      exact rustcVersion_stored h
    rcases ask_version c _ w _ v h2 with h3 | ⟨n, k, h3⟩
    · rw [hs] at h3; cases h3
    · rwa [steady] at h3
  refine ⟨fwd v, fun hr => ?_⟩
  have hcan : CanSet w s := hv.imp id fun h => ⟨h, hs⟩
  suffices h : ∃ v', (c.rustcVersion w s).1 = .ok v' by
    obtain ⟨v', h⟩ := h
    rw [h, uniq (fwd v' h) hr]
  unfold EConfig.rustcVersion
  rw [queryRustcVersion_unset hs]
  have hp := host_no_panic (c := c) hcan
  unfold Act.attempt
  generalize queryHostTriple c.cx c.build w s = y at hp
  obtain ⟨r, s1⟩ := y
  have key : ∃ v', (match s1.rustcVersion with
      | some v => ((.ok v : Res RustcVersion), s1)
      | none =>
        match askRustcVersion c.cx c.build w s1 with
        | (.ok v, s2) => (.ok v, { s2 with rustcVersion := some v })
        | (.err e, s2) => (.err e, s2)
        | (.panic, s2) => (.panic, s2)).1 = .ok v' := by
    cases s1.rustcVersion with
    | some v' => exact ⟨v', rfl⟩
    | none =>
      dsimp only
      obtain ⟨n, -, h1, -⟩ := askRustcVersion_cases c w s1
      rw [steady] at h1
      generalize askRustcVersion c.cx c.build w s1 = z at h1
      obtain ⟨r, s2⟩ := z
      dsimp only at h1
      rcases h1 with ⟨v', rfl, -⟩ | ⟨-, h3⟩
      · exact ⟨v', rfl⟩
      · exact absurd hr (h3 v)
  cases r with
  | ok x => exact key
  | err e => exact key
  | panic => exact absurd rfl hp

/-- C48 if no compiler was given with `ResolveOptions::rustc` and neither the tools nor the file system change: the version is that of
the compiler returned by `rustc`, left out the workspace wrapper.  Missing: the case that a compiler was given, where it is false
(`C48_fails`). -/
theorem C48_same_compiler_partial (hw : Steady w) (hr : s.rustc = none) (hs : s.rustcVersion = none)
    (qs : List Query) {v : RustcVersion} (h : (c.rustcVersion w (afterAll c w qs s)).1 = .ok v) :
    ∃ r p x n, (c.rustc w s).1 = .ok r ∧
      r.path :: r.args = c.build.rustcWrapper.toList ++ c.build.rustcWorkspaceWrapper.toList ++ [p] ∧
      x.program :: x.args = c.build.rustcWrapper.toList ++ [p, "-vV".toList] ∧ RustcReports (w.run n x) v := by
  obtain ⟨n, k, x, ⟨p, hp, hx⟩, h1⟩ := C48_reported hs qs h
  obtain ⟨r, p', h2, h3, h4, -⟩ := C47_line c w hr
  rw [(hw k s.clock).2] at hp
  cases C47_unique hp h3
  exact ⟨r, p, x, n, h2, h4, hx, h1⟩

/-- Two compilers with different versions. -/
def twoCompilers : World :=
  { checks := true
    run := fun _ x => .succeeded (.unicode
      (if x.program = "nightly".toList then "release: 1.85.0-nightly\nhost: x\n".toList else "release: 1.84.0\nhost: x\n".toList))
    exist := fun _ _ => false }

/-- A file system without config files. -/
def noFiles : Fs := { ex := fun _ => false, read := fun _ => .err (.io []) }

/-- C48 is false of the program if a compiler was given with `ResolveOptions::rustc`: it is returned by `rustc`, but not asked by
`rustc_version`. -/
theorem C48_fails :
    (EConfig.loadWithOptions {} noFiles (fun _ => .ok {}) "/w".toList
      (Options.withRustc {} ⟨"nightly".toList, []⟩)).toOption.map (fun x => (x.1.rustc twoCompilers x.2).1.toOption) =
        some (some ⟨"nightly".toList, []⟩) ∧
    (EConfig.loadWithOptions {} noFiles (fun _ => .ok {}) "/w".toList
      (Options.withRustc {} ⟨"nightly".toList, []⟩)).toOption.map (fun x => (x.1.rustcVersion twoCompilers x.2).1.toOption) =
        some (some ⟨1, 84, some 0, false⟩) := by
  decide +kernel

/-! ### C49 -/

/-- C49: targets that were given are returned as they are; nothing is run. -/
theorem C49_given (c : EConfig) (w : World) (s : Cells) {ts : List TargetTriple} (h : ts ≠ []) :
    c.buildTargetForConfig ts w s = (.ok ts, s) := by
  unfold EConfig.buildTargetForConfig
  cases ts with
  | nil => exact absurd rfl h
  | cons t ts => rfl

/-- C49: otherwise the configured targets; nothing is run. -/
theorem C49_configured {t : TargetTriple} {ts : List TargetTriple} (h : c.build.target = some (t :: ts)) (w : World) (s : Cells) :
    c.buildTargetForConfig [] w s = (.ok (t :: ts), s) := by
  unfold EConfig.buildTargetForConfig
  rw [h]
  rfl

/-- C49: otherwise the host triple. -/
theorem C49_host (h : c.build.target = none ∨ c.build.target = some []) (w : World) (s : Cells) :
    (∀ x, (c.hostTriple w s).1 = .ok x → ¬ NamesSpecFile x →
      c.buildTargetForConfig [] w s = (.ok [⟨x, none⟩], (c.hostTriple w s).2)) ∧
    (∀ e, (c.hostTriple w s).1 = .err e → c.buildTargetForConfig [] w s = (.err e, (c.hostTriple w s).2)) := by
  have he : (!(c.build.target.getD []).isEmpty) = false := by rcases h with h | h <;> rw [h] <;> rfl
  unfold EConfig.buildTargetForConfig
  dsimp only
  rw [he, if_neg (by decide), if_neg (by decide), Act.bind_def]
  generalize c.hostTriple w s = y
  obtain ⟨r, s1⟩ := y
  refine ⟨fun x hx hn => ?_, fun e hx => ?_⟩
  · dsimp only at hx
    subst hx
    dsimp only
    rw [Act.lift_bind, C16_triple x hn]
    rfl
  · dsimp only at hx
    subst hx
    rfl

/-- C49: there is always at least one target. -/
theorem C49_never_empty (ts : List TargetTriple) : (c.buildTargetForConfig ts w s).1 ≠ .ok [] := by
  unfold EConfig.buildTargetForConfig
  cases ts with
  | cons t ts => intro h; cases h
  | nil =>
    dsimp only
    rw [if_neg (by decide)]
    cases hc : c.build.target.getD [] with
    | cons t ts => intro h; cases h
    | nil =>
      rw [if_neg (by decide), Act.bind_def]
      generalize c.hostTriple w s = y
      obtain ⟨r, s1⟩ := y
      cases r with
      | err e => intro h; cases h
      | panic => intro h; cases h
      | ok x =>
        dsimp only
        rw [Act.lift_bind]
        cases TargetTriple.ofStr x with
        | ok t => intro h; cases h
        | err e => intro h; cases h
        | panic => intro h; cases h

/-- How a target is passed to `--target`: a triple as such, a target-spec file by its path. -/
def forCli : TargetTriple → Str
  | ⟨triple, none⟩ => triple
  | ⟨_, some path⟩ => path

/-- C49 for the command line: strings that were given, else the configured targets, else nothing; nothing is run or stored. -/
theorem C49_cli (c : EConfig) (w : World) (s : Cells) (ts : List Str) :
    (ts ≠ [] → c.buildTargetForCli ts w s = (.ok ts, s)) ∧
    (ts = [] → ∀ l, c.build.target = some l → c.buildTargetForCli ts w s = (.ok (l.map forCli), s)) ∧
    (ts = [] → c.build.target = none → c.buildTargetForCli ts w s = (.ok [], s)) := by
  have hf : TargetTriple.cliTarget = forCli := by
    funext t
    obtain ⟨t, p⟩ := t
    cases p <;> rfl
  unfold EConfig.buildTargetForCli
  refine ⟨fun h => ?_, fun h l hl => ?_, fun h hl => ?_⟩
  · cases ts with
    | nil => exact absurd rfl h
    | cons t ts => rfl
  · subst h
    rw [hl, hf]
    cases l <;> rfl
  · subst h
    rw [hl]
    rfl

theorem mapList_ok {α β : Type} {f : α → Res β} {R : α → β → Prop} (hf : ∀ a b, f a = .ok b → R a b) {l : List α} {l' : List β}
    (h : Res.mapList f l = .ok l') : ListRel R l l' := by
  induction l generalizing l' with
  | nil => cases h; exact .nil
  | cons a l ih =>
    simp only [Res.mapList, Res.bind_eq_ok] at h
    obtain ⟨b, hb, bs, hbs, e⟩ := h
    cases e
    exact .cons (hf a b hb) (ih hbs)

theorem new_configTarget {cwd : Path} {v : Val Str} {t : TargetTriple} (h : TargetTriple.new v.val v.defn (some cwd) = .ok t) :
    ConfigTarget cwd v t := by
  obtain ⟨s, d⟩ := v
  unfold TargetTriple.new at h
  dsimp only at h
  by_cases hs : isSpecPath s = true
  · rw [if_pos hs] at h
    have hn := isSpecPath_iff.1 hs
    cases hst : Path.fileStem s with
    | none => rw [hst] at h; cases h
    | some stem =>
      obtain ⟨f, hf, hfs⟩ := fileStem_iff.1 hst
      rw [hst] at h
      cases d with
      | none => cases h; exact .unlocated s f stem hn hf hfs
      | some d =>
        have key : ∀ base, d.rootOpt (some cwd) = some (some base) → d.root cwd = some base := by
          intro base hb
          cases d with
          | path p =>
            simp only [Definition.rootOpt] at hb
            simp only [Definition.root]
            generalize grandparent p = y at hb ⊢
            cases y with
            | none => cases hb
            | some y => cases hb; rfl
          | environment k => cases hb; rfl
          | cli p =>
            cases p with
            | none => cases hb; rfl
            | some p =>
              simp only [Definition.rootOpt] at hb
              simp only [Definition.root]
              generalize grandparent p = y at hb ⊢
              cases y with
              | none => cases hb
              | some y => cases hb; rfl
        unfold resolveSpecPath at h
        dsimp only at h
        cases hr : d.rootOpt (some cwd) with
        | none => rw [hr] at h; cases h
        | some o =>
          rw [hr] at h
          cases o with
          | some base => cases h; exact .file s d f stem base hn hf hfs (root_baseDir (key base hr))
          | none =>
            exfalso
            cases d with
            | path p => simp [Definition.rootOpt] at hr
            | environment k => cases hr
            | cli p =>
              cases p with
              | none => cases hr
              | some p => simp [Definition.rootOpt] at hr
  · rw [if_neg hs] at h
    cases h
    exact .triple s d fun hn => hs (isSpecPath_iff.2 hn)

theorem targets_ok {cwd : Path} {x : Option StringOrArray} {y : Option (List TargetTriple)}
    (h : Res.mapOpt (fun t : StringOrArray =>
      Res.mapList (fun v : Val Str => TargetTriple.new v.val v.defn (some cwd)) t.asArrayNoSplit) x = .ok y) :
    OptionRel (fun t l => ListRel (ConfigTarget cwd) (StringOrArray.asArrayNoSplit t) l) x y := by
  refine mapOpt_ok (fun a b hab => ?_) h
  exact mapList_ok (fun v t hv => new_configTarget (v := v) (cwd := cwd) (t := t) hv) hab

/-- C49: the configured targets of a resolved config, in terms of the config made of the files: CARGO_BUILD_TARGET replaces
`build.target` by a single target. -/
theorem C49_config (hd : DistinctKeys cx.env) (h : EConfig.fromUnresolved de cx = .ok c) :
    (∀ x, Env.get cx.env "CARGO_BUILD_TARGET".toList = some (.unicode x) →
      ∃ t, c.build.target = some [t] ∧ ConfigTarget cx.currentDir ⟨x, some (.environment "CARGO_BUILD_TARGET".toList)⟩ t) ∧
    (Env.get cx.env "CARGO_BUILD_TARGET".toList = none →
      OptionRel (fun x l => ListRel (ConfigTarget cx.currentDir) x.2 l) (ListKey.buildTarget.get de) c.build.target) := by
  simp only [EConfig.fromUnresolved, EBuild.fromUnresolved, EDoc.fromUnresolved, Res.bind_eq_ok, Res.pure_eq] at h
  obtain ⟨de', h0, b, ⟨x1, h1, x2, h2, x3, h3, x4, h4, x5, h5, x6, h6, x7, h7, e1⟩, d, ⟨x8, h8, e2⟩, en, h9, e3⟩ := h
  cases e1
  cases e2
  cases e3
  have hlist := C20_list hd h0 .buildTarget
  have hrel : OptionRel (fun x l => ListRel (ConfigTarget cx.currentDir) x.2 l) (ListKey.buildTarget.get de') x5 := by
    have := targets_ok h5
    unfold ListKey.get
    generalize de'.build.target = y at this
    cases this with
    | none => exact .none
    | @some a l hal => cases a with
      | string s => exact .some hal
      | array l => exact .some hal
  rw [hlist] at hrel
  unfold ListKey.withEnv at hrel
  refine ⟨fun x hx => ?_, fun hx => ?_⟩
  · simp only [ListKey.sources, readEnv, hx, Option.map_some, listFromVar, List.map_cons, List.map_nil] at hrel
    dsimp only
    cases hrel with
    | some hr =>
      cases hr with
      | cons h1 h2 => cases h2; exact ⟨_, rfl, h1⟩
  · simp only [ListKey.sources, readEnv, hx] at hrel
    exact hrel

/-! ### Samples -/

/-- A compiler next to cargo, with both wrappers. -/
def wrappedConfig : EConfig :=
  { plainConfig with
    build := { rustcWrapper := some "sccache".toList, rustcWorkspaceWrapper := some "clippy".toList }
    cx := { env := [], cargo := .unicode "/tc/bin/cargo".toList, currentDir := "/w".toList } }

/-- Tools that print a version and a host. -/
def usualWorld : World :=
  { checks := true, run := fun _ _ => .succeeded (.unicode "x 1\nrelease: 1.84.0\nhost: x86_64\n".toList), exist := fun _ _ => true }

example : (wrappedConfig.rustc usualWorld {}).1.toOption =
    some ⟨"sccache".toList, ["clippy".toList, "/tc/bin/rustc".toList]⟩ := by decide +kernel
example : Steady usualWorld ∧ HostLines usualWorld := by
  refine ⟨fun _ _ => ⟨rfl, rfl⟩, fun n x v _ => ⟨"x86_64".toList, ?_⟩⟩
  rw [rustcTells_iff (cm := ⟨[], []⟩)]
  exact ⟨"x 1\nrelease: 1.84.0\nhost: x86_64".toList, ⟨1, 84, some 0, false⟩, by rfl, by rfl, by rfl⟩
example : (wrappedConfig.rustcVersion usualWorld (afterAll wrappedConfig usualWorld [.hostTriple, .rustc] {})).1.toOption =
    some ⟨1, 84, some 0, false⟩ := by decide +kernel
example : Path.components wrappedConfig.cx.cargo.path = [.root, .normal "tc".toList, .normal "bin".toList] ++ [.normal "cargo".toList] := by
  decide +kernel
/-- The first queries run the commands in question. -/
example : (afterAll wrappedConfig usualWorld [.hostTriple, .rustc, .rustcVersion] {}).trace =
    [⟨"/tc/bin/cargo".toList, ["-vV".toList]⟩, ⟨"sccache".toList, ["/tc/bin/rustc".toList, "-vV".toList]⟩] := by decide +kernel
example : (EConfig.loadWithOptions { vars := [(.unicode "CARGO_BUILD_TARGET".toList, .unicode "t/a.json".toList)] } noFiles
    (fun _ => .ok {}) "/w".toList {}).toOption.map (fun x => x.1.build.target) = some (some [⟨"a".toList, some "/w/t/a.json".toList⟩]) := by
  decide +kernel
example : (plainConfig.hostTriple usualWorld {}).1.toOption = some "x86_64".toList ∧
    (plainConfig.buildTargetForConfig [] usualWorld {}).1.toOption = some [⟨"x86_64".toList, none⟩] := by decide +kernel
/-- Options are honoured. -/
example : (EConfig.loadWithOptions {} noFiles (fun _ => .ok {}) "/w".toList
    (Options.withHostTriple {} "h".toList)).toOption.isSome = true := by decide +kernel

/-! ### The theorems applied to the samples -/

/-- C47 with both wrappers: three words, the last of which is the compiler next to cargo. -/
example : ∃ r p, (wrappedConfig.rustc usualWorld {}).1 = .ok r ∧ IsRustc wrappedConfig (usualWorld.exist 0) p ∧
    r.path :: r.args = ["sccache".toList, "clippy".toList, p] ∧ (wrappedConfig.rustc usualWorld {}).2.trace = [] :=
  C47_line wrappedConfig usualWorld rfl

/-- It is `/tc/bin/rustc` and no other path. -/
example : IsRustc wrappedConfig (usualWorld.exist 0) "/tc/bin/rustc".toList ∧
    ∀ p, IsRustc wrappedConfig (usualWorld.exist 0) p → p = "/tc/bin/rustc".toList :=
  have h : IsRustc wrappedConfig (usualWorld.exist 0) "/tc/bin/rustc".toList := .sibling rfl rfl
  ⟨h, fun _ hp => C47_unique hp h⟩

example : upFrom (Path.components wrappedConfig.cx.cargo.path) ++ [.normal "rustc".toList] =
    [.root, .normal "tc".toList, .normal "bin".toList, .normal "rustc".toList] := by decide +kernel

/-- Once the answer was returned, changing the fields and removing the compiler next to cargo makes no difference. -/
example (s : Cells) (h : afterQueries usualWorld [(plainConfig, .hostTriple)] (wrappedConfig.rustc usualWorld {}).2 = s) :
    plainConfig.rustc noHostWorld s = (.ok ⟨"sccache".toList, ["clippy".toList, "/tc/bin/rustc".toList]⟩, s) :=
  h ▸ C47_stable (c := wrappedConfig) (w := usualWorld) (s := {}) rfl _ _ _

/-- The option wins over the wrappers that the files configure. -/
theorem sample_rustcOption : ∃ c s, EConfig.loadWithOptions {} noFiles (fun _ => .ok {}) "/w".toList
    (Options.withRustc {} ⟨"nightly".toList, ["-x".toList]⟩) = .ok (c, s) := ⟨_, _, rfl⟩

example : ∃ c s, EConfig.loadWithOptions {} noFiles (fun _ => .ok {}) "/w".toList
    (Options.withRustc {} ⟨"nightly".toList, ["-x".toList]⟩) = .ok (c, s) ∧
    ∀ w, EConfig.rustc c w s = (.ok ⟨"nightly".toList, ["-x".toList]⟩, s) :=
  let ⟨c, s, h⟩ := sample_rustcOption
  ⟨c, s, h, fun _ => C47_option _ _ _ _ _ _ h⟩

/-- C48: the command that is asked leaves out the workspace wrapper. -/
example : IsRustcVV wrappedConfig (usualWorld.exist 0) ⟨"sccache".toList, ["/tc/bin/rustc".toList, "-vV".toList]⟩ :=
  ⟨_, .sibling rfl rfl, rfl⟩

example : Options.withRustc {} ⟨"nightly".toList, []⟩ ≠ {} ∧ (twoCompilers.run 0 ⟨"rustc".toList, []⟩) ≠
    twoCompilers.run 0 ⟨"nightly".toList, []⟩ := by decide +kernel

/-- C49: given targets win over configured ones. -/
example (w : World) (s : Cells) :
    ({ plainConfig with build := { target := some [⟨"a".toList, none⟩] } } : EConfig).buildTargetForConfig [⟨"b".toList, none⟩] w s =
      (.ok [⟨"b".toList, none⟩], s) :=
  C49_given _ w s (by simp)

example (w : World) (s : Cells) :
    EConfig.buildTargetForConfig
      { plainConfig with build := { target := some [⟨"a".toList, none⟩, ⟨"b".toList, some "/b.json".toList⟩] } } [] w s = (.ok [⟨"a".toList, none⟩, ⟨"b".toList, some "/b.json".toList⟩], s) :=
  C49_configured rfl w s

example : plainConfig.buildTargetForConfig [] usualWorld {} = (.ok [⟨"x86_64".toList, none⟩], (plainConfig.hostTriple usualWorld {}).2) :=
  (C49_host (.inl rfl) usualWorld {}).1 "x86_64".toList rfl (by rw [← isSpecPath_iff]; decide)

/-- An empty array configured does not lead to an empty answer. -/
example : (({ plainConfig with build := { target := some [] } } : EConfig).buildTargetForConfig [] usualWorld {}).1 ≠ .ok [] :=
  C49_never_empty []

/-- On the command line a target-spec file is passed by its path, and the host is not filled in. -/
example (w : World) (s : Cells) :
    EConfig.buildTargetForCli
      { plainConfig with build := { target := some [⟨"a".toList, none⟩, ⟨"b".toList, some "/b.json".toList⟩] } } [] w s = (.ok ["a".toList, "/b.json".toList], s) :=
  (C49_cli { plainConfig with build := { target := some [⟨"a".toList, none⟩, ⟨"b".toList, some "/b.json".toList⟩] } } w s []).2.1
    rfl _ rfl

example (w : World) (s : Cells) : plainConfig.buildTargetForCli [] w s = (.ok [], s) := (C49_cli _ w s []).2.2 rfl rfl

end CC
