import Verif.Lemmas.ListSpelling
import Verif.Props.Outcome
/-
C96: a list or command that only one config file states may be written as a string or as an array.
-/
namespace CC

variable {p p' : ProcEnv} {fs fs' : Fs} {toml toml' : Str → Res Toml} {cwd cwd' : Path} {o o' : Options} {c c' : EConfig} {s s' : Cells}
  {look look' : Str → Option OsStr} {home home' : Option Path} {docs docs' : List (Path × Toml)}

/-- C96, lists of strings: the value does not depend on the spelling; in any directories. -/
theorem C96_lists (h : Loads p fs toml cwd o look home docs c s) (h' : Loads p' fs' toml' cwd' o' look' home' docs' c' s')
    (k : ListKey) (hv : ∀ n ∈ k.sources.map Prod.fst, look n = look' n)
    (hd : SaidAlike k.splits (saidAt k.path docs) (saidAt k.path docs')) : k.plain c = k.plain c' := by
  have e3 : (k.plain c).isSome = (k.plain c').isSome := by cases k <;> rfl
  have e1 := fun x => C57_lists h k x
  have e2 := fun x => C57_lists h' k x
  generalize k.plain c = a at *
  generalize k.plain c' = b at *
  cases a with
  | none => cases b with
    | none => rfl
    | some b => cases e3
  | some a => cases b with
    | none => cases e3
    | some b =>
      obtain ⟨x, hx, rfl⟩ := e1 a rfl
      obtain ⟨y, hy, rfl⟩ := e2 b rfl
      have e := congrArg (Option.map (List.map Val.val)) (listSource_alike k hv hd hx hy)
      simp only [Option.map_map, Function.comp_def] at e
      rw [e]

theorem Behind.target_alike {de de' : Config} (h : Behind cwd look docs c de) (h' : Behind cwd look' docs' c' de')
    (hs : (ListKey.buildTarget.get de).map Prod.snd = (ListKey.buildTarget.get de').map Prod.snd) : c.build.target = c'.build.target := by
  have b1 := h.build
  have b2 := h'.build
  simp only [EBuild.fromUnresolved, Res.bind_eq_ok, Res.pure_eq] at b1 b2
  obtain ⟨x1, _, x2, _, x3, _, x4, _, x5, p5, x6, _, x7, _, e1⟩ := b1
  obtain ⟨y1, _, y2, _, y3, _, y4, _, y5, q5, y6, _, y7, _, e2⟩ := b2
  have e1 := Res.ok.inj e1
  have e2 := Res.ok.inj e2
  have key : ∀ d : Config,
      Res.mapOpt (fun t : StringOrArray => Res.mapList (fun v : Val Str => TargetTriple.new v.val v.defn (some cwd)) t.asArrayNoSplit)
        d.build.target =
      Res.mapOpt (Res.mapList fun v : Val Str => TargetTriple.new v.val v.defn (some cwd)) ((ListKey.buildTarget.get d).map Prod.snd) := by
    intro d
    simp only [ListKey.get]
    cases d.build.target with
    | none => rfl
    | some u => cases u <;> rfl
  rw [key, hs, ← key, q5] at p5
  rw [← e1, ← e2]
  exact (Res.ok.inj p5).symm

/-- C96, `build.target`: one target may be written as a string or as an array; for loads in the same directory. -/
theorem C96_build_target (h : Loads p fs toml cwd o look home docs c s) (h' : Loads p' fs' toml' cwd o' look' home' docs' c' s')
    (hv : look "CARGO_BUILD_TARGET".toList = look' "CARGO_BUILD_TARGET".toList)
    (hd : SaidAlike false (saidAt ["build".toList, "target".toList] docs) (saidAt ["build".toList, "target".toList] docs')) :
    c.build.target = c'.build.target := by
  obtain ⟨de, hb⟩ := h.behind
  obtain ⟨de', hb'⟩ := h'.behind
  refine hb.target_alike hb' (listSource_alike .buildTarget (fun n hn => ?_) hd (hb.list _) (hb'.list _))
  simp only [ListKey.sources, List.map_cons, List.map_nil, List.mem_singleton] at hn
  rw [hn]
  exact hv

/-- C96, `doc.browser`: likewise. -/
theorem C96_browser (h : Loads p fs toml cwd o look home docs c s) (h' : Loads p' fs' toml' cwd o' look' home' docs' c' s')
    (hv : look "BROWSER".toList = look' "BROWSER".toList)
    (hd : SaidAlike true (saidAt ["doc".toList, "browser".toList] docs) (saidAt ["doc".toList, "browser".toList] docs')) :
    c.doc.browser = c'.doc.browser := by
  obtain ⟨de, hb⟩ := h.behind
  obtain ⟨de', hb'⟩ := h'.behind
  have hs := prog_plainly (progSource_alike .docBrowser (fun n hn => by
    simp only [ProgKey.sources, List.map_cons, List.map_nil, List.mem_singleton] at hn
    rw [hn]
    exact hv) hd (hb.prog _) (hb'.prog _))
  have d1 := hb.doc
  have d2 := hb'.doc
  unfold EDoc.fromUnresolved at d1 d2
  have key : ∀ u : Option PathAndArgs, Res.mapOpt (EPathAndArgs.fromUnresolved cwd) u =
      Res.mapOpt (EPathAndArgs.fromUnresolved cwd) (u.map PathAndArgs.plainly) := by
    intro u
    cases u <;> rfl
  rw [key] at d1 d2
  rw [hs, d2] at d1
  rw [Res.ok.inj d1]

theorem Loads.entry_alike (h : Loads p fs toml cwd o look home docs c s) (h' : Loads p' fs' toml' cwd' o' look' home' docs' c' s')
    (hr : RespelledLists docs docs') (k : Str) :
    (BMap.get c.deTarget k).map TargetConfig.plainly = (BMap.get c'.deTarget k).map TargetConfig.plainly := by
  obtain ⟨de, d⟩ := h.behind
  obtain ⟨de', d'⟩ := h'.behind
  have r1 : c.deTarget = de.target := by rw [d.rest]
  have r2 : c'.deTarget = de'.target := by rw [d'.rest]
  have hp : (BMap.get c.deTarget k).isSome = (BMap.get c'.deTarget k).isSome := by
    have key : ∀ l l' : List (Path × Toml), l.map Prod.fst = l'.map Prod.fst → (∃ f x, (f, x) ∈ l) → ∃ f x, (f, x) ∈ l' := by
      rintro l l' e ⟨f, x, hx⟩
      have : f ∈ l'.map Prod.fst := e ▸ List.mem_map_of_mem (f := Prod.fst) hx
      obtain ⟨⟨g, y⟩, hy, -⟩ := List.mem_map.1 this
      exact ⟨g, y, hy⟩
    rw [Bool.eq_iff_iff, h.target_entry, h'.target_entry]
    exact ⟨key _ _ (hr.tables k), key _ _ (hr.tables k).symm⟩
  have k1 := optStr_inj (d.scalar_same d' (.targetLinker k) (fun n hn => by cases hn) (hr.scalar _))
  have k2 := flags_plainly (listSource_alike (.targetRustflags k) (fun n hn => by cases hn) (hr.list _) (d.list _) (d'.list _))
  have k3 := flags_plainly (listSource_alike (.targetRustdocflags k) (fun n hn => by cases hn) (hr.list _) (d.list _) (d'.list _))
  have k4 := prog_plainly (progSource_alike (.targetRunner k) (fun n hn => by cases hn) (hr.prog _) (d.prog _) (d'.prog _))
  rw [r1, r2] at hp ⊢
  generalize BMap.get de.target k = x at *
  generalize BMap.get de'.target k = y at *
  cases x with
  | none => cases y with
    | none => rfl
    | some y => cases hp
  | some x => cases y with
    | none => cases hp
    | some y =>
      cases x
      cases y
      simp only [Option.bind_some] at k1 k2 k3 k4
      simp [TargetConfig.plainly, k1, k2, k3, k4]

/-- C96, queries: documents that differ only in the spelling of lists and commands, each stated by one of them, lead to the same answers and
the same processes for every query, and to the same cells. -/
theorem C96_queries (h : Loads p fs toml cwd o look home docs c s) (h' : Loads p fs' toml' cwd o look' home' docs' c' s')
    (hr : RespelledLists docs docs') : s = s' ∧ ∀ q, c.ask q = c'.ask q := by
  have e1 := load_context h.loaded
  have e2 := load_context h'.loaded
  refine ⟨e1.2.trans e2.2.symm, fun q => ?_⟩
  have hl : look = look' := (env_unique h.env (cwd := cwd) rfl).symm.trans (env_unique h'.env (cwd := cwd) rfl)
  subst hl
  have hc : c.cx = c'.cx := e1.1.trans e2.1.symm
  have ht := C96_build_target h h' rfl (hr.list .buildTarget)
  have hp := fun k => C82_programs h h' k (fun _ _ => rfl) (hr.scalar k)
  have p1 := Option.some.inj (hp .buildRustc)
  have p2 := Option.some.inj (hp .buildRustcWrapper)
  have p3 := Option.some.inj (hp .buildRustcWorkspaceWrapper)
  have p4 := Option.some.inj (hp .buildRustdoc)
  have hq := fun k => C82_plain h h' k (fun _ _ => rfl) (hr.scalar k)
  have j1 : c.build.jobs = c'.build.jobs := optMap_inj (fun _ _ h => Atom.int.inj h) (Option.some.inj (hq .buildJobs))
  have j2 : c.build.incremental = c'.build.incremental :=
    optMap_inj (fun _ _ h => Atom.bool.inj h) (Option.some.inj (hq .buildIncremental))
  have hdir := fun k => C82_directories h h' k (fun _ _ => rfl) (hr.scalar k)
  have j3 := Option.some.inj (hdir .buildTargetDir)
  have j4 := Option.some.inj (hdir .buildDepInfoBasedir)
  have hli := fun k => C96_lists h h' k (fun _ _ => rfl) (hr.list k)
  have hfl : ∀ x y : EFlags, x.flags = y.flags → x = y := fun x y e => by cases x; cases y; cases e; rfl
  have j5 : c.build.rustflags = c'.build.rustflags := optMap_inj hfl (Option.some.inj (hli .buildRustflags))
  have j6 : c.build.rustdocflags = c'.build.rustdocflags := optMap_inj hfl (Option.some.inj (hli .buildRustdocflags))
  have hdt : c.deTarget.mapVals TargetConfig.plainly = c'.deTarget.mapVals TargetConfig.plainly :=
    BMap.ext (h.sorted.mapVals _) (h'.sorted.mapVals _) fun k => by
      rw [BMap.get_mapVals, BMap.get_mapVals, h.entry_alike h' hr k]
  obtain ⟨de, d⟩ := h.behind
  obtain ⟨de', d'⟩ := h'.behind
  have f1 := flags_plainly (listSource_alike .buildRustflags (fun _ _ => rfl) (hr.list _) (d.list _) (d'.list _))
  have f2 := flags_plainly (listSource_alike .buildRustdocflags (fun _ _ => rfl) (hr.list _) (d.list _) (d'.list _))
  have g1 : de.build.overrideTargetRustflags = de'.build.overrideTargetRustflags := by
    rw [Bool.eq_iff_iff, d.flags1, d'.flags1]
  have g2 : de.build.overrideTargetRustdocflags = de'.build.overrideTargetRustdocflags := by
    rw [Bool.eq_iff_iff, d.flags2, d'.flags2]
  have hb : ∀ {c : EConfig} {de : Config}, EBuild.fromUnresolved cwd de.build = .ok c.build →
      c.build.deRustflags = de.build.rustflags ∧ c.build.deRustdocflags = de.build.rustdocflags ∧
      c.build.overrideTargetRustflags = de.build.overrideTargetRustflags ∧
      c.build.overrideTargetRustdocflags = de.build.overrideTargetRustdocflags := by
    intro c de b1
    simp only [EBuild.fromUnresolved, Res.bind_eq_ok, Res.pure_eq] at b1
    obtain ⟨x1, _, x2, _, x3, _, x4, _, x5, _, x6, _, x7, _, e1⟩ := b1
    rw [← Res.ok.inj e1]
    exact ⟨rfl, rfl, rfl, rfl⟩
  obtain ⟨a1, a2, a3, a4⟩ := hb d.build
  obtain ⟨b1, b2, b3, b4⟩ := hb d'.build
  have q1 : c.build.deRustflags.map Flags.plainly = c'.build.deRustflags.map Flags.plainly := by rw [a1, b1]; exact f1
  have q2 : c.build.deRustdocflags.map Flags.plainly = c'.build.deRustdocflags.map Flags.plainly := by rw [a2, b2]; exact f2
  have q3 := a3.trans (g1.trans b3.symm)
  have q4 := a4.trans (g2.trans b4.symm)
  rw [← ask_plainly c, ← ask_plainly c']
  clear hp hq hdir hli hfl e1 e2 d d' a1 a2 a3 a4 b1 b2 b3 b4 f1 f2 hb g1 g2 h h' hr
  obtain ⟨_, ⟨_, _, _, _, _, _, _, _, _, _, _, _, _, _, _⟩, _, _, _, _, _, _, _, _, _, _, _⟩ := c
  obtain ⟨_, ⟨_, _, _, _, _, _, _, _, _, _, _, _, _, _, _⟩, _, _, _, _, _, _, _, _, _, _, _⟩ := c'
  dsimp only at hc ht p1 p2 p3 p4 j1 j2 j3 j4 j5 j6 hdt q1 q2 q3 q4
  subst hc ht p1 p2 p3 p4 j1 j2 j3 j4 j5 j6 q3 q4
  simp only [EConfig.plainly, EBuild.plainly, hdt, q1, q2]
  cases q <;> rfl

/-! ### loading succeeds either way -/

theorem saidAt_nil {path : List Str} {docs : List (Path × Toml)} : saidAt path docs = [] ↔ ∀ f t, (f, t) ∈ docs → t.at path = none := by
  unfold saidAt
  rw [List.filterMap_eq_nil_iff]
  constructor
  · intro h f t hm
    exact Option.map_eq_none_iff.1 (h (f, t) hm)
  · rintro h ⟨f, t⟩ hm
    exact Option.map_eq_none_iff.2 (h f t hm)

theorem spelled_pairwise {docs : List (Path × Toml)} : (docs.Pairwise fun x y => ¬ SpelledApart x.2 y.2) ↔
    ∀ path, TwoSpellings path → (saidAt path docs).Pairwise fun x y => x.2.isStr = y.2.isStr := by
  unfold saidAt
  simp only [List.pairwise_filterMap]
  induction docs with
  | nil => exact ⟨fun _ _ _ => .nil, fun _ => .nil⟩
  | cons d docs ih =>
    simp only [List.pairwise_cons]
    rw [ih]
    constructor
    · rintro ⟨h1, h2⟩ path hp
      refine ⟨fun e he b hb b' hb' => ?_, h2 path hp⟩
      obtain ⟨x, hx, rfl⟩ := Option.map_eq_some_iff.1 hb
      obtain ⟨y, hy, rfl⟩ := Option.map_eq_some_iff.1 hb'
      cases hxy : decide (x.isStr = y.isStr) with
      | true => exact of_decide_eq_true hxy
      | false => exact absurd ⟨path, x, y, hp, hx, hy, of_decide_eq_false hxy⟩ (h1 e he)
    · intro h
      refine ⟨fun e he => ?_, fun path hp => (h path hp).2⟩
      rintro ⟨path, x, y, hp, hx, hy, hne⟩
      exact hne ((h path hp).1 e he (d.1, x) (by rw [hx]; rfl) (e.1, y) (by rw [hy]; rfl))

/-- C96, loading: if the documents are configs, loading succeeds with the one spelling if it succeeds with the other. -/
theorem C96_loads (h : Loads p fs toml cwd o look home docs c s) (ht : ∀ s t, toml' s = .ok t → t.DistinctKeys)
    (hd : DocumentsOf fs' toml' cwd home docs') (hc : ∀ f t, (f, t) ∈ docs' → t.IsConfig) (hr : RespelledLists docs docs') :
    ∃ c' s', Loads p fs' toml' cwd o look home docs' c' s' := by
  obtain ⟨docs0, g1, g2, g3, g4⟩ := (C66_succeeds_iff h.tables h.map h.home h.env).1 ⟨c, s, h.loaded⟩
  cases documents_unique g1 h.docs
  obtain ⟨de, d⟩ := h.behind
  have alike_pw : ∀ {split : Bool} {l l' : List (Path × Toml)}, SaidAlike split l l' →
      (l.Pairwise fun x y => x.2.isStr = y.2.isStr) → l'.Pairwise fun x y => x.2.isStr = y.2.isStr := by
    rintro split l l' (rfl | ⟨f, a, b, rfl, rfl, -⟩) hp
    · exact hp
    · exact List.pairwise_singleton _ _
  have g2' := spelled_pairwise.1 g2.spelling
  have hgood : DocsGood docs' := by
    refine ⟨hc, spelled_pairwise.2 fun path hp => ?_⟩
    have := g2' path hp
    rcases hp with ⟨k, rfl⟩ | ⟨k, rfl⟩ | ⟨k, rfl⟩
    · exact alike_pw (hr.list k) this
    · exact alike_pw (hr.prog k) this
    · exact (show saidAt _ docs = saidAt _ docs' from hr.scalar (.envValue k)) ▸ this
  have hvars : VarsGood look docs' := by
    refine ⟨g3.scalars, g3.lists, fun k hk => g3.commands k ?_⟩
    rw [← saidAt_nil] at hk ⊢
    rcases hr.prog k with e | ⟨f, a, b, -, e, -⟩
    · rw [e, hk]
    · rw [hk] at e
      cases e
  have hsrc : ∀ k : ScalarKey, k.source look docs' = k.source look docs := fun k =>
    (source_agree k (fun _ _ => rfl) (hr.scalar k)).symm
  have hres : Resolvable look docs' := by
    refine ⟨fun k hk s d e => g4.programs k hk s d (hsrc k ▸ e), fun k hk s d e => g4.directories k hk s d (hsrc k ▸ e), ?_, ?_,
      fun k x d d' e1 e2 => g4.env k x d d' (hsrc (.envValue k) ▸ e1) (hsrc (.envRelative k) ▸ e2)⟩
    · intro r s dd ws hs
      have e := progSource_alike .docBrowser (fun _ _ => rfl) (hr.prog _) (d.prog .docBrowser) hs
      have hp := d.prog .docBrowser
      generalize ProgKey.docBrowser.get de = y at e hp
      cases y with
      | none => cases e
      | some y =>
        obtain ⟨r', l⟩ := y
        cases Option.some.inj e
        exact g4.browser _ _ _ _ hp
    · intro r l hs
      have e := listSource_alike .buildTarget (fun _ _ => rfl) (hr.list _) (d.list .buildTarget) hs
      have hp := d.list .buildTarget
      generalize ListKey.buildTarget.get de = y at e hp
      cases y with
      | none => cases e
      | some y =>
        obtain ⟨r', l⟩ := y
        cases Option.some.inj e
        exact g4.targets _ _ hp
  obtain ⟨c', s', hl⟩ := (C66_succeeds_iff (fs := fs') (toml := toml') (cwd := cwd) ht h.map h.home h.env).2 ⟨docs', hd, hgood, hvars, hres⟩
  exact ⟨c', s', ht, h.map, hl, hd, h.home, h.env⟩

/-! ### a sample -/

def sampleTextDoc : Toml := .tbl [("build".toList, .tbl [("target".toList, .str "a".toList), ("rustflags".toList, .str "-g -O".toList)]),
  ("target".toList, .tbl [("a".toList, .tbl [("runner".toList, .str "r -v".toList)])]),
  ("http".toList, .tbl [("timeout".toList, .int 30)])]

def sampleListDoc : Toml := .tbl [("build".toList, .tbl [("target".toList, .arr [.str "a".toList]),
    ("rustflags".toList, .arr [.str "-g".toList, .str "-O".toList])]),
  ("target".toList, .tbl [("a".toList, .tbl [("runner".toList, .arr [.str "r".toList, .str "-v".toList])])]),
  ("http".toList, .tbl [("timeout".toList, .int 30)])]

def sampleFewDoc : Toml := .tbl [("build".toList, .tbl [("jobs".toList, .int 8)])]

/-- The farther file says little, the nearer one is `near`. -/
def spellingToml (near : Toml) (s : Str) : Res Toml :=
  if s = "near".toList then .ok near else if s = "far".toList then .ok sampleFewDoc else .err (.toml [])

theorem sample_spelling_words : wordsIn "-g -O".toList = ["-g".toList, "-O".toList] ∧ wordsIn "r -v".toList = ["r".toList, "-v".toList] := by
  decide +kernel

theorem sample_respelled (f g : Path) :
    RespelledLists [(f, sampleTextDoc), (g, sampleFewDoc)] [(f, sampleListDoc), (g, sampleFewDoc)] where
  scalar k := by
    cases k
    case targetLinker k => by_cases hk : "a".toList = k
                           · subst hk; rfl
                           · have : ¬ 'a' :: [] = k := hk
                             simp [saidAt, ScalarKey.place, ScalarKey.path, sampleTextDoc, sampleListDoc, sampleFewDoc, Toml.at, BMap.get, this]
    all_goals rfl
  list k := by
    cases k
    case buildTarget => exact .inr ⟨f, _, _, rfl, rfl, _, _, _, .whole _ rfl, .array ["a".toList]⟩
    case buildRustflags =>
      refine .inr ⟨f, _, _, rfl, rfl, .string, .array, _, .words _ rfl, ?_⟩
      rw [sample_spelling_words.1]
      exact .array ["-g".toList, "-O".toList]
    case targetRustflags k => by_cases hk : "a".toList = k
                              · subst hk; exact .inl rfl
                              · have : ¬ 'a' :: [] = k := hk
                                left
                                simp [saidAt, ListKey.path, sampleTextDoc, sampleListDoc, sampleFewDoc, Toml.at, BMap.get, this]
    case targetRustdocflags k => by_cases hk : "a".toList = k
                                 · subst hk; exact .inl rfl
                                 · have : ¬ 'a' :: [] = k := hk
                                   left
                                   simp [saidAt, ListKey.path, sampleTextDoc, sampleListDoc, sampleFewDoc, Toml.at, BMap.get, this]
    all_goals exact .inl rfl
  prog k := by
    cases k
    case targetRunner k =>
      by_cases hk : "a".toList = k
      · subst hk
        refine .inr ⟨f, _, _, rfl, rfl, .string, .array, _, .words _ rfl, ?_⟩
        rw [sample_spelling_words.2]
        exact .array ["r".toList, "-v".toList]
      · have : ¬ 'a' :: [] = k := hk
        left
        simp [saidAt, ProgKey.path, sampleTextDoc, sampleListDoc, sampleFewDoc, Toml.at, BMap.get, this]
    all_goals exact .inl rfl
  tables k := by
    by_cases hk : "a".toList = k
    · subst hk; rfl
    · have : ¬ 'a' :: [] = k := hk
      simp [saidAt, sampleTextDoc, sampleListDoc, sampleFewDoc, Toml.at, BMap.get, this]

theorem sample_spelling_distinct {near : Toml} (hn : near = sampleTextDoc ∨ near = sampleListDoc) (s : Str) (t : Toml)
    (h : spellingToml near s = .ok t) : t.DistinctKeys := by
  unfold spellingToml at h
  split at h
  · cases h
    rcases hn with rfl | rfl <;>
    · refine distinct_tbl (by decide) fun x hx => ?_
      simp only [List.mem_cons, List.not_mem_nil, or_false] at hx
      rcases hx with rfl | rfl | rfl
      · refine distinct_tbl (by decide) fun x hx => distinct_leaf ?_
        simp only [List.mem_cons, List.not_mem_nil, or_false] at hx
        rcases hx with rfl | rfl <;> rfl
      · refine distinct_tbl (by decide) fun x hx => ?_
        simp only [List.mem_cons, List.not_mem_nil, or_false] at hx
        subst hx
        refine distinct_tbl (by decide) fun x hx => distinct_leaf ?_
        simp only [List.mem_cons, List.not_mem_nil, or_false] at hx
        subst hx
        rfl
      · refine distinct_tbl (by decide) fun x hx => distinct_leaf ?_
        simp only [List.mem_cons, List.not_mem_nil, or_false] at hx
        subst hx
        rfl
  · split at h
    · cases h
      refine distinct_tbl (by decide) fun x hx => ?_
      simp only [List.mem_cons, List.not_mem_nil, or_false] at hx
      subst hx
      refine distinct_tbl (by decide) fun x hx => distinct_leaf ?_
      simp only [List.mem_cons, List.not_mem_nil, or_false] at hx
      subst hx
      rfl
    · cases h

/-- Two loads as in the theorems: the target, the flags and the runner as strings, and as arrays. -/
example : ∃ look look' docs docs' c c' s s',
    Loads sampleProc sampleFs (spellingToml sampleTextDoc) "/w/p".toList { cargoHome := some none } look none docs c s ∧
    Loads sampleProc sampleFs (spellingToml sampleListDoc) "/w/p".toList { cargoHome := some none } look' none docs' c' s' ∧
    RespelledLists docs docs' ∧ docs ≠ docs' ∧ s = s' ∧ ∀ q, c.ask q = c'.ask q := by
  obtain ⟨look, c, s, h⟩ := sample_load (sample_spelling_distinct (.inl rfl)) (if_pos rfl) ((if_neg (by decide)).trans (if_pos rfl))
    (by decide +kernel)
  obtain ⟨look', c', s', h'⟩ := sample_load (sample_spelling_distinct (.inr rfl)) (if_pos rfl) ((if_neg (by decide)).trans (if_pos rfl))
    (by decide +kernel)
  have hr := sample_respelled "/w/p/.cargo/config".toList "/w/.cargo/config.toml".toList
  have hq := C96_queries h h' hr
  refine ⟨look, look', _, _, c, c', s, s', h, h', hr, ?_, hq.1, hq.2⟩
  intro e
  cases (Prod.mk.inj (List.cons.inj e).1).2

/-- The hypotheses of `C96_loads` in the sample, from the strings to the arrays. -/
example : ∃ look docs docs' c s,
    Loads sampleProc sampleFs (spellingToml sampleTextDoc) "/w/p".toList { cargoHome := some none } look none docs c s ∧
    (∀ s t, spellingToml sampleListDoc s = .ok t → t.DistinctKeys) ∧
    DocumentsOf sampleFs (spellingToml sampleListDoc) "/w/p".toList none docs' ∧ (∀ f t, (f, t) ∈ docs' → t.IsConfig) ∧
    RespelledLists docs docs' := by
  obtain ⟨look, c, s, h⟩ := sample_load (sample_spelling_distinct (.inl rfl)) (if_pos rfl) ((if_neg (by decide)).trans (if_pos rfl))
    (by decide +kernel)
  obtain ⟨look', c', s', h'⟩ := sample_load (sample_spelling_distinct (.inr rfl)) (if_pos rfl) ((if_neg (by decide)).trans (if_pos rfl))
    (by decide +kernel)
  obtain ⟨docs0, g1, g2, -⟩ := (C66_succeeds_iff h'.tables h'.map h'.home h'.env).1 ⟨c', s', h'.loaded⟩
  cases documents_unique g1 h'.docs
  exact ⟨look, _, _, c, s, h, h'.tables, h'.docs, g2.configs, sample_respelled _ _⟩

/-- Two files that both define the alias `x`. -/
def spellingTwice (near far : Toml) (s : Str) : Res Toml :=
  .ok (.tbl [("alias".toList, .tbl [("x".toList, if s = "near".toList then near else far)])])

/-- With two files the spelling matters, so the condition is needed: of two strings the nearer is used, two arrays are joined. -/
example : (EConfig.loadWithOptions sampleProc sampleFs (fun s => spellingTwice (.str "b".toList) (.str "c".toList) s >>= Config.de)
      "/w/p".toList { cargoHome := some none }).toOption.map (fun r => (BMap.get r.1.alias "x".toList).map (·.list)) =
        some (some ["b".toList]) ∧
    (EConfig.loadWithOptions sampleProc sampleFs (fun s => spellingTwice (.arr [.str "b".toList]) (.arr [.str "c".toList]) s >>= Config.de)
      "/w/p".toList { cargoHome := some none }).toOption.map (fun r => (BMap.get r.1.alias "x".toList).map (·.list)) =
        some (some ["c".toList, "b".toList]) := by
  decide +kernel

end CC
