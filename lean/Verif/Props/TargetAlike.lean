import Verif.Props.Matching
import Verif.Props.TargetOutcome
/-
Which configuration a target gets depends only on its table, its variables and its cfgs: C98.
-/
namespace CC

variable {p : ProcEnv} {fs fs' : Fs} {toml toml' : Str → Res Toml} {cwd : Path} {o : Options} {c c' : EConfig} {s s' s1 s1' : Cells}
  {look look' : Str → Option OsStr} {home home' : Option Path} {docs docs' : List (Path × Toml)} {w w' : World} {t t' : TargetTriple}

/-- C98: two targets whose names are the same in names of variables, whose tables have the same contents, and for which tables
`cfg(..)` with the same contents are true, have the same configuration. -/
theorem C98_alike (h : Loads p fs toml cwd o look home docs c s) (h' : Loads p fs' toml' cwd o look' home' docs' c' s')
    (hb : saidAt ["build".toList] docs = saidAt ["build".toList] docs') (hn : Pointwise SameEnvChar t.triple t'.triple)
    (ht : saidAt ["target".toList, t.triple] docs = saidAt ["target".toList, t'.triple] docs')
    {e e' : ETarget} (hq : c.target t w s = (.ok e, s1)) (hq' : c'.target t' w' s' = (.ok e', s1')) {ks ks' : List Str}
    (hk : CfgTables w.checks docs (s1.cfg.get t.cliTarget) ks) (hk' : CfgTables w'.checks docs' (s1'.cfg.get t'.cliTarget) ks')
    (hs : ks.map (fun k => saidAt ["target".toList, k] docs) = ks'.map fun k => saidAt ["target".toList, k] docs') : e = e' := by
  have hl : look = look' := (env_unique h.env (cwd := cwd) rfl).symm.trans (env_unique h'.env (cwd := cwd) rfl)
  subst hl
  obtain ⟨de, d⟩ := h.behind
  obtain ⟨de', d'⟩ := h'.behind
  have hc : c.cx = c'.cx := (load_context h.loaded).1.trans (load_context h'.loaded).1.symm
  have hbuild := d.build_same d' hb
  have hown := h.entry_moved h' ht
  have f1 : s.target.get t.cliTarget = none := by rw [(C33_loaded h.loaded).1]; rfl
  have f2 : s'.target.get t'.cliTarget = none := by rw [(C33_loaded h'.loaded).1]; rfl
  obtain ⟨_, a, a1, sr, q1, q2, he, rfl⟩ := target_unpack f1 hq
  obtain ⟨_, a', a1', sr', q1', q2', he', rfl⟩ := target_unpack f2 hq'
  have hv : ∀ (env : Env) (x : TargetAcc), x.applyEnv env t.triple = x.applyEnv env t'.triple := by
    intro env x
    have e : targetUUpper t.triple = targetUUpper t'.triple := (C32_shared_iff _ _).2 hn
    unfold TargetAcc.applyEnv targetVar
    rw [e]
  rw [hv, hown, hc, q1'] at q1
  cases q1
  obtain ⟨holds, m1, rfl⟩ := cfgTables_ok q2
  obtain ⟨holds', m1', rfl⟩ := cfgTables_ok q2'
  have k1 := matching_keys h m1 hk
  have k2 := matching_keys h' m1' hk'
  have key : ∀ (l l' : List Str), l.map (fun k => saidAt ["target".toList, k] docs) = l'.map (fun k => saidAt ["target".toList, k] docs') →
      l.map (BMap.get c.deTarget) = l'.map (BMap.get c'.deTarget) := by
    intro l
    induction l with
    | nil =>
      intro l' e
      cases l' with
      | nil => rfl
      | cons _ _ => cases e
    | cons k l ih =>
      intro l' e
      cases l' with
      | nil => cases e
      | cons k' l' =>
        simp only [List.map_cons, List.cons.injEq] at e ⊢
        exact ⟨h.entry_moved h' e.1, ih l' e.2⟩
  have e : matching c.deTarget holds = matching c'.deTarget holds' := some_map_inj (k1.trans ((key _ _ hs).trans k2.symm))
  rw [e, hbuild, hc, he'] at he
  exact (Res.ok.inj he).symm

theorem pointwise_sameEnvChar_refl (l : Str) : Pointwise SameEnvChar l l := by
  induction l with
  | nil => exact .nil
  | cons x l ih => exact .cons (.inl rfl) ih

/-- The settings can be determined for one target as for the other. -/
theorem Determined.alike (ht : t.triple = t'.triple) (hp : ∀ text, CompilerPrints c w s t text ↔ CompilerPrints c w s t' text)
    (d : Determined look docs c w s t) : Determined look docs c w s t' :=
  ⟨ht ▸ d.triple, ht ▸ d.variables, d.keys, fun h => by
    obtain ⟨text, h⟩ := d.compiler h
    exact ⟨text, (hp text).1 h⟩⟩

theorem ProgramsPlaced.alike (ht : t.triple = t'.triple) {ks : List Str} (d : ProgramsPlaced look docs t ks) :
    ProgramsPlaced look docs t' ks := by
  obtain ⟨h1, h2⟩ := d
  rw [ht] at h1 h2
  exact ⟨h1, h2⟩

theorem Apply.alike (hp : ∀ text, CompilerPrints c w s t text ↔ CompilerPrints c w s t' text) {ks : List Str}
    (d : Apply docs c w s t ks) : Apply docs c w s t' ks := by
  rcases d with d | ⟨text, cs, h1, h2⟩
  · exact .inl d
  · exact .inr ⟨text, cs, (hp text).1 h1, h2⟩

/-- C98: if the compiler prints the same for a target and for a specification file of this name, the first query has the same
configuration as answer for either. -/
theorem C98_spec_file (h : Loads p fs toml cwd o look home docs c s) (ht : t.triple = t'.triple)
    (hp : ∀ text, CompilerPrints c w s t text ↔ CompilerPrints c w s t' text) (e : ETarget) :
    (c.target t w s).1 = .ok e ↔ (c.target t' w s).1 = .ok e := by
  have key : ∀ {t t' : TargetTriple}, t.triple = t'.triple → (∀ text, CompilerPrints c w s t text ↔ CompilerPrints c w s t' text) →
      (c.target t w s).1 = .ok e → (c.target t' w s).1 = .ok e := by
    intro t t' ht hp he
    obtain ⟨d, hk⟩ := (C70_succeeds_iff h).1 ⟨e, he⟩
    obtain ⟨e', he'⟩ := (C70_succeeds_iff h).2 ⟨d.alike ht hp, fun ks ha => (hk ks (ha.alike fun x => (hp x).symm)).alike ht⟩
    rw [he']
    have hq : c.target t w s = (.ok e, (c.target t w s).2) := by rw [← he]
    have hq' : c.target t' w s = (.ok e', (c.target t' w s).2) := by rw [← he']
    generalize (c.target t w s).2 = s1 at hq
    generalize (c.target t' w s).2 = s1' at hq'
    have f1 : s.target.get t.cliTarget = none := by rw [(C33_loaded h.loaded).1]; rfl
    have f2 : s.target.get t'.cliTarget = none := by rw [(C33_loaded h.loaded).1]; rfl
    have f3 : s.cfg.get t.cliTarget = none := by rw [(C33_loaded h.loaded).2]; rfl
    have f4 : s.cfg.get t'.cliTarget = none := by rw [(C33_loaded h.loaded).2]; rfl
    obtain ⟨ks, h1, _⟩ := (C63_tables h hq).2.1
    obtain ⟨_, a, a1, sr, _, q2, _, rfl⟩ := target_unpack f1 hq
    obtain ⟨_, a', a1', sr', _, q2', _, rfl⟩ := target_unpack f2 hq'
    have h2 := (cfgTables_apply h f4 q2' ks).1 (((cfgTables_apply h f3 q2 ks).2 h1).alike hp)
    rw [C98_alike h h rfl (ht ▸ pointwise_sameEnvChar_refl _) (by rw [ht]) hq hq' h1 h2 rfl]
  exact ⟨key ht hp, key ht.symm fun x => (hp x).symm⟩

/-- C98: and it panics for the one exactly if it panics for the other. -/
theorem C98_spec_file_panic (h : Loads p fs toml cwd o look home docs c s) (ht : t.triple = t'.triple)
    (hp : ∀ text, CompilerPrints c w s t text ↔ CompilerPrints c w s t' text) :
    (c.target t w s).1 = .panic ↔ (c.target t' w s).1 = .panic := by
  have key : ∀ {t t' : TargetTriple}, t.triple = t'.triple → (∀ text, CompilerPrints c w s t text ↔ CompilerPrints c w s t' text) →
      (c.target t w s).1 = .panic → (c.target t' w s).1 = .panic := by
    intro t t' ht hp he
    refine (C70_panics_iff h).2 ?_
    rcases (C70_panics_iff h).1 he with ⟨d, ks, ha, hk⟩ | ⟨h1, h2, k, hr, hx⟩
    · exact .inl ⟨d.alike ht hp, ks, ha.alike hp, fun g => hk (g.alike ht.symm)⟩
    · refine .inr ⟨ht ▸ h1, ht ▸ h2, k, ⟨hr.key, hr.accepted, fun g => ?_⟩, hx⟩
      obtain ⟨text, g⟩ := hr.compiler g
      exact ⟨text, (hp text).1 g⟩
  exact ⟨key ht hp, key ht.symm fun x => (hp x).symm⟩

/-! ### samples -/

section sample

def alikeFirst : Toml := .tbl [("target".toList, .tbl [("x-y".toList, .tbl [("rustflags".toList, .arr [.str "-a".toList])])])]
def alikeSecond : Toml := .tbl [("target".toList, .tbl [("x.Y".toList, .tbl [("rustflags".toList, .arr [.str "-a".toList])])])]

theorem sampleAlike_none {near : Toml} {docs : List (Path × Toml)} {look : Str → Option OsStr} {c : EConfig} {s : Cells} {t : TargetTriple}
    (h : Loads sampleProc sampleFs (matchingToml near) "/w/p".toList { cargoHome := some none } look none docs c s)
    (hd : ((EConfig.loadWithOptions sampleProc sampleFs (fun s => matchingToml near s >>= Config.de) "/w/p".toList
      { cargoHome := some none }).toOption.map fun r => ((r.1.target t sampleWorld r.2).1.isOk)) = some true) :
    ∃ e s1 ks, c.target t sampleWorld s = (.ok e, s1) ∧ CfgTables sampleWorld.checks docs (s1.cfg.get t.cliTarget) ks := by
  rw [h.loaded] at hd
  simp only [Res.toOption, Option.map_some, Option.some.injEq] at hd
  cases hq : c.target t sampleWorld s with
  | mk r s1 =>
    rw [hq] at hd
    cases r with
    | ok e =>
      obtain ⟨ks, hk, _⟩ := (C63_tables h hq).2.1
      exact ⟨e, s1, ks, rfl, hk⟩
    | err x => cases hd
    | panic => cases hd

theorem sampleAlike_nil {k : Str} {v : Toml} {cs : Option CfgSet} {ks : List Str} (hk : isCfgKey k = false)
    (h : CfgTables sampleWorld.checks [("/w/p/.cargo/config".toList, .tbl [("target".toList, .tbl [(k, v)])]),
      ("/w/.cargo/config.toml".toList, .tbl [])] cs ks) : ks = [] := by
  cases ks with
  | nil => rfl
  | cons k' ks =>
    obtain ⟨h1, h2, _⟩ := (h.listed k').1 List.mem_cons_self
    have h3 := sampleMatching_has h2
    simp only [List.map_cons, List.map_nil, List.mem_cons, List.not_mem_nil, or_false] at h3
    rw [h3, hk] at h1
    cases h1

/-- The hypotheses of `C98_alike` are met: `[target.x-y]` for the target `x-y`, and `[target."x.Y"]` for the target `x.Y`. -/
example : ∃ look look' c c' s s' e s1 s1', Loads sampleProc sampleFs (matchingToml alikeFirst) "/w/p".toList
      { cargoHome := some none } look none
      [("/w/p/.cargo/config".toList, alikeFirst), ("/w/.cargo/config.toml".toList, .tbl [])] c s ∧
    Loads sampleProc sampleFs (matchingToml alikeSecond) "/w/p".toList { cargoHome := some none } look' none
      [("/w/p/.cargo/config".toList, alikeSecond), ("/w/.cargo/config.toml".toList, .tbl [])] c' s' ∧
    c.target ⟨"x-y".toList, none⟩ sampleWorld s = (.ok e, s1) ∧ c'.target ⟨"x.Y".toList, none⟩ sampleWorld s' = (.ok e, s1') := by
  obtain ⟨look, c, s, h⟩ := sampleMatching_load (near := alikeFirst)
    (sampleMatching_tables (by decide) fun x hx => by
      simp only [List.mem_cons, List.not_mem_nil, or_false] at hx
      subst hx
      exact ⟨_, rfl⟩) (by decide +kernel)
  obtain ⟨look', c', s', h'⟩ := sampleMatching_load (near := alikeSecond)
    (sampleMatching_tables (by decide) fun x hx => by
      simp only [List.mem_cons, List.not_mem_nil, or_false] at hx
      subst hx
      exact ⟨_, rfl⟩) (by decide +kernel)
  obtain ⟨e, s1, ks, hq, hk⟩ := sampleAlike_none (t := ⟨"x-y".toList, none⟩) h (by decide +kernel)
  obtain ⟨e', s1', ks', hq', hk'⟩ := sampleAlike_none (t := ⟨"x.Y".toList, none⟩) h' (by decide +kernel)
  have n1 := sampleAlike_nil (by decide +kernel) hk
  have n2 := sampleAlike_nil (by decide +kernel) hk'
  have hn : Pointwise SameEnvChar "x-y".toList "x.Y".toList := (C32_shared_iff _ _).1 (by decide +kernel)
  obtain rfl : e = e' := C98_alike h h' rfl hn rfl hq hq' hk hk' (by rw [n1, n2]; rfl)
  exact ⟨look, look', c, c', s, s', e, s1, s1', h, h', hq, hq'⟩

/-- `C98_spec_file` applies: the compiler of the sample prints the same for the target and for the file. -/
example : ∃ look c s e, Loads sampleProc sampleFs (matchingToml matchingFirst) "/w/p".toList { cargoHome := some none } look none
      [("/w/p/.cargo/config".toList, matchingFirst), ("/w/.cargo/config.toml".toList, .tbl [])] c s ∧
    (c.target ⟨"x-y".toList, none⟩ sampleWorld s).1 = .ok e ∧
    (c.target ⟨"x-y".toList, some "/w/x-y.json".toList⟩ sampleWorld s).1 = .ok e := by
  obtain ⟨look, c, s, h⟩ := sampleMatching_load (near := matchingFirst)
    (sampleMatching_tables (by decide) fun x hx => by
      simp only [List.mem_cons, List.not_mem_nil, or_false] at hx
      rcases hx with rfl | rfl <;> exact ⟨_, rfl⟩) (by decide +kernel)
  obtain ⟨e, s1, ks, hq, hk⟩ := sampleAlike_none (t := ⟨"x-y".toList, none⟩) h (by decide +kernel)
  have he : (c.target ⟨"x-y".toList, none⟩ sampleWorld s).1 = .ok e := by rw [hq]
  refine ⟨look, c, s, e, h, he, (C98_spec_file h ?_ ?_ e).1 he⟩
  · rfl
  · intro text
    exact Iff.rfl

/-- The answers differ between the names of two targets with different tables: the condition on the tables is needed. -/
example : ((EConfig.loadWithOptions sampleProc sampleFs (fun s => matchingToml alikeFirst s >>= Config.de) "/w/p".toList
      { cargoHome := some none }).toOption.map fun r => ((r.1.target ⟨"x-y".toList, none⟩ sampleWorld r.2).1.toOption.map (·.rustflags.isSome),
        (r.1.target ⟨"x.Y".toList, none⟩ sampleWorld r.2).1.toOption.map (·.rustflags.isSome))) = some (some true, some false) := by
  decide +kernel

end sample

end CC
