import Verif.Lemmas.Matching
/-
Only the cfg tables that are true for the target matter: C87.

As in C82 two loads are compared, here for a query about one target.
-/
namespace CC

variable {p : ProcEnv} {fs fs' : Fs} {toml toml' : Str → Res Toml} {cwd : Path} {o : Options} {c c' : EConfig} {s s' s1 s1' : Cells}
  {look look' : Str → Option OsStr} {home home' : Option Path} {docs docs' : List (Path × Toml)} {w w' : World} {t : TargetTriple}

/-- C87: if the tables that are true for the target have the same contents in the same order, the answers are the same.  The keys
`cfg(..)` may be written differently, there may be further tables that are false, and the compiler and the rest of the world may
behave differently. -/
theorem C87_contents (h : Loads p fs toml cwd o look home docs c s) (h' : Loads p fs' toml' cwd o look' home' docs' c' s')
    (hb : saidAt ["build".toList] docs = saidAt ["build".toList] docs')
    (ht : saidAt ["target".toList, t.triple] docs = saidAt ["target".toList, t.triple] docs')
    {e e' : ETarget} (hq : c.target t w s = (.ok e, s1)) (hq' : c'.target t w' s' = (.ok e', s1')) {ks ks' : List Str}
    (hk : CfgTables w.checks docs (s1.cfg.get t.cliTarget) ks) (hk' : CfgTables w'.checks docs' (s1'.cfg.get t.cliTarget) ks')
    (hs : ks.map (fun k => saidAt ["target".toList, k] docs) = ks'.map fun k => saidAt ["target".toList, k] docs') : e = e' := by
  have hl : look = look' := (env_unique h.env (cwd := cwd) rfl).symm.trans (env_unique h'.env (cwd := cwd) rfl)
  subst hl
  obtain ⟨de, d⟩ := h.behind
  obtain ⟨de', d'⟩ := h'.behind
  have hc : c.cx = c'.cx := (load_context h.loaded).1.trans (load_context h'.loaded).1.symm
  have hbuild := d.build_same d' hb
  have hown := h.entry_same h' ht
  have f1 : s.target.get t.cliTarget = none := by rw [(C33_loaded h.loaded).1]; rfl
  have f2 : s'.target.get t.cliTarget = none := by rw [(C33_loaded h'.loaded).1]; rfl
  obtain ⟨_, a, a1, sr, q1, q2, he, rfl⟩ := target_unpack f1 hq
  obtain ⟨_, a', a1', sr', q1', q2', he', rfl⟩ := target_unpack f2 hq'
  rw [hown, hc, q1'] at q1
  cases q1
  obtain ⟨holds, m1, rfl⟩ := cfgTables_ok q2
  obtain ⟨holds', m1', rfl⟩ := cfgTables_ok q2'
  have k1 := matching_keys h m1 hk
  have k2 := matching_keys h' m1' hk'
  have key : ∀ (l l' : List Str), l.map (fun k => saidAt ["target".toList, k] docs) = l'.map (fun k => saidAt ["target".toList, k] docs') →
      l.map (BMap.get c.deTarget) = l'.map (BMap.get c'.deTarget) := by
    intro l
    induction l with
    | nil =>
      intro l' e
      cases l' with
      | nil => rfl
      | cons _ _ => cases e
    | cons k l ih =>
      intro l' e
      cases l' with
      | nil => cases e
      | cons k' l' =>
        simp only [List.map_cons, List.cons.injEq] at e ⊢
        exact ⟨h.entry_moved h' e.1, ih l' e.2⟩
  have e : matching c.deTarget holds = matching c'.deTarget holds' := some_map_inj (k1.trans ((key _ _ hs).trans k2.symm))
  rw [e, hbuild, hc, he'] at he
  exact (Res.ok.inj he).symm

/-- C87: tables that are false for the target may be left out: the query still succeeds, with the same answer. -/
theorem C87_left_out (h : Loads p fs toml cwd o look home docs c s) (h' : Loads p fs' toml' cwd o look' home' docs' c' s')
    (hb : saidAt ["build".toList] docs = saidAt ["build".toList] docs')
    (ht : saidAt ["target".toList, t.triple] docs = saidAt ["target".toList, t.triple] docs')
    {e : ETarget} (hq : c.target t w s = (.ok e, s1)) {ks : List Str}
    (hk : CfgTables w.checks docs (s1.cfg.get t.cliTarget) ks)
    (hs : ∀ k, isCfgKey k = true → saidAt ["target".toList, k] docs' = saidAt ["target".toList, k] docs ∨
      (saidAt ["target".toList, k] docs' = [] ∧ k ∉ ks)) :
    ∃ s1', c'.target t w s' = (.ok e, s1') ∧ (s1'.trace = s1.trace ∨ s1'.trace = s'.trace) := by
  have hl : look = look' := (env_unique h.env (cwd := cwd) rfl).symm.trans (env_unique h'.env (cwd := cwd) rfl)
  subst hl
  obtain ⟨de, d⟩ := h.behind
  obtain ⟨de', d'⟩ := h'.behind
  have hc : c.cx = c'.cx := (load_context h.loaded).1.trans (load_context h'.loaded).1.symm
  have hss : s = s' := (load_context h.loaded).2.trans (load_context h'.loaded).2.symm
  subst hss
  have hbuild := d.build_same d' hb
  have hown := h.entry_same h' ht
  have f1 : s.target.get t.cliTarget = none := by rw [(C33_loaded h.loaded).1]; rfl
  obtain ⟨h0, a, a1, sr, q1, q2, he, rfl⟩ := target_unpack f1 hq
  rw [hown, hc] at q1
  rw [hc, hbuild] at he q2
  -- what is kept is the same
  have kept : ∀ k, isCfgKey k = true → BMap.get c'.deTarget k = BMap.get c.deTarget k ∨
      (BMap.get c'.deTarget k = none ∧ k ∉ ks) := by
    intro k hk1
    rcases hs k hk1 with e1 | ⟨e1, e2⟩
    · exact .inl (h'.entry_same h e1)
    · refine .inr ⟨?_, e2⟩
      have := h'.target_entry k
      rw [e1] at this
      cases hg : BMap.get c'.deTarget k with
      | none => rfl
      | some v =>
        rw [hg] at this
        obtain ⟨_, _, hx⟩ := this.1 rfl
        cases hx
  have mem : ∀ k v, (k, v) ∈ c'.deTarget → isCfgKey k = true → ∃ v, (k, v) ∈ c.deTarget := by
    intro k v hv hk1
    have hg := (BMap.mem_iff_get h'.sorted).1 hv
    rcases kept k hk1 with e1 | ⟨e1, _⟩
    · exact ⟨v, (BMap.mem_iff_get h.sorted).2 (e1 ▸ hg)⟩
    · rw [e1] at hg; cases hg
  rw [cfgTables_eq] at q2
  cases hf : firstCfgKey c.deTarget with
  | none =>
    simp only [hf] at q2
    cases q2
    have hf' : firstCfgKey c'.deTarget = none := by
      cases hx : firstCfgKey c'.deTarget with
      | none => rfl
      | some k =>
        obtain ⟨k1, v, k2⟩ := firstCfgKey_some hx
        obtain ⟨v', k3⟩ := mem k v k2 k1
        rw [firstCfgKey_none hf k v' k3] at k1
        cases k1
    refine ⟨_, target_pack f1 h0 q1 (a1 := a) (sr := s) ?_ he, .inl rfl⟩
    rw [cfgTables_eq, hf']
  | some k0 =>
    simp only [hf] at q2
    cases hp : Expression.parse w.checks k0 with
    | err x => simp only [hp] at q2; cases q2
    | panic => simp only [hp] at q2; cases q2
    | ok x0 =>
      simp only [hp] at q2
      cases ho : cfgOf c'.cx c'.build t w s with
      | mk ro s2 =>
        rw [ho] at q2
        cases ro with
        | err x => cases q2
        | panic => cases q2
        | ok cs =>
          simp only [Prod.mk.injEq] at q2
          obtain ⟨q2, rfl⟩ := q2
          obtain ⟨v1, rfl⟩ := evalTables_ok.1 q2
          have hcs : s2.cfg.get t.cliTarget = some cs := cfgOf_result ho
          have hm : matching c'.deTarget (keyHolds w.checks cs) = matching c.deTarget (keyHolds w.checks cs) := by
            refine matching_filter h.sorted h'.sorted fun k hk1 hk2 => ?_
            rcases kept k hk1 with e1 | ⟨e1, e2⟩
            · exact e1
            · rw [e1]
              cases hg : BMap.get c.deTarget k with
              | none => rfl
              | some v =>
                have hv := BMap.mem_of_get hg
                obtain ⟨x, hx⟩ := v1 k v hv hk1
                refine absurd ((hk.listed k).2 ⟨hk1, (loads_table h k).1 ⟨v, hv⟩, cs, hcs, x, hx, ?_⟩) e2
                rw [keyValue_of_ok hx, hk2]
          cases hf' : firstCfgKey c'.deTarget with
          | none =>
            have hn : matching c'.deTarget (keyHolds w.checks cs) = [] := by
              unfold matching
              rw [List.map_eq_nil_iff, List.filter_eq_nil_iff]
              rintro ⟨k, v⟩ hv
              simp [firstCfgKey_none hf' k v hv]
            rw [← hm, hn] at he
            refine ⟨_, target_pack f1 h0 q1 (a1 := a) (sr := s) ?_ he, .inr rfl⟩
            rw [cfgTables_eq, hf']
          | some k1 =>
            obtain ⟨i1, v, i2⟩ := firstCfgKey_some hf'
            obtain ⟨v', i3⟩ := mem k1 v i2 i1
            obtain ⟨x, hx⟩ := v1 k1 v' i3 i1
            refine ⟨_, target_pack f1 h0 q1 (a1 := (matching c.deTarget (keyHolds w.checks cs)).foldl TargetAcc.addCfg a)
              (sr := s2) ?_ he, .inl rfl⟩
            rw [cfgTables_eq, hf']
            simp only [hx, ho]
            rw [evalTables_ok.2 ⟨fun k v hv hk1 => ?_, rfl⟩, hm]
            obtain ⟨v', i4⟩ := mem k v hv hk1
            exact v1 k v' i4 hk1

/-! ### a sample: a table that is false is left out, and one that is true gets another key -/

def matchingFirst : Toml := .tbl [("target".toList, .tbl [
  ("cfg(unix)".toList, .tbl [("rustflags".toList, .arr [.str "-a".toList])]),
  ("cfg(windows)".toList, .tbl [("rustflags".toList, .arr [.str "-b".toList])])])]
def matchingSecond : Toml := .tbl [("target".toList, .tbl [
  ("cfg(unix)".toList, .tbl [("rustflags".toList, .arr [.str "-a".toList])])])]
def matchingThird : Toml := .tbl [("target".toList, .tbl [
  ("cfg(not(windows))".toList, .tbl [("rustflags".toList, .arr [.str "-a".toList])])])]

def matchingToml (near : Toml) (s : Str) : Res Toml :=
  if s = "near".toList then .ok near else if s = "far".toList then .ok (.tbl []) else .err (.toml [])

theorem sampleMatching_distinct {near : Toml} (hn : near.DistinctKeys) (s : Str) (t : Toml) (h : matchingToml near s = .ok t) :
    t.DistinctKeys := by
  unfold matchingToml at h
  split at h
  · cases h; exact hn
  · split at h
    · cases h
      exact distinct_tbl (by decide) fun x hx => by cases hx
    · cases h

theorem sampleMatching_load {near : Toml} (hn : near.DistinctKeys)
    (h : (EConfig.loadWithOptions sampleProc sampleFs (fun s => matchingToml near s >>= Config.de) "/w/p".toList
      { cargoHome := some none }).isOk = true) :
    ∃ look c s, Loads sampleProc sampleFs (matchingToml near) "/w/p".toList { cargoHome := some none } look none
      [("/w/p/.cargo/config".toList, near), ("/w/.cargo/config.toml".toList, .tbl [])] c s :=
  sample_load (sampleMatching_distinct hn) (if_pos rfl) ((if_neg (by decide)).trans (if_pos rfl)) h

theorem sampleMatching_tables {l : List (Str × Toml)} (hl : (l.map Prod.fst).Nodup)
    (h : ∀ x ∈ l, ∃ f, x.2 = .tbl [("rustflags".toList, .arr [.str f])]) :
    (Toml.tbl [("target".toList, .tbl l)]).DistinctKeys := by
  refine distinct_tbl (by simp) fun x hx => ?_
  simp only [List.mem_cons, List.not_mem_nil, or_false] at hx
  subst hx
  refine distinct_tbl hl fun x hx => ?_
  obtain ⟨f, hf⟩ := h x hx
  rw [hf]
  refine distinct_tbl (by simp) fun y hy => distinct_leaf ?_
  simp only [List.mem_cons, List.not_mem_nil, or_false] at hy
  subst hy
  rfl

def matchingCfg : CfgSet := (CfgSet.parse "unix\ntarget_os=\"linux\"".toList).getD {}

theorem sampleMatching_query {near : Toml} {docs : List (Path × Toml)} {look : Str → Option OsStr} {c : EConfig} {s : Cells}
    (h : Loads sampleProc sampleFs (matchingToml near) "/w/p".toList { cargoHome := some none } look none docs c s)
    (hd : ((EConfig.loadWithOptions sampleProc sampleFs (fun s => matchingToml near s >>= Config.de) "/w/p".toList
      { cargoHome := some none }).toOption.map fun r => ((r.1.target sampleTriple sampleWorld r.2).1.isOk,
        (r.1.target sampleTriple sampleWorld r.2).2.cfg.get sampleTriple.cliTarget)) = some (true, some matchingCfg)) :
    ∃ e s1 ks, c.target sampleTriple sampleWorld s = (.ok e, s1) ∧ CfgTables sampleWorld.checks docs (s1.cfg.get sampleTriple.cliTarget) ks ∧
      s1.cfg.get sampleTriple.cliTarget = some matchingCfg := by
  rw [h.loaded] at hd
  simp only [Res.toOption, Option.map_some, Option.some.injEq, Prod.mk.injEq] at hd
  cases hq : c.target sampleTriple sampleWorld s with
  | mk r s1 =>
    rw [hq] at hd
    cases r with
    | ok e =>
      obtain ⟨ks, hk, _⟩ := (C63_tables h hq).2.1
      exact ⟨e, s1, ks, rfl, hk, hd.2⟩
    | err x => cases hd.1
    | panic => cases hd.1

/-- The hypotheses of `C87_left_out` are met. -/
example : ∃ look look' c c' s s' e s1 s1', Loads sampleProc sampleFs (matchingToml matchingFirst) "/w/p".toList
      { cargoHome := some none } look none
      [("/w/p/.cargo/config".toList, matchingFirst), ("/w/.cargo/config.toml".toList, .tbl [])] c s ∧
    Loads sampleProc sampleFs (matchingToml matchingSecond) "/w/p".toList { cargoHome := some none } look' none
      [("/w/p/.cargo/config".toList, matchingSecond), ("/w/.cargo/config.toml".toList, .tbl [])] c' s' ∧
    c.target sampleTriple sampleWorld s = (.ok e, s1) ∧ c'.target sampleTriple sampleWorld s' = (.ok e, s1') := by
  obtain ⟨look, c, s, h⟩ := sampleMatching_load (near := matchingFirst)
    (sampleMatching_tables (by decide) fun x hx => by
      simp only [List.mem_cons, List.not_mem_nil, or_false] at hx
      rcases hx with rfl | rfl <;> exact ⟨_, rfl⟩) (by decide +kernel)
  obtain ⟨look', c', s', h'⟩ := sampleMatching_load (near := matchingSecond)
    (sampleMatching_tables (by decide) fun x hx => by
      simp only [List.mem_cons, List.not_mem_nil, or_false] at hx
      subst hx
      exact ⟨_, rfl⟩) (by decide +kernel)
  obtain ⟨e, s1, ks, hq, hk, hcs⟩ := sampleMatching_query h (by decide +kernel)
  obtain ⟨s1', hq', _⟩ := C87_left_out h h' rfl rfl hq hk fun k _ => by
    by_cases hw : k = "cfg(windows)".toList
    · subst hw
      refine .inr ⟨rfl, fun hm => ?_⟩
      obtain ⟨_, _, cs, e1, e2⟩ := (hk.listed _).1 hm
      rw [hcs] at e1
      cases e1
      have e3 : KeyValue sampleWorld.checks matchingCfg "cfg(windows)".toList false := ⟨_, rfl, by decide +kernel⟩
      cases keyValue_unique e2 e3
    · refine .inl ?_
      by_cases hu : k = "cfg(unix)".toList
      · subst hu; rfl
      · have e1 : ∀ l : List (Str × Toml), (∀ x ∈ l, x.1 = "cfg(unix)".toList ∨ x.1 = "cfg(windows)".toList) →
            (Toml.tbl [("target".toList, .tbl l)]).at ["target".toList, k] = none := by
          intro l hl
          have e2 : BMap.get l k = none := by
            induction l with
            | nil => rfl
            | cons x l ih =>
              obtain ⟨k', v⟩ := x
              rw [BMap.get, if_neg, ih fun x hx => hl x (List.mem_cons_of_mem _ hx)]
              rintro rfl
              rcases hl _ List.mem_cons_self with e | e
              · exact hu e
              · exact hw e
          show ((BMap.get l k).bind fun t => t.at []) = none
          rw [e2]
          rfl
        simp only [saidAt, List.filterMap_cons, matchingFirst, matchingSecond]
        rw [e1 _ (by simp), e1 _ (by simp)]
  exact ⟨look, look', c, c', s, s', e, s1, s1', h, h', hq, hq'⟩

theorem sampleMatching_has {l : List (Str × Toml)} {k : Str} (h : HasTable [("/w/p/.cargo/config".toList, .tbl [("target".toList, .tbl l)]),
    ("/w/.cargo/config.toml".toList, .tbl [])] k) : k ∈ l.map Prod.fst := by
  obtain ⟨f, t, hm, ha⟩ := h
  simp only [List.mem_cons, List.not_mem_nil, or_false, Prod.mk.injEq] at hm
  rcases hm with ⟨_, rfl⟩ | ⟨_, rfl⟩
  · have e : (Toml.tbl [("target".toList, .tbl l)]).at ["target".toList, k] = (BMap.get l k).bind fun t => t.at [] := rfl
    rw [e] at ha
    cases hg : BMap.get l k with
    | none => rw [hg] at ha; exact absurd rfl ha
    | some v => exact List.mem_map.2 ⟨_, BMap.mem_of_get hg, rfl⟩
  · exact absurd rfl ha

theorem sampleMatching_first : CfgTables sampleWorld.checks [("/w/p/.cargo/config".toList, matchingFirst), ("/w/.cargo/config.toml".toList, .tbl [])]
    (some matchingCfg) ["cfg(unix)".toList] := by
  have e1 : KeyValue sampleWorld.checks matchingCfg "cfg(unix)".toList true := ⟨_, rfl, by decide +kernel⟩
  have e2 : KeyValue sampleWorld.checks matchingCfg "cfg(windows)".toList false := ⟨_, rfl, by decide +kernel⟩
  refine ⟨by simp, fun k => ⟨fun hk => ?_, ?_⟩, fun k _ hk => ?_⟩
  · simp only [List.mem_cons, List.not_mem_nil, or_false] at hk
    subst hk
    exact ⟨rfl, ⟨_, _, List.mem_cons_self, fun e => (by cases e)⟩, _, rfl, e1⟩
  · rintro ⟨_, hk, cs, hc, e3⟩
    cases hc
    have hk := sampleMatching_has hk
    simp only [List.map_cons, List.map_nil, List.mem_cons, List.not_mem_nil, or_false] at hk
    rcases hk with rfl | rfl
    · exact List.mem_cons_self
    · cases keyValue_unique e2 e3
  · have hk := sampleMatching_has hk
    simp only [List.map_cons, List.map_nil, List.mem_cons, List.not_mem_nil, or_false] at hk
    rcases hk with rfl | rfl
    · exact ⟨_, _, rfl, e1⟩
    · exact ⟨_, _, rfl, e2⟩

theorem sampleMatching_third : CfgTables sampleWorld.checks [("/w/p/.cargo/config".toList, matchingThird), ("/w/.cargo/config.toml".toList, .tbl [])]
    (some matchingCfg) ["cfg(not(windows))".toList] := by
  have e1 : KeyValue sampleWorld.checks matchingCfg "cfg(not(windows))".toList true := ⟨_, rfl, by decide +kernel⟩
  refine ⟨by simp, fun k => ⟨fun hk => ?_, ?_⟩, fun k _ hk => ?_⟩
  · simp only [List.mem_cons, List.not_mem_nil, or_false] at hk
    subst hk
    exact ⟨rfl, ⟨_, _, List.mem_cons_self, fun e => (by cases e)⟩, _, rfl, e1⟩
  · rintro ⟨_, hk, _⟩
    exact sampleMatching_has hk
  · have hk := sampleMatching_has hk
    simp only [List.map_cons, List.map_nil, List.mem_cons, List.not_mem_nil, or_false] at hk
    subst hk
    exact ⟨_, _, rfl, e1⟩

/-- The hypotheses of `C87_contents` are met. -/
example : ∃ look look' c c' s s' e s1 s1', Loads sampleProc sampleFs (matchingToml matchingFirst) "/w/p".toList
      { cargoHome := some none } look none
      [("/w/p/.cargo/config".toList, matchingFirst), ("/w/.cargo/config.toml".toList, .tbl [])] c s ∧
    Loads sampleProc sampleFs (matchingToml matchingThird) "/w/p".toList { cargoHome := some none } look' none
      [("/w/p/.cargo/config".toList, matchingThird), ("/w/.cargo/config.toml".toList, .tbl [])] c' s' ∧
    c.target sampleTriple sampleWorld s = (.ok e, s1) ∧ c'.target sampleTriple sampleWorld s' = (.ok e, s1') := by
  obtain ⟨look, c, s, h⟩ := sampleMatching_load (near := matchingFirst)
    (sampleMatching_tables (by decide) fun x hx => by
      simp only [List.mem_cons, List.not_mem_nil, or_false] at hx
      rcases hx with rfl | rfl <;> exact ⟨_, rfl⟩) (by decide +kernel)
  obtain ⟨look', c', s', h'⟩ := sampleMatching_load (near := matchingThird)
    (sampleMatching_tables (by decide) fun x hx => by
      simp only [List.mem_cons, List.not_mem_nil, or_false] at hx
      subst hx
      exact ⟨_, rfl⟩) (by decide +kernel)
  obtain ⟨e, s1, _, hq, _, hcs⟩ := sampleMatching_query h (by decide +kernel)
  obtain ⟨e', s1', _, hq', _, hcs'⟩ := sampleMatching_query h' (by decide +kernel)
  cases C87_contents h h' rfl rfl hq hq' (by rw [hcs]; exact sampleMatching_first) (by rw [hcs']; exact sampleMatching_third) rfl
  exact ⟨look, look', c, c', s, s', e, s1, s1', h, h', hq, hq'⟩

end CC
