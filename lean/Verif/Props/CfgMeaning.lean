import Verif.Spec.CfgMeaning
import Verif.Props.CfgCompose
/-
Cfg keys that mean the same: C101.
-/
namespace CC

variable {checks : Bool}

/-- C101: keys of formulas that have the same truth value whatever the predicates are mean the same. -/
theorem C101_formulas {x y : Str} {t t' : CfgTree} (hx : IsCfg (cfgKey x) t) (hy : IsCfg (cfgKey y) t') (hn : t.AllFns Narrow)
    (hn' : t'.AllFns Narrow) (hv : ∀ v, t.value v = t'.value v) : SameMeaning checks (cfgKey x) (cfgKey y) := by
  intro cs b
  rw [keyValue_tree hx hn, keyValue_tree hy hn', hv]

/-- C101: a double negation may be left out. -/
theorem C101_not_not {x : Str} (hx : IsExpr x) :
    SameMeaning checks (cfgKey (FnName.not.call [FnName.not.call [x]])) (cfgKey x) := by
  intro cs b
  obtain ⟨h1, h2⟩ := C99_not (checks := checks) (cs := cs) hx b
  have h3 := (C99_not (checks := checks) (cs := cs) h1 (!b)).2
  rw [Bool.not_not] at h3
  exact h3.trans h2

theorem isExpr_value {x : Str} (hx : IsExpr x) (cs : CfgSet) : ∃ b, KeyValue checks cs (cfgKey x) b := by
  obtain ⟨t, h1, h2⟩ := hx
  exact ⟨_, (keyValue_tree h1 h2 _).2 rfl⟩

/-- C101: the order of the operands does not matter. -/
theorem C101_swap {x y : Str} (hx : IsExpr x) (hy : IsExpr y) :
    SameMeaning checks (cfgKey (FnName.all.call [x, y])) (cfgKey (FnName.all.call [y, x])) ∧
    SameMeaning checks (cfgKey (FnName.any.call [x, y])) (cfgKey (FnName.any.call [y, x])) := by
  have hp : ∀ {x y : Str}, IsExpr x → IsExpr y → ∀ p ∈ [x, y], IsExpr p := by
    intro x y hx hy p hp
    simp only [List.mem_cons, List.not_mem_nil, or_false] at hp
    rcases hp with rfl | rfl
    · exact hx
    · exact hy
  have key : ∀ {u v : Str} {cs : CfgSet} {z : Bool}, KeyValue checks cs u z → KeyValue checks cs v z → ∀ b,
      KeyValue checks cs u b ↔ KeyValue checks cs v b := by
    intro u v cs z hu hv b
    constructor
    · intro h; cases keyValue_unique h hu; exact hv
    · intro h; cases keyValue_unique h hv; exact hu
  constructor
  · intro cs
    obtain ⟨b1, h1⟩ := isExpr_value (checks := checks) hx cs
    obtain ⟨b2, h2⟩ := isExpr_value (checks := checks) hy cs
    refine key (C99_all (hp hx hy) (by simp) (.cons h1 (.cons h2 .nil))).2 (z := [b1, b2].all id) ?_
    have := (C99_all (hp hy hx) (by simp) (.cons h2 (.cons h1 .nil))).2
    rwa [show [b1, b2].all id = [b2, b1].all id by cases b1 <;> cases b2 <;> rfl]
  · intro cs
    obtain ⟨b1, h1⟩ := isExpr_value (checks := checks) hx cs
    obtain ⟨b2, h2⟩ := isExpr_value (checks := checks) hy cs
    refine key (C99_any (hp hx hy) (by simp) (.cons h1 (.cons h2 .nil))).2 (z := [b1, b2].any id) ?_
    have := (C99_any (hp hy hx) (by simp) (.cons h2 (.cons h1 .nil))).2
    rwa [show [b1, b2].any id = [b2, b1].any id by cases b1 <;> cases b2 <;> rfl]

/-- C101: the laws of De Morgan. -/
theorem C101_de_morgan {x y : Str} (hx : IsExpr x) (hy : IsExpr y) :
    SameMeaning checks (cfgKey (FnName.not.call [FnName.any.call [x, y]]))
      (cfgKey (FnName.all.call [FnName.not.call [x], FnName.not.call [y]])) := by
  intro cs
  obtain ⟨b1, h1⟩ := isExpr_value (checks := checks) hx cs
  obtain ⟨b2, h2⟩ := isExpr_value (checks := checks) hy cs
  obtain ⟨n1, m1⟩ := C99_not (checks := checks) (cs := cs) hx b1
  obtain ⟨n2, m2⟩ := C99_not (checks := checks) (cs := cs) hy b2
  obtain ⟨a1, a2⟩ := C99_any (checks := checks) (cs := cs) (ps := [x, y]) (fun p hp => by
    simp only [List.mem_cons, List.not_mem_nil, or_false] at hp
    rcases hp with rfl | rfl
    · exact hx
    · exact hy) (by simp) (.cons h1 (.cons h2 .nil))
  have a3 := ((C99_not (checks := checks) (cs := cs) a1 _).2).2 a2
  have a4 := (C99_all (checks := checks) (cs := cs) (ps := [FnName.not.call [x], FnName.not.call [y]]) (fun p hp => by
    simp only [List.mem_cons, List.not_mem_nil, or_false] at hp
    rcases hp with rfl | rfl
    · exact n1
    · exact n2) (by simp) (.cons (m1.2 h1) (.cons (m2.2 h2) .nil))).2
  rw [show ([!b1, !b2].all id) = !([b1, b2].any id) by cases b1 <;> cases b2 <;> rfl] at a4
  intro b
  constructor
  · intro h; cases keyValue_unique h a3; exact a4
  · intro h; cases keyValue_unique h a4; exact a3

variable {p : ProcEnv} {fs fs' : Fs} {toml toml' : Str → Res Toml} {cwd : Path} {o : Options} {c c' : EConfig} {s s' s1 s1' : Cells}
  {look look' : Str → Option OsStr} {home home' : Option Path} {docs docs' : List (Path × Toml)} {w : World} {t : TargetTriple}

/-- The keys that are true have the same contents. -/
theorem picked_same {checks : Bool} {cs : Option CfgSet} {l l' ks ks' : List Str} (hl : CfgKeysOf docs l) (hl' : CfgKeysOf docs' l')
    (hr : ListRel (fun x y => SameMeaning checks x y ∧ saidAt ["target".toList, x] docs = saidAt ["target".toList, y] docs') l l')
    (hk : CfgTables checks docs cs ks) (hk' : CfgTables checks docs' cs ks') :
    ks.map (fun k => saidAt ["target".toList, k] docs) = ks'.map fun k => saidAt ["target".toList, k] docs' := by
  classical
  have pick : ∀ {docs : List (Path × Toml)} {l ks : List Str}, CfgKeysOf docs l → CfgTables checks docs cs ks →
      ks = l.filter fun k => decide (∃ c, cs = some c ∧ KeyValue checks c k true) := by
    intro docs l ks hl hk
    refine ordered_ext hk.ordered (List.Pairwise.sublist List.filter_sublist hl.ordered) fun k => ?_
    rw [List.mem_filter, hk.listed, hl.listed, decide_eq_true_eq, ← and_assoc]
    exact Iff.rfl
  rw [pick hl hk, pick hl' hk']
  clear hk hk' hl hl' pick
  induction hr with
  | nil => rfl
  | @cons x y l l' hxy _ ih =>
    have hd : decide (∃ c, cs = some c ∧ KeyValue checks c x true) = decide (∃ c, cs = some c ∧ KeyValue checks c y true) := by
      rw [decide_eq_decide]
      exact ⟨fun ⟨c, h1, h2⟩ => ⟨c, h1, (hxy.1 c true).1 h2⟩, fun ⟨c, h1, h2⟩ => ⟨c, h1, (hxy.1 c true).2 h2⟩⟩
    rw [List.filter_cons, List.filter_cons, hd]
    split
    · rw [List.map_cons, List.map_cons, ih, hxy.2]
    · exact ih

theorem listRel_partner {α β : Type} {R : α → β → Prop} {l : List α} {l' : List β} (h : ListRel R l l') :
    (∀ y ∈ l', ∃ x ∈ l, R x y) ∧ (∀ x ∈ l, ∃ y ∈ l', R x y) := by
  induction h with
  | nil => exact ⟨fun y hy => (by cases hy), fun y hy => (by cases hy)⟩
  | cons hr _ ih =>
    refine ⟨fun y hy => ?_, fun x hx => ?_⟩
    · rcases List.mem_cons.1 hy with rfl | hy
      · exact ⟨_, List.mem_cons_self, hr⟩
      · obtain ⟨x, h1, h2⟩ := ih.1 y hy
        exact ⟨x, List.mem_cons_of_mem _ h1, h2⟩
    · rcases List.mem_cons.1 hx with rfl | hx
      · exact ⟨_, List.mem_cons_self, hr⟩
      · obtain ⟨y, h1, h2⟩ := ih.2 x hx
        exact ⟨y, List.mem_cons_of_mem _ h1, h2⟩

/-- C101: if the cfg keys of a config are replaced by ones that mean the same and come in the same order, the tables staying as they are,
every query for a target that succeeds still succeeds, with the same configuration, and the same processes are started. -/
theorem C101_replaced (h : Loads p fs toml cwd o look home docs c s) (h' : Loads p fs' toml' cwd o look' home' docs' c' s')
    (hb : saidAt ["build".toList] docs = saidAt ["build".toList] docs')
    (ht : saidAt ["target".toList, t.triple] docs = saidAt ["target".toList, t.triple] docs') {l l' : List Str}
    (hl : CfgKeysOf docs l) (hl' : CfgKeysOf docs' l')
    (hr : ListRel (fun x y => SameMeaning w.checks x y ∧ saidAt ["target".toList, x] docs = saidAt ["target".toList, y] docs') l l')
    {e : ETarget} (hq : c.target t w s = (.ok e, s1)) : ∃ s1', c'.target t w s' = (.ok e, s1') ∧ s1'.trace = s1.trace := by
  have hlook : look = look' := (env_unique h.env (cwd := cwd) rfl).symm.trans (env_unique h'.env (cwd := cwd) rfl)
  subst hlook
  obtain ⟨de, d⟩ := h.behind
  obtain ⟨de', d'⟩ := h'.behind
  have hc : c.cx = c'.cx := (load_context h.loaded).1.trans (load_context h'.loaded).1.symm
  have hss : s = s' := (load_context h.loaded).2.trans (load_context h'.loaded).2.symm
  subst hss
  have hbuild := d.build_same d' hb
  have hown := h.entry_same h' ht
  have f1 : s.target.get t.cliTarget = none := by rw [(C33_loaded h.loaded).1]; rfl
  obtain ⟨h0, a, a1, sr, q1, q2, he, rfl⟩ := target_unpack f1 hq
  rw [hown, hc] at q1
  rw [hc, hbuild] at he q2
  obtain ⟨back, forth⟩ := listRel_partner hr
  have mem : ∀ k v, (k, v) ∈ c'.deTarget → isCfgKey k = true → ∃ x v, (x, v) ∈ c.deTarget ∧ isCfgKey x = true ∧
      SameMeaning w.checks x k := by
    intro k v hv hk1
    obtain ⟨x, x1, x2, _⟩ := back k ((hl'.listed k).2 ⟨hk1, (loads_table h' k).1 ⟨v, hv⟩⟩)
    obtain ⟨x3, x4⟩ := (hl.listed x).1 x1
    obtain ⟨u, x5⟩ := (loads_table h x).2 x4
    exact ⟨x, u, x5, x3, x2⟩
  rw [cfgTables_eq] at q2
  cases hf : firstCfgKey c.deTarget with
  | none =>
    simp only [hf] at q2
    cases q2
    have hf' : firstCfgKey c'.deTarget = none := by
      cases hx : firstCfgKey c'.deTarget with
      | none => rfl
      | some k =>
        obtain ⟨k1, v, k2⟩ := firstCfgKey_some hx
        obtain ⟨x, u, k3, k4, _⟩ := mem k v k2 k1
        rw [firstCfgKey_none hf x u k3] at k4
        cases k4
    refine ⟨_, target_pack f1 h0 q1 (a1 := a) (sr := s) ?_ he, rfl⟩
    rw [cfgTables_eq, hf']
  | some k0 =>
    simp only [hf] at q2
    cases hp : Expression.parse w.checks k0 with
    | err x => simp only [hp] at q2; cases q2
    | panic => simp only [hp] at q2; cases q2
    | ok x0 =>
      simp only [hp] at q2
      cases ho : cfgOf c'.cx c'.build t w s with
      | mk ro s2 =>
        rw [ho] at q2
        cases ro with
        | err x => cases q2
        | panic => cases q2
        | ok cs =>
          simp only [Prod.mk.injEq] at q2
          obtain ⟨q2, rfl⟩ := q2
          obtain ⟨v1, rfl⟩ := evalTables_ok.1 q2
          have v2 : ∀ k v, (k, v) ∈ c'.deTarget → isCfgKey k = true → ∃ e, Expression.parse w.checks k = .ok e := by
            intro k v hv hk1
            obtain ⟨x, u, x1, x2, x3⟩ := mem k v hv hk1
            obtain ⟨y, hy⟩ := v1 x u x1 x2
            obtain ⟨z, hz, _⟩ := (x3 cs _).1 ⟨y, hy, keyValue_of_ok hy⟩
            exact ⟨z, hz⟩
          have m1 : Evaluated w.checks c.deTarget (some cs) (keyHolds w.checks cs) := by
            intro k v hv hk1
            obtain ⟨y, hy⟩ := v1 k v hv hk1
            exact ⟨cs, rfl, y, hy, keyValue_of_ok hy⟩
          have m2 : Evaluated w.checks c'.deTarget (some cs) (keyHolds w.checks cs) := by
            intro k v hv hk1
            obtain ⟨y, hy⟩ := v2 k v hv hk1
            exact ⟨cs, rfl, y, hy, keyValue_of_ok hy⟩
          have g1 := cfgTables_matching h m1
          have g2 := cfgTables_matching h' m2
          have k1 := matching_keys h m1 g1
          have k2 := matching_keys h' m2 g2
          have key : ∀ (l l' : List Str), l.map (fun k => saidAt ["target".toList, k] docs) =
              l'.map (fun k => saidAt ["target".toList, k] docs') → l.map (BMap.get c.deTarget) = l'.map (BMap.get c'.deTarget) := by
            intro l
            induction l with
            | nil =>
              intro l' e
              cases l' with
              | nil => rfl
              | cons _ _ => cases e
            | cons k l ih =>
              intro l' e
              cases l' with
              | nil => cases e
              | cons k' l' =>
                simp only [List.map_cons, List.cons.injEq] at e ⊢
                exact ⟨h.entry_moved h' e.1, ih l' e.2⟩
          have hm : matching c.deTarget (keyHolds w.checks cs) = matching c'.deTarget (keyHolds w.checks cs) :=
            some_map_inj (k1.trans ((key _ _ (picked_same hl hl' hr g1 g2)).trans k2.symm))
          cases hf' : firstCfgKey c'.deTarget with
          | none =>
            obtain ⟨i1, v, i2⟩ := firstCfgKey_some hf
            obtain ⟨y, y1, _⟩ := forth k0 ((hl.listed k0).2 ⟨i1, (loads_table h k0).1 ⟨v, i2⟩⟩)
            obtain ⟨y2, y3⟩ := (hl'.listed y).1 y1
            obtain ⟨u, y4⟩ := (loads_table h' y).2 y3
            rw [firstCfgKey_none hf' y u y4] at y2
            cases y2
          | some k1 =>
            obtain ⟨i1, v, i2⟩ := firstCfgKey_some hf'
            obtain ⟨x, hx⟩ := v2 k1 v i2 i1
            refine ⟨_, target_pack f1 h0 q1 (a1 := (matching c.deTarget (keyHolds w.checks cs)).foldl TargetAcc.addCfg a)
              (sr := s2) ?_ he, rfl⟩
            rw [cfgTables_eq, hf']
            simp only [hx, ho]
            rw [evalTables_ok.2 ⟨v2, rfl⟩, hm]

/-! ### samples -/

section sample

def meaningDoc : Toml := .tbl [("target".toList, .tbl [
  ("cfg(not(not(unix)))".toList, .tbl [("rustflags".toList, .arr [.str "-a".toList])])])]

theorem sampleMeaning_keys {k : Str} {v : Toml} (hk : isCfgKey k = true) (hv : (Toml.tbl [("target".toList, .tbl [(k, v)])]).at
    ["target".toList, k] ≠ none) : CfgKeysOf [("/w/p/.cargo/config".toList, .tbl [("target".toList, .tbl [(k, v)])]),
      ("/w/.cargo/config.toml".toList, .tbl [])] [k] := by
  refine ⟨by simp, fun x => ⟨fun hx => ?_, fun ⟨_, hx⟩ => ?_⟩⟩
  · simp only [List.mem_cons, List.not_mem_nil, or_false] at hx
    subst hx
    exact ⟨hk, _, _, List.mem_cons_self, hv⟩
  · exact sampleMatching_has hx

/-- The hypotheses of `C101_replaced` and `C101_not_not` are met. -/
example : ∃ look look' c c' s s' e s1 s1', Loads sampleProc sampleFs (matchingToml meaningDoc) "/w/p".toList
      { cargoHome := some none } look none
      [("/w/p/.cargo/config".toList, meaningDoc), ("/w/.cargo/config.toml".toList, .tbl [])] c s ∧
    Loads sampleProc sampleFs (matchingToml matchingSecond) "/w/p".toList { cargoHome := some none } look' none
      [("/w/p/.cargo/config".toList, matchingSecond), ("/w/.cargo/config.toml".toList, .tbl [])] c' s' ∧
    c.target sampleTriple sampleWorld s = (.ok e, s1) ∧ c'.target sampleTriple sampleWorld s' = (.ok e, s1') := by
  obtain ⟨look, c, s, h⟩ := sampleMatching_load (near := meaningDoc)
    (sampleMatching_tables (by decide) fun x hx => by
      simp only [List.mem_cons, List.not_mem_nil, or_false] at hx
      subst hx
      exact ⟨_, rfl⟩) (by decide +kernel)
  obtain ⟨look', c', s', h'⟩ := sampleMatching_load (near := matchingSecond)
    (sampleMatching_tables (by decide) fun x hx => by
      simp only [List.mem_cons, List.not_mem_nil, or_false] at hx
      subst hx
      exact ⟨_, rfl⟩) (by decide +kernel)
  obtain ⟨e, s1, _, hq, _, _⟩ := sampleMatching_query h (by decide +kernel)
  obtain ⟨s1', hq', _⟩ := C101_replaced h h' rfl rfl (sampleMeaning_keys rfl fun e => (by cases e))
    (sampleMeaning_keys rfl fun e => (by cases e)) (.cons ⟨C101_not_not sample_unix, rfl⟩ .nil) hq
  exact ⟨look, look', c, c', s, s', e, s1, s1', h, h', hq, hq'⟩

/-- `C101_swap` and `C101_de_morgan` apply. -/
example : SameMeaning true "cfg(any(unix, not(unix)))".toList "cfg(any(not(unix), unix))".toList ∧
    SameMeaning true "cfg(not(any(unix, not(unix))))".toList "cfg(all(not(unix), not(not(unix))))".toList :=
  ⟨(C101_swap sample_unix (C99_not (checks := true) (cs := {}) sample_unix true).1).2,
    C101_de_morgan sample_unix (C99_not (checks := true) (cs := {}) sample_unix true).1⟩

/-- `C101_formulas` applies: `all()` and `not(any())` are both true. -/
example : SameMeaning true "cfg(all())".toList "cfg(not(any()))".toList := by
  have h1 := call_isCfg .all (ps := []) .nil (by intro h; cases h)
  have h2 := call_isCfg .any (ps := []) .nil (by intro h; cases h)
  have h3 := call_isCfg .not (.cons h2 .nil) (fun _ => rfl)
  exact C101_formulas h1 h3 ⟨narrow_short (by simp), trivial⟩
    ⟨narrow_short (by simp), ⟨narrow_short (by simp), trivial⟩, trivial⟩ fun v => rfl

/-- Not all keys mean the same. -/
example : ¬ SameMeaning true "cfg(unix)".toList "cfg(windows)".toList := by
  intro h
  have e1 : KeyValue true matchingCfg "cfg(unix)".toList true := ⟨_, rfl, by decide +kernel⟩
  have e2 : KeyValue true matchingCfg "cfg(windows)".toList false := ⟨_, rfl, by decide +kernel⟩
  cases keyValue_unique ((h _ _).1 e1) e2

end sample

end CC
