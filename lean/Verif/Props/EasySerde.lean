import Verif.Lemmas.EasyRound
import Verif.Props.EndToEnd
/-
C65: what a resolved config is written as.
-/
namespace CC

variable {p p' : ProcEnv} {fs fs' : Fs} {toml toml' : Str → Res Toml} {cwd cwd' : Path} {o o' : Options} {c : EConfig} {s s0 : Cells}
  {look look' : Str → Option OsStr} {home home' : Option Path} {docs : List (Path × Toml)} {w : World} {f : Path}

theorem scalar_unlocated {α : Type} {g : α → Atom} (o : Option α) :
    ((o.map unlocated).map (Val.map g)).map (fun v => v.val.toml) = (o.map g).map Atom.toml := by cases o <;> rfl

theorem strings_unlocated (l : List Str) : serList (l.map unlocated) = strings l := by
  simp only [serList_eq, List.map_map]
  rfl

theorem lists_unlocated {α : Type} (f : α → List Str) (o : Option α) :
    (o.map fun x => serList ((f x).map unlocated)) = (o.map f).map strings := by
  cases o with
  | none => rfl
  | some a => exact congrArg some (strings_unlocated _)

theorem program_unlocated (o : Option Path) :
    ((o.map unlocated).map (Val.map Atom.str)).map (fun v => v.val.toml) = o.map .str := by cases o <;> rfl

theorem envDoc_eq (e : EEnvValue) : e.ser = envDoc e := by
  obtain ⟨v, f, r⟩ := e
  cases f <;> cases r <;> rfl

/-- C65: every setting of the resolved config is written at its place, and what is not set is absent.  Programs and directories are
written as resolved, lists and commands always as arrays, and targets as they are passed to the compiler. -/
theorem C65_written (c : EConfig) (s : Cells) :
    (∀ (k : ScalarKey) x tb, k.plain c = some x → (c.ser s).at (k.path tb) = x.map Atom.toml) ∧
    (∀ (k : ScalarKey) x tb, k.program c = some x → (c.ser s).at (k.path tb) = x.map .str) ∧
    (∀ (k : ScalarKey) x tb, k.directory c = some x → (c.ser s).at (k.path tb) = x.map .str) ∧
    (∀ (k : ListKey) x, k.plain c = some x → (c.ser s).at k.path = x.map strings) ∧
    (c.ser s).at ["build".toList, "target".toList] = c.build.target.map (fun l => strings (l.map targetText)) ∧
    (c.ser s).at ["doc".toList, "browser".toList] = c.doc.browser.map (fun b => strings (b.path :: b.args)) ∧
    (∀ k, (c.ser s).at ["env".toList, k] = (BMap.get c.env k).map envDoc) ∧
    (∀ k, ((c.ser s).at ["registries".toList, k]).isSome = (BMap.get c.registries k).isSome) := by
  rw [EConfig.ser_toDe]
  obtain ⟨h1, -, h3, -, h5, h6⟩ := C52_writes (c.toDe s.target)
  have hs : ∀ (k : ScalarKey) tb, (∀ n, k ≠ .envValue n) → (c.toDe s.target).ser.at (k.path tb) =
      (k.get (c.toDe s.target)).map fun v => v.val.toml := by
    intro k tb hk
    rw [← h1 k]
    cases k <;> first | rfl | exact absurd rfl (hk _)
  refine ⟨?_, ?_, ?_, ?_, ?_, ?_, ?_, ?_⟩
  · intro k x tb hx
    cases k <;> first
      | (cases hx; done)
      | (rw [hs _ tb (by intro n e; cases e)]; cases hx; exact scalar_unlocated _)
      | (rw [hs _ tb (by intro n e; cases e)]; cases hx
         simp only [ScalarKey.get, EConfig.toDe, BMap.get_mapVals]
         rename_i k
         cases BMap.get c.registries k with
         | none => rfl
         | some r => exact scalar_unlocated _)
  · intro k x tb hx
    cases k <;> first
      | (cases hx; done)
      | (rw [hs _ tb (by intro n e; cases e)]; cases hx; exact program_unlocated _)
  · intro k x tb hx
    cases k <;> first
      | (cases hx; done)
      | (rw [hs _ tb (by intro n e; cases e)]; cases hx; exact program_unlocated _)
  · intro k x hx
    rw [list_write]
    cases k <;> first
      | (cases hx; done)
      | (cases hx
         simp only [ListKey.get, EConfig.toDe, EBuild.toDe, Option.map_map]
         exact (lists_unlocated EFlags.flags _).trans (Option.map_map ..))
      | (cases hx
         simp only [ListKey.get, EConfig.toDe, BMap.get_mapVals, Option.map_map]
         exact (lists_unlocated EStringList.list _).trans (Option.map_map ..))
  · show (c.toDe s.target).ser.at (ListKey.path .buildTarget) = _
    rw [list_write]
    simp only [ListKey.get, EConfig.toDe, EBuild.toDe, Option.map_map]
    cases c.build.target with
    | none => rfl
    | some l =>
      refine congrArg some (Eq.trans ?_ (strings_unlocated _))
      show serList (l.map fun t => unlocated t.cliTarget) = _
      rw [List.map_map]
      congr 1
      refine List.map_congr_left fun t _ => ?_
      obtain ⟨t, p⟩ := t
      cases p <;> rfl
  · show (c.toDe s.target).ser.at (ProgKey.path .docBrowser) = _
    rw [prog_write]
    simp only [ProgKey.get, EConfig.toDe]
    cases c.doc.browser with
    | none => rfl
    | some b => exact congrArg some (strings_unlocated (b.path :: b.args))
  · intro k
    obtain ⟨l, hl, -, -, -, g_env, -⟩ := Config.ser_get (c.toDe s.target)
    rw [hl, at_ser_map g_env]
    simp only [EConfig.toDe, BMap.get_mapVals]
    cases BMap.get c.env k with
    | none => rfl
    | some e => exact congrArg some (by rw [← envDoc_eq, EEnvValue.ser_toDe])
  · intro k
    have := h6 (.registries k)
    rw [show TableKey.path (.registries k) = ["registries".toList, k] from rfl] at this
    rw [this]
    simp only [TableKey.present, EConfig.toDe, BMap.get_mapVals, Option.isSome_map]

/-- C65: nothing else is written. -/
theorem C65_written_only (c : EConfig) (s : Cells) (he : c.env.Sorted) (p : List Str) (v : Toml) (h : (c.ser s).at p = some v) :
    ((∀ l, v ≠ .tbl l) ∧ ((∃ (k : ScalarKey) (tb : Str → Option Bool), p = k.path tb) ∨ (∃ k : ListKey, p = k.path) ∨
      ∃ k : ProgKey, p = k.path)) ∨
    (∃ l, v = .tbl l) ∧ (p.length ≤ 1 ∨ (∃ k : TableKey, p = k.path) ∨ p = ["term".toList, "progress".toList]) := by
  rw [EConfig.ser_toDe] at h
  rcases C52_writes_only (c.toDe s.target) (he.mapVals _) p v h with ⟨h1, ⟨k, h2⟩ | h2⟩ | h1
  · exact .inl ⟨h1, .inl ⟨k, _, h2⟩⟩
  · exact .inl ⟨h1, .inr h2⟩
  · exact .inr h1

theorem afterAll_append (c : EConfig) (w : World) (l l' : List Query) (s : Cells) :
    afterAll c w (l ++ l') s = afterAll c w l' (afterAll c w l s) := by
  induction l generalizing s with
  | nil => rfl
  | cons q l ih => exact ih _

theorem cliTarget_text (t : TargetTriple) : t.cliTarget = targetText t := by
  obtain ⟨t, p⟩ := t
  cases p <;> rfl

/-- The cell of a target after one query. -/
theorem target_step (c : EConfig) (w : World) (q : Query) (s : Cells) (k : Str) (e : ETarget) :
    (c.ask q w s).2.target.get k = some e ↔ s.target.get k = some e ∨
      (s.target.get k = none ∧ ∃ t, q.targetOf = some t ∧ targetText t = k ∧ (c.target t w s).1 = .ok e) := by
  cases ht : q.targetOf with
  | none =>
    rw [(ask_other_tables (c := c) ht w s).2]
    simp
  | some t =>
    rw [ask_target ht, map_snd]
    obtain ⟨s1, h1, h2⟩ := target_cells c t w s
    have hst : s1.target = s.target := by
      rcases h1 with rfl | ⟨-, -, rfl⟩
      · rfl
      · exact (cfgOf_target w s).1
    simp only [Option.some.injEq, exists_eq_left', cliTarget_text] at h2 ⊢
    rcases h2 with ⟨h2, h3⟩ | ⟨e', h3, h4, h2⟩
    · rw [h2, hst]
      refine ⟨Or.inl, ?_⟩
      rintro (h | ⟨hn, rfl, h⟩)
      · exact h
      · exact h3 e h
    · rw [h2]
      dsimp only
      rw [hst, BMap.get_insert, h4]
      by_cases hk : targetText t = k
      · subst hk
        simp [h3]
      · have hk' : k ≠ targetText t := fun h => hk h.symm
        simp [hk, hk']

/-- The cell of a target after some queries. -/
theorem target_asked {c : EConfig} {w : World} {qs : List Query} {s : Cells} {k : Str} {e : ETarget}
    (h : (afterAll c w qs s).target.get k = some e) : s.target.get k = some e ∨
      ∃ pre q post t, qs = pre ++ q :: post ∧ q.targetOf = some t ∧ targetText t = k ∧
        (c.target t w (afterAll c w pre s)).1 = .ok e := by
  induction qs generalizing s with
  | nil => exact Or.inl h
  | cons q qs ih =>
    rcases ih (s := (c.ask q w s).2) h with h | ⟨pre, q', post, t, rfl, h2, h3, h4⟩
    · rcases (target_step c w q s k e).1 h with h | ⟨-, t, h2, h3, h4⟩
      · exact Or.inl h
      · exact Or.inr ⟨[], q, qs, t, rfl, h2, h3, h4⟩
    · exact Or.inr ⟨q :: pre, q', post, t, rfl, h2, h3, h4⟩

theorem asked_target {c : EConfig} {w : World} {pre post : List Query} {q : Query} {s : Cells} {t : TargetTriple} {e : ETarget}
    (hq : q.targetOf = some t) (h : (c.target t w (afterAll c w pre s)).1 = .ok e) :
    (afterAll c w (pre ++ q :: post) s).target.get (targetText t) = some e := by
  rw [afterAll_append]
  refine (grows_after w (post.map fun q => (c, q)) (c.ask q w (afterAll c w pre s)).2).target _ _ ?_
  refine (target_step c w q _ _ e).2 ?_
  cases hg : (afterAll c w pre s).target.get (targetText t) with
  | none => exact Or.inr ⟨rfl, t, hq, rfl, h⟩
  | some e' =>
    rw [target_cached (by rw [cliTarget_text]; exact hg)] at h
    exact Or.inl (congrArg some (Res.ok.inj h))

theorem ETarget.ser_doc (e : ETarget) : e.ser = targetDoc e := by
  obtain ⟨l, r, f, d⟩ := e
  cases l <;> cases r <;> cases f <;> cases d <;> rfl

theorem target_written (c : EConfig) (s : Cells) (k : Str) :
    (c.ser s).at ["target".toList, k] = (BMap.get s.target k).map targetDoc := by
  rw [EConfig.ser_toDe]
  obtain ⟨l, hl, -, -, -, -, -, -, -, -, -, -, g_target, -⟩ := Config.ser_get (c.toDe s.target)
  rw [hl, at_ser_map g_target]
  simp only [EConfig.toDe, BMap.get_mapVals]
  cases BMap.get s.target k with
  | none => rfl
  | some e => exact congrArg some (by rw [← ETarget.ser_doc, ETarget.ser_toDe])

/-- C65: the settings of a target are written only if the target was asked for: a config that was just loaded is written without
`[target]`, whatever tables the files have; later `[target]` has exactly the targets that were asked for successfully, each with the
settings that were returned. -/
theorem C65_targets {p : ProcEnv} {fs : Fs} {parse : Str → Res Config} {cwd : Path} {o : Options}
    (h : EConfig.loadWithOptions p fs parse cwd o = .ok (c, s0)) (w : World) (qs : List Query) :
    (c.ser s0).at ["target".toList] = none ∧
    (∀ k x, (c.ser (afterAll c w qs s0)).at ["target".toList, k] = some x →
      ∃ pre q post t e, qs = pre ++ q :: post ∧ q.targetOf = some t ∧ targetText t = k ∧
        (c.target t w (afterAll c w pre s0)).1 = .ok e ∧ x = targetDoc e) ∧
    (∀ pre q post t e, qs = pre ++ q :: post → q.targetOf = some t → (c.target t w (afterAll c w pre s0)).1 = .ok e →
      (c.ser (afterAll c w qs s0)).at ["target".toList, targetText t] = some (targetDoc e)) := by
  have hf := (C33_loaded h).1
  refine ⟨?_, ?_, ?_⟩
  · rw [EConfig.ser_toDe]
    obtain ⟨l, hl, -, -, -, -, -, -, -, -, -, -, g_target, -⟩ := Config.ser_get (c.toDe s0.target)
    rw [hl, Toml.at_tbl1, g_target, hf]
    rfl
  · intro k x hx
    rw [target_written, Option.map_eq_some_iff] at hx
    obtain ⟨e, he, rfl⟩ := hx
    rcases target_asked he with h1 | ⟨pre, q, post, t, h1, h2, h3, h4⟩
    · rw [hf] at h1; cases h1
    · exact ⟨pre, q, post, t, e, h1, h2, h3, h4, rfl⟩
  · rintro pre q post t e rfl hq he
    rw [target_written, asked_target hq he]
    rfl

/-- C65: round trip.  If the resolved config is written after any queries, and the written document is the only config file of another
call without environment variables, then this call succeeds with the same settings, and every target that was asked for by its triple
has the same settings as before.  Missing: targets with a spec file (`C65_spec_fails`), and targets that were not asked for
(`C65_targets`). -/
theorem C65_round_trip_partial (h : Loads p fs toml cwd o look home docs c s0) (hc : Absolute cwd)
    (hh : ∀ h, home = some h → Absolute h ∧ Path.components h ≠ [.root]) (w : World) (qs : List Query)
    (hq : ∀ q ∈ qs, ∀ t p, q.targetOf = some t → t.specPath = some p → isCfgKey p = false)
    (hd : DocumentsOf fs' toml' cwd' home' [(f, c.ser (afterAll c w qs s0))]) (ho : HomeOf p' o' cwd' home')
    (hr : ∀ h, home' = some h → Path.components h ≠ [] ∧ Path.components h ≠ [.root])
    (he : EnvOf p' o' look') (hn : ∀ n, look' n = none) :
    ∃ c' s', EConfig.loadWithOptions p' fs' (fun s => toml' s >>= Config.de) cwd' o' = .ok (c', s') ∧ SameSettings c c' ∧
      ∀ pre q post triple a, qs = pre ++ q :: post → q.targetOf = some ⟨triple, none⟩ →
        (c.ask q w (afterAll c w pre s0)).1 = .ok a → ∀ w', (c'.ask q w' s').1 = .ok a := by
  have hf : Fresh s0 := C33_loaded h.loaded
  have hk : TargetsKnown c (afterAll c w qs s0) := known_after h hc hh w qs hq s0
    ⟨by rw [hf.1]; exact BMap.sorted_nil, (by rw [hf.1]; intro k e hk; cases hk), (by rw [hf.1]; intro k e hk; cases hk)⟩
  obtain ⟨cx, s', hx, hl⟩ := reload_ok (loads_portable h hc hh) hk.sorted hd ho hr he hn
  refine ⟨_, s', hl, ⟨rfl, rfl, rfl, rfl, rfl, ?_, ?_, ?_, ?_⟩, ?_⟩
  · intro k; cases k <;> rfl
  · intro k; cases k <;> rfl
  · intro k; cases k <;> rfl
  · intro k; cases k <;> rfl
  · rintro pre q post triple a rfl ht ha w'
    rw [ask_target ht, map_fst, Res.bind_eq_ok] at ha
    obtain ⟨e, he, ha⟩ := ha
    have hg : BMap.get (afterAll c w (pre ++ q :: post) s0).target triple = some e := asked_target ht he
    rw [ask_target ht, map_fst]
    have hf' : Fresh s' := C33_loaded hl
    rw [reload_target hg (hk.portable _ _ hg) hk.keys hk.sorted hx (by rw [hf'.1]; rfl), Res.ok_bind]
    exact ha

/-! ### a sample -/

section sample

/-- One config file. -/
def oneFs : Fs := { ex := fun p => p = "/w/.cargo/config.toml".toList, read := fun _ => .ok "x".toList }

/-- Loading it in `/w` with `ResolveOptions::env([])` if it contains the document. -/
def loadOne (t : Toml) : Option (EConfig × Cells) :=
  (EConfig.loadWithOptions { vars := [], home := none } oneFs (fun _ => .ok t >>= Config.de) "/w".toList { env := some [] }).toOption

/-- A table for the target `x-y`. -/
def linkerDoc : Toml := .tbl [("target".toList, .tbl [("x-y".toList, .tbl [("linker".toList, .str "bin/ld".toList),
  ("runner".toList, .str "qemu -x".toList), ("rustflags".toList, .str "-g  -O".toList)])])]

/-- The linker of a target in a config, and the linker after the config was written and loaded again. -/
def linkerBefore (t : Toml) (x : TargetTriple) : Option (Option Path) :=
  (loadOne t).bind fun r => (r.1.target x sampleWorld r.2).1.toOption.map (·.linker)

def linkerAfter (t : Toml) (x : TargetTriple) : Option (Option Path) :=
  (loadOne t).bind fun r => (loadOne (r.1.ser (r.1.target x sampleWorld r.2).2)).bind fun r' =>
    (r'.1.target x sampleWorld r'.2).1.toOption.map (·.linker)

/-- C65: the missing case: the settings of a target with a spec file are written under the path of the file, but looked up under the
stem of the file, and so are lost. -/
theorem C65_spec_fails : linkerBefore linkerDoc ⟨"x-y".toList, some "/w/x-y.json".toList⟩ = some (some "/w/bin/ld".toList) ∧
    linkerAfter linkerDoc ⟨"x-y".toList, some "/w/x-y.json".toList⟩ = some none := by decide +kernel

/-- By its triple it is kept. -/
example : linkerBefore linkerDoc ⟨"x-y".toList, none⟩ = some (some "/w/bin/ld".toList) ∧
    linkerAfter linkerDoc ⟨"x-y".toList, none⟩ = some (some "/w/bin/ld".toList) := by decide +kernel

/-- It is written after the query. -/
example : ((loadOne linkerDoc).bind fun r =>
      match (r.1.ser (afterAll r.1 sampleWorld [.runner ⟨"x-y".toList, none⟩] r.2)).at
        ["target".toList, "x-y".toList, "linker".toList] with
      | some (.str p) => some p
      | _ => none) = some "/w/bin/ld".toList := by decide +kernel

/-- The hypotheses of the round trip about the second call. -/
example (t : Toml) : DocumentsOf oneFs (fun _ => .ok t) "/w".toList none [("/w/.cargo/config.toml".toList, t)] ∧
    HomeOf { vars := [], home := none } { env := some [] } "/w".toList none ∧
    EnvOf { vars := [], home := none } { env := some [] } (fun _ => none) := by
  obtain ⟨dirs, h1, h2⟩ := C01_walk oneFs.ex "/w".toList none
  refine ⟨⟨dirs, h1, ?_, ?_⟩, ?_, rfl⟩
  · rw [show walk oneFs.ex "/w".toList none = ["/w/.cargo/config.toml".toList] by decide +kernel] at h2
    exact h2
  · intro f x hx
    simp only [List.mem_cons, Prod.mk.injEq, List.not_mem_nil, or_false] at hx
    obtain ⟨rfl, rfl⟩ := hx
    exact ⟨_, rfl, rfl⟩
  · exact HomeRule.nothing _ (Or.inl rfl)

end sample

end CC
