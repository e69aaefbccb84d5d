import Verif.Lemmas.SerdeShape
/-
Where each setting is written.
-/
namespace CC

theorem at_ser_section {l : List (Str × Toml)} {k : String} {b : Bool} {t : Toml} {rest : List Str} {o : Option Toml}
    (h : BMap.get l k.toList = if b then none else some t) (hskip : b = true → o = none) (ht : t.at rest = o) :
    (Toml.tbl l).at (k.toList :: rest) = o := by
  rw [Toml.at_tbl, h]
  cases b with
  | true => rw [hskip rfl]; rfl
  | false => exact ht

theorem at_ser_map {V : Type} {l : List (Str × Toml)} {k : String} {m : BMap V} {s : V → Toml} {key : Str} {rest : List Str}
    (h : BMap.get l k.toList = if m.isEmpty then none else some (serMap s m)) :
    (Toml.tbl l).at (k.toList :: key :: rest) = (BMap.get m key).bind fun v => (s v).at rest := by
  rw [Toml.at_tbl, h]
  cases m with
  | nil => rfl
  | cons e m =>
    simp only [List.isEmpty_cons, Bool.false_eq_true, if_false, Option.bind_some, serMap, Toml.at_tbl, BMap.get_mapVals]
    cases BMap.get (e :: m) key <;> rfl

/-- Writing a value and writing the atom agree. -/
theorem ser_atom {α : Type} {s : α → Toml} {g : α → Atom} (o : Option (Val α)) (h : ∀ a, s a = (g a).toml) :
    o.map (serVal s) = (o.map (Val.map g)).map fun v => v.val.toml := by
  cases o with
  | none => rfl
  | some v => simp only [Option.map_some, serVal, Val.map, h]

theorem Vcs.ser_atom (x : Vcs) : Toml.str x.serName = (Atom.vcs x).toml := by cases x <;> rfl
theorem Protocol.ser_atom (x : Protocol) : Toml.str x.serName = (Atom.protocol x).toml := by cases x <;> rfl
theorem Color.ser_atom (x : Color) : Toml.str x.serName = (Atom.color x).toml := by cases x <;> rfl
theorem When.ser_atom (x : When) : Toml.str x.serName = (Atom.when x).toml := by cases x <;> rfl
theorem Frequency.ser_atom (x : Frequency) : Toml.str x.serName = (Atom.frequency x).toml := by cases x <;> rfl

theorem isAt_envTable (v : Val Str) (f r : Option (Val Bool)) :
    (EnvConfigValue.ser (.table v f r)).at ["value".toList] = some (.str v.val) ∧
    (EnvConfigValue.ser (.table v f r)).at ["force".toList] = f.map (serVal .bool) ∧
    (EnvConfigValue.ser (.table v f r)).at ["relative".toList] = r.map (serVal .bool) := by
  refine ⟨?_, ?_, ?_⟩ <;>
  · simp only [EnvConfigValue.ser, Toml.at_tbl1, BMap.get_append, get_serField, BMap.get]
    simp [serVal]

/-- Every single-valued setting is written at its path. -/
theorem scalar_write (c : Config) (k : ScalarKey) : IsAt (c.ser.at (k.path (envShape c))) (k.get c) := by
  obtain ⟨l, hl, g_alias, g_build, g_doc, g_env, g_fir, g_new, g_http, g_net, g_regs, g_reg, g_target, g_term⟩ := Config.ser_get c
  rw [hl]
  cases k with
  | envValue k =>
    simp only [ScalarKey.path, ScalarKey.get, IsAt]
    by_cases hs : envShape c k = some true
    · rw [if_pos hs, at_ser_map g_env]
      simp only [envShape] at hs
      cases hx : BMap.get c.env k with
      | none => rfl
      | some e =>
        rw [hx] at hs
        cases e with
        | value v => cases hs
        | table v f r => exact (isAt_envTable v f r).1
    · rw [if_neg hs, at_ser_map g_env]
      simp only [envShape] at hs
      cases hx : BMap.get c.env k with
      | none => rfl
      | some e =>
        rw [hx] at hs
        cases e with
        | value v => rw [Option.bind_some, Toml.at_nil]; rfl
        | table v f r => exact absurd rfl hs
  | envForce k =>
    simp only [ScalarKey.path, ScalarKey.get, IsAt]
    rw [at_ser_map g_env]
    cases BMap.get c.env k with
    | none => rfl
    | some e =>
      cases e with
      | value v => simp only [Option.bind_some, EnvConfigValue.ser, serVal, Toml.at]; rfl
      | table v f r => exact (isAt_envTable v f r).2.1.trans (ser_atom f fun _ => rfl)
  | envRelative k =>
    simp only [ScalarKey.path, ScalarKey.get, IsAt]
    rw [at_ser_map g_env]
    cases BMap.get c.env k with
    | none => rfl
    | some e =>
      cases e with
      | value v => simp only [Option.bind_some, EnvConfigValue.ser, serVal, Toml.at]; rfl
      | table v f r => exact (isAt_envTable v f r).2.2.trans (ser_atom r fun _ => rfl)
  | buildJobs =>
    refine at_ser_section g_build (fun hn => ?_) ?_
    · obtain ⟨h0, h1, h2, h3, h4, h5, h6, h7, h8, h9, h10⟩ := (BuildConfig.isNone_iff _).1 hn
      simp only [ScalarKey.get, h0]; rfl
    · obtain ⟨l', hl', g0, g1, g2, g3, g4, g5, g6, g7, g8, g9, g10⟩ := BuildConfig.ser_get c.build
      rw [hl', Toml.at_tbl1, g0]; exact ser_atom _ (fun _ => rfl)
  | buildRustc =>
    refine at_ser_section g_build (fun hn => ?_) ?_
    · obtain ⟨h0, h1, h2, h3, h4, h5, h6, h7, h8, h9, h10⟩ := (BuildConfig.isNone_iff _).1 hn
      simp only [ScalarKey.get, h1]; rfl
    · obtain ⟨l', hl', g0, g1, g2, g3, g4, g5, g6, g7, g8, g9, g10⟩ := BuildConfig.ser_get c.build
      rw [hl', Toml.at_tbl1, g1]; exact ser_atom _ (fun _ => rfl)
  | buildRustcWrapper =>
    refine at_ser_section g_build (fun hn => ?_) ?_
    · obtain ⟨h0, h1, h2, h3, h4, h5, h6, h7, h8, h9, h10⟩ := (BuildConfig.isNone_iff _).1 hn
      simp only [ScalarKey.get, h2]; rfl
    · obtain ⟨l', hl', g0, g1, g2, g3, g4, g5, g6, g7, g8, g9, g10⟩ := BuildConfig.ser_get c.build
      rw [hl', Toml.at_tbl1, g2]; exact ser_atom _ (fun _ => rfl)
  | buildRustcWorkspaceWrapper =>
    refine at_ser_section g_build (fun hn => ?_) ?_
    · obtain ⟨h0, h1, h2, h3, h4, h5, h6, h7, h8, h9, h10⟩ := (BuildConfig.isNone_iff _).1 hn
      simp only [ScalarKey.get, h3]; rfl
    · obtain ⟨l', hl', g0, g1, g2, g3, g4, g5, g6, g7, g8, g9, g10⟩ := BuildConfig.ser_get c.build
      rw [hl', Toml.at_tbl1, g3]; exact ser_atom _ (fun _ => rfl)
  | buildRustdoc =>
    refine at_ser_section g_build (fun hn => ?_) ?_
    · obtain ⟨h0, h1, h2, h3, h4, h5, h6, h7, h8, h9, h10⟩ := (BuildConfig.isNone_iff _).1 hn
      simp only [ScalarKey.get, h4]; rfl
    · obtain ⟨l', hl', g0, g1, g2, g3, g4, g5, g6, g7, g8, g9, g10⟩ := BuildConfig.ser_get c.build
      rw [hl', Toml.at_tbl1, g4]; exact ser_atom _ (fun _ => rfl)
  | buildTargetDir =>
    refine at_ser_section g_build (fun hn => ?_) ?_
    · obtain ⟨h0, h1, h2, h3, h4, h5, h6, h7, h8, h9, h10⟩ := (BuildConfig.isNone_iff _).1 hn
      simp only [ScalarKey.get, h6]; rfl
    · obtain ⟨l', hl', g0, g1, g2, g3, g4, g5, g6, g7, g8, g9, g10⟩ := BuildConfig.ser_get c.build
      rw [hl', Toml.at_tbl1, g6]; exact ser_atom _ (fun _ => rfl)
  | buildIncremental =>
    refine at_ser_section g_build (fun hn => ?_) ?_
    · obtain ⟨h0, h1, h2, h3, h4, h5, h6, h7, h8, h9, h10⟩ := (BuildConfig.isNone_iff _).1 hn
      simp only [ScalarKey.get, h9]; rfl
    · obtain ⟨l', hl', g0, g1, g2, g3, g4, g5, g6, g7, g8, g9, g10⟩ := BuildConfig.ser_get c.build
      rw [hl', Toml.at_tbl1, g9]; exact ser_atom _ (fun _ => rfl)
  | buildDepInfoBasedir =>
    refine at_ser_section g_build (fun hn => ?_) ?_
    · obtain ⟨h0, h1, h2, h3, h4, h5, h6, h7, h8, h9, h10⟩ := (BuildConfig.isNone_iff _).1 hn
      simp only [ScalarKey.get, h10]; rfl
    · obtain ⟨l', hl', g0, g1, g2, g3, g4, g5, g6, g7, g8, g9, g10⟩ := BuildConfig.ser_get c.build
      rw [hl', Toml.at_tbl1, g10]; exact ser_atom _ (fun _ => rfl)
  | futureIncompatReportFrequency =>
    refine at_ser_section g_fir (fun hn => ?_) ?_
    · have h0 := (FutureIncompatReportConfig.isNone_iff _).1 hn
      simp only [ScalarKey.get, h0]; rfl
    · obtain ⟨l', hl', g0⟩ := FutureIncompatReportConfig.ser_get c.futureIncompatReport
      rw [hl', Toml.at_tbl1, g0]; exact ser_atom _ (fun x => Frequency.ser_atom x)
  | cargoNewVcs =>
    refine at_ser_section g_new (fun hn => ?_) ?_
    · have h0 := (CargoNewConfig.isNone_iff _).1 hn
      simp only [ScalarKey.get, h0]; rfl
    · obtain ⟨l', hl', g0⟩ := CargoNewConfig.ser_get c.cargoNew
      rw [hl', Toml.at_tbl1, g0]; exact ser_atom _ (fun x => Vcs.ser_atom x)
  | httpDebug =>
    refine at_ser_section g_http (fun hn => ?_) ?_
    · obtain ⟨h0, h1, h2, h3, h4, h5, h6, h7⟩ := (HttpConfig.isNone_iff _).1 hn
      simp only [ScalarKey.get, h0]; rfl
    · obtain ⟨l', hl', g0, g1, g2, g3, g4, g5, g6, g7⟩ := HttpConfig.ser_get c.http
      rw [hl', Toml.at_tbl1, g0]; exact ser_atom _ (fun _ => rfl)
  | httpProxy =>
    refine at_ser_section g_http (fun hn => ?_) ?_
    · obtain ⟨h0, h1, h2, h3, h4, h5, h6, h7⟩ := (HttpConfig.isNone_iff _).1 hn
      simp only [ScalarKey.get, h1]; rfl
    · obtain ⟨l', hl', g0, g1, g2, g3, g4, g5, g6, g7⟩ := HttpConfig.ser_get c.http
      rw [hl', Toml.at_tbl1, g1]; exact ser_atom _ (fun _ => rfl)
  | httpTimeout =>
    refine at_ser_section g_http (fun hn => ?_) ?_
    · obtain ⟨h0, h1, h2, h3, h4, h5, h6, h7⟩ := (HttpConfig.isNone_iff _).1 hn
      simp only [ScalarKey.get, h2]; rfl
    · obtain ⟨l', hl', g0, g1, g2, g3, g4, g5, g6, g7⟩ := HttpConfig.ser_get c.http
      rw [hl', Toml.at_tbl1, g2]; exact ser_atom _ (fun _ => rfl)
  | httpCainfo =>
    refine at_ser_section g_http (fun hn => ?_) ?_
    · obtain ⟨h0, h1, h2, h3, h4, h5, h6, h7⟩ := (HttpConfig.isNone_iff _).1 hn
      simp only [ScalarKey.get, h3]; rfl
    · obtain ⟨l', hl', g0, g1, g2, g3, g4, g5, g6, g7⟩ := HttpConfig.ser_get c.http
      rw [hl', Toml.at_tbl1, g3]; exact ser_atom _ (fun _ => rfl)
  | httpCheckRevoke =>
    refine at_ser_section g_http (fun hn => ?_) ?_
    · obtain ⟨h0, h1, h2, h3, h4, h5, h6, h7⟩ := (HttpConfig.isNone_iff _).1 hn
      simp only [ScalarKey.get, h4]; rfl
    · obtain ⟨l', hl', g0, g1, g2, g3, g4, g5, g6, g7⟩ := HttpConfig.ser_get c.http
      rw [hl', Toml.at_tbl1, g4]; exact ser_atom _ (fun _ => rfl)
  | httpLowSpeedLimit =>
    refine at_ser_section g_http (fun hn => ?_) ?_
    · obtain ⟨h0, h1, h2, h3, h4, h5, h6, h7⟩ := (HttpConfig.isNone_iff _).1 hn
      simp only [ScalarKey.get, h5]; rfl
    · obtain ⟨l', hl', g0, g1, g2, g3, g4, g5, g6, g7⟩ := HttpConfig.ser_get c.http
      rw [hl', Toml.at_tbl1, g5]; exact ser_atom _ (fun _ => rfl)
  | httpMultiplexing =>
    refine at_ser_section g_http (fun hn => ?_) ?_
    · obtain ⟨h0, h1, h2, h3, h4, h5, h6, h7⟩ := (HttpConfig.isNone_iff _).1 hn
      simp only [ScalarKey.get, h6]; rfl
    · obtain ⟨l', hl', g0, g1, g2, g3, g4, g5, g6, g7⟩ := HttpConfig.ser_get c.http
      rw [hl', Toml.at_tbl1, g6]; exact ser_atom _ (fun _ => rfl)
  | httpUserAgent =>
    refine at_ser_section g_http (fun hn => ?_) ?_
    · obtain ⟨h0, h1, h2, h3, h4, h5, h6, h7⟩ := (HttpConfig.isNone_iff _).1 hn
      simp only [ScalarKey.get, h7]; rfl
    · obtain ⟨l', hl', g0, g1, g2, g3, g4, g5, g6, g7⟩ := HttpConfig.ser_get c.http
      rw [hl', Toml.at_tbl1, g7]; exact ser_atom _ (fun _ => rfl)
  | netRetry =>
    refine at_ser_section g_net (fun hn => ?_) ?_
    · obtain ⟨h0, h1, h2⟩ := (NetConfig.isNone_iff _).1 hn
      simp only [ScalarKey.get, h0]; rfl
    · obtain ⟨l', hl', g0, g1, g2⟩ := NetConfig.ser_get c.net
      rw [hl', Toml.at_tbl1, g0]; exact ser_atom _ (fun _ => rfl)
  | netGitFetchWithCli =>
    refine at_ser_section g_net (fun hn => ?_) ?_
    · obtain ⟨h0, h1, h2⟩ := (NetConfig.isNone_iff _).1 hn
      simp only [ScalarKey.get, h1]; rfl
    · obtain ⟨l', hl', g0, g1, g2⟩ := NetConfig.ser_get c.net
      rw [hl', Toml.at_tbl1, g1]; exact ser_atom _ (fun _ => rfl)
  | netOffline =>
    refine at_ser_section g_net (fun hn => ?_) ?_
    · obtain ⟨h0, h1, h2⟩ := (NetConfig.isNone_iff _).1 hn
      simp only [ScalarKey.get, h2]; rfl
    · obtain ⟨l', hl', g0, g1, g2⟩ := NetConfig.ser_get c.net
      rw [hl', Toml.at_tbl1, g2]; exact ser_atom _ (fun _ => rfl)
  | registryDefault =>
    refine at_ser_section g_reg (fun hn => ?_) ?_
    · obtain ⟨h0, h1⟩ := (RegistryConfig.isNone_iff _).1 hn
      simp only [ScalarKey.get, h0]; rfl
    · obtain ⟨l', hl', g0, g1⟩ := RegistryConfig.ser_get c.registry
      rw [hl', Toml.at_tbl1, g0]; exact ser_atom _ (fun _ => rfl)
  | registryToken =>
    refine at_ser_section g_reg (fun hn => ?_) ?_
    · obtain ⟨h0, h1⟩ := (RegistryConfig.isNone_iff _).1 hn
      simp only [ScalarKey.get, h1]; rfl
    · obtain ⟨l', hl', g0, g1⟩ := RegistryConfig.ser_get c.registry
      rw [hl', Toml.at_tbl1, g1]; exact ser_atom _ (fun _ => rfl)
  | registriesIndex k =>
    simp only [ScalarKey.path, ScalarKey.get, IsAt]
    rw [at_ser_map g_regs]
    cases BMap.get c.registries k with
    | none => rfl
    | some e =>
      obtain ⟨l', hl', g0, g1, g2⟩ := RegistriesConfigValue.ser_get e
      rw [Option.bind_some, hl', Toml.at_tbl1, g0]; exact ser_atom _ (fun _ => rfl)
  | registriesToken k =>
    simp only [ScalarKey.path, ScalarKey.get, IsAt]
    rw [at_ser_map g_regs]
    cases BMap.get c.registries k with
    | none => rfl
    | some e =>
      obtain ⟨l', hl', g0, g1, g2⟩ := RegistriesConfigValue.ser_get e
      rw [Option.bind_some, hl', Toml.at_tbl1, g1]; exact ser_atom _ (fun _ => rfl)
  | registriesProtocol k =>
    simp only [ScalarKey.path, ScalarKey.get, IsAt]
    rw [at_ser_map g_regs]
    cases BMap.get c.registries k with
    | none => rfl
    | some e =>
      obtain ⟨l', hl', g0, g1, g2⟩ := RegistriesConfigValue.ser_get e
      rw [Option.bind_some, hl', Toml.at_tbl1, g2]; exact ser_atom _ (fun x => Protocol.ser_atom x)
  | targetLinker k =>
    simp only [ScalarKey.path, ScalarKey.get, IsAt]
    rw [at_ser_map g_target]
    cases BMap.get c.target k with
    | none => rfl
    | some e =>
      obtain ⟨l', hl', g0, g1, g2, g3⟩ := TargetConfig.ser_get e
      rw [Option.bind_some, hl', Toml.at_tbl1, g0]; exact ser_atom _ (fun _ => rfl)
  | termQuiet =>
    refine at_ser_section g_term (fun hn => ?_) ?_
    · obtain ⟨h0, h1, h2, h3, h4⟩ := (TermConfig.isNone_iff _).1 hn
      simp only [ScalarKey.get, h0]; rfl
    · obtain ⟨l', hl', g0, g1, g2, g3⟩ := TermConfig.ser_get c.term
      rw [hl', Toml.at_tbl1, g0]; exact ser_atom _ (fun _ => rfl)
  | termVerbose =>
    refine at_ser_section g_term (fun hn => ?_) ?_
    · obtain ⟨h0, h1, h2, h3, h4⟩ := (TermConfig.isNone_iff _).1 hn
      simp only [ScalarKey.get, h1]; rfl
    · obtain ⟨l', hl', g0, g1, g2, g3⟩ := TermConfig.ser_get c.term
      rw [hl', Toml.at_tbl1, g1]; exact ser_atom _ (fun _ => rfl)
  | termColor =>
    refine at_ser_section g_term (fun hn => ?_) ?_
    · obtain ⟨h0, h1, h2, h3, h4⟩ := (TermConfig.isNone_iff _).1 hn
      simp only [ScalarKey.get, h2]; rfl
    · obtain ⟨l', hl', g0, g1, g2, g3⟩ := TermConfig.ser_get c.term
      rw [hl', Toml.at_tbl1, g2]; exact ser_atom _ (fun x => Color.ser_atom x)
  | termProgressWhen =>
    refine at_ser_section g_term (fun hn => ?_) ?_
    · obtain ⟨h0, h1, h2, h3, h4⟩ := (TermConfig.isNone_iff _).1 hn
      simp only [ScalarKey.get, h3]; rfl
    · obtain ⟨l', hl', g0, g1, g2, g3⟩ := TermConfig.ser_get c.term
      rw [hl']
      refine at_ser_section g3 (fun hn => ?_) ?_
      · obtain ⟨h3, h4⟩ := (TermProgress.isNone_iff _).1 hn
        simp only [ScalarKey.get, h3]; rfl
      · obtain ⟨l', hl', g0, g1⟩ := TermProgress.ser_get c.term.progress
        rw [hl', Toml.at_tbl1, g0]; exact ser_atom _ (fun x => When.ser_atom x)
  | termProgressWidth =>
    refine at_ser_section g_term (fun hn => ?_) ?_
    · obtain ⟨h0, h1, h2, h3, h4⟩ := (TermConfig.isNone_iff _).1 hn
      simp only [ScalarKey.get, h4]; rfl
    · obtain ⟨l', hl', g0, g1, g2, g3⟩ := TermConfig.ser_get c.term
      rw [hl']
      refine at_ser_section g3 (fun hn => ?_) ?_
      · obtain ⟨h3, h4⟩ := (TermProgress.isNone_iff _).1 hn
        simp only [ScalarKey.get, h4]; rfl
      · obtain ⟨l', hl', g0, g1⟩ := TermProgress.ser_get c.term.progress
        rw [hl', Toml.at_tbl1, g1]; exact ser_atom _ (fun _ => rfl)

/-- An array of the texts. -/
theorem serList_eq (l : List (Val Str)) : serList l = .arr ((l.map Val.val).map .str) := by
  simp only [serList, List.map_map]; rfl

/-- How a list setting is written. -/
def ListKey.written (k : ListKey) (x : Repr' × List (Val Str)) : Toml :=
  match if k.isFlags then .array else x.1 with
  | .array => serList x.2
  | .string => .str (pushWords [] x.2)

theorem flags_write {l : List (Str × Toml)} {k : String} {o : Option Flags} (h : BMap.get l k.toList = o.map Flags.ser) :
    (Toml.tbl l).at [k.toList] = (o.map fun l => (l.repr, l.flags)).map fun x => serList x.2 := by
  rw [Toml.at_tbl1, h]
  cases o <;> rfl

theorem list_write (c : Config) (k : ListKey) : c.ser.at k.path = (k.get c).map k.written := by
  obtain ⟨l, hl, g_alias, g_build, g_doc, g_env, g_fir, g_new, g_http, g_net, g_regs, g_reg, g_target, g_term⟩ := Config.ser_get c
  rw [hl]
  cases k with
  | alias k =>
    simp only [ListKey.path, ListKey.get]
    rw [at_ser_map g_alias]
    cases BMap.get c.alias k with
    | none => rfl
    | some e =>
      obtain ⟨e, r⟩ := e
      rw [Option.bind_some, Toml.at_nil]
      cases r <;> rfl
  | buildTarget =>
    refine at_ser_section g_build (fun hn => ?_) ?_
    · obtain ⟨h0, h1, h2, h3, h4, h5, h6, h7, h8, h9, h10⟩ := (BuildConfig.isNone_iff _).1 hn
      simp only [ListKey.get, h5]; rfl
    · obtain ⟨l', hl', g0, g1, g2, g3, g4, g5, g6, g7, g8, g9, g10⟩ := BuildConfig.ser_get c.build
      rw [hl', Toml.at_tbl1, g5]
      simp only [ListKey.get]
      cases c.build.target with
      | none => rfl
      | some e => cases e <;> rfl
  | buildRustflags =>
    refine at_ser_section g_build (fun hn => ?_) ?_
    · obtain ⟨h0, h1, h2, h3, h4, h5, h6, h7, h8, h9, h10⟩ := (BuildConfig.isNone_iff _).1 hn
      simp only [ListKey.get, h7]; rfl
    · obtain ⟨l', hl', g0, g1, g2, g3, g4, g5, g6, g7, g8, g9, g10⟩ := BuildConfig.ser_get c.build
      rw [hl']; exact flags_write g7
  | buildRustdocflags =>
    refine at_ser_section g_build (fun hn => ?_) ?_
    · obtain ⟨h0, h1, h2, h3, h4, h5, h6, h7, h8, h9, h10⟩ := (BuildConfig.isNone_iff _).1 hn
      simp only [ListKey.get, h8]; rfl
    · obtain ⟨l', hl', g0, g1, g2, g3, g4, g5, g6, g7, g8, g9, g10⟩ := BuildConfig.ser_get c.build
      rw [hl']; exact flags_write g8
  | targetRustflags k =>
    simp only [ListKey.path, ListKey.get]
    rw [at_ser_map g_target]
    cases BMap.get c.target k with
    | none => rfl
    | some e =>
      obtain ⟨l', hl', g0, g1, g2, g3⟩ := TargetConfig.ser_get e
      rw [Option.bind_some, hl']; exact flags_write g2
  | targetRustdocflags k =>
    simp only [ListKey.path, ListKey.get]
    rw [at_ser_map g_target]
    cases BMap.get c.target k with
    | none => rfl
    | some e =>
      obtain ⟨l', hl', g0, g1, g2, g3⟩ := TargetConfig.ser_get e
      rw [Option.bind_some, hl']; exact flags_write g3

/-- How a command is written. -/
def progWritten (x : Repr' × List (Val Str)) : Toml :=
  match x.1 with
  | .array => serList x.2
  | .string => .str (joinWith ' ' (x.2.map Val.val))

theorem prog_ser (x : PathAndArgs) : x.ser = progWritten (x.repr, x.path :: x.args) := by
  obtain ⟨p, as, r⟩ := x
  cases r with
  | array => rfl
  | string => simp only [PathAndArgs.ser, pushArgs_eq, progWritten]; rfl

theorem prog_write (c : Config) (k : ProgKey) : c.ser.at k.path = (k.get c).map progWritten := by
  obtain ⟨l, hl, g_alias, g_build, g_doc, g_env, g_fir, g_new, g_http, g_net, g_regs, g_reg, g_target, g_term⟩ := Config.ser_get c
  rw [hl]
  have key : ∀ {l : List (Str × Toml)} {k : String} {o : Option PathAndArgs}, BMap.get l k.toList = o.map PathAndArgs.ser →
      (Toml.tbl l).at [k.toList] = (o.map fun x => (x.repr, x.path :: x.args)).map progWritten := by
    intro l k o h
    rw [Toml.at_tbl1, h]
    cases o with
    | none => rfl
    | some x => simp only [Option.map_some, prog_ser]
  cases k with
  | docBrowser =>
    refine at_ser_section g_doc (fun hn => ?_) ?_
    · have h0 := (DocConfig.isNone_iff _).1 hn
      simp only [ProgKey.get, h0]; rfl
    · obtain ⟨l', hl', g0⟩ := DocConfig.ser_get c.doc
      rw [hl']; exact key g0
  | targetRunner k =>
    simp only [ProgKey.path, ProgKey.get]
    rw [at_ser_map g_target]
    cases BMap.get c.target k with
    | none => rfl
    | some e =>
      obtain ⟨l', hl', g0, g1, g2, g3⟩ := TargetConfig.ser_get e
      rw [Option.bind_some, hl']; exact key g1

theorem entry_write (c : Config) (k : TableKey) : (c.ser.at k.path).isSome = k.present c := by
  obtain ⟨l, hl, g_alias, g_build, g_doc, g_env, g_fir, g_new, g_http, g_net, g_regs, g_reg, g_target, g_term⟩ := Config.ser_get c
  rw [hl]
  cases k with
  | alias k =>
    simp only [TableKey.path, TableKey.present]
    rw [at_ser_map g_alias]
    cases BMap.get c.alias k with
    | none => rfl
    | some e => rw [Option.bind_some, Toml.at_nil]; rfl
  | env k =>
    simp only [TableKey.path, TableKey.present]
    rw [at_ser_map g_env]
    cases BMap.get c.env k with
    | none => rfl
    | some e => rw [Option.bind_some, Toml.at_nil]; rfl
  | registries k =>
    simp only [TableKey.path, TableKey.present]
    rw [at_ser_map g_regs]
    cases BMap.get c.registries k with
    | none => rfl
    | some e => rw [Option.bind_some, Toml.at_nil]; rfl
  | target k =>
    simp only [TableKey.path, TableKey.present]
    rw [at_ser_map g_target]
    cases BMap.get c.target k with
    | none => rfl
    | some e => rw [Option.bind_some, Toml.at_nil]; rfl

end CC
