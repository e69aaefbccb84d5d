import Verif.Props.EndToEnd
import Verif.Props.Serde
import Verif.Lemmas.TargetOutcome
/-
Lemmas for C94: a config loaded from a hierarchy of files can be written to one file.
-/
namespace CC

variable {fs fs' : Fs} {toml toml' : Str → Res Toml} {cwd cwd' : Path} {home home' : Option Path} {f : Path} {c : Config}

theorem serVal_setPath {α : Type} (p : Path) (g : α → Toml) (v : Val α) : serVal g (v.setPath p) = serVal g v := rfl

theorem serList_setPath (p : Path) (l : List (Val Str)) : serList (setPathList p l) = serList l := by
  simp only [serList, setPathList, List.map_map, Function.comp_def, serVal_setPath]

theorem Flags.ser_setPath (p : Path) (x : Flags) : (x.setPath p).ser = x.ser := serList_setPath p _

theorem pushArgs_setPath (p : Path) (l : List (Val Str)) (s : Str) : pushArgs s (setPathList p l) = pushArgs s l := by
  induction l generalizing s with
  | nil => rfl
  | cons a l ih => exact ih _

theorem pushWords_setPath (p : Path) (l : List (Val Str)) (s : Str) : pushWords s (setPathList p l) = pushWords s l := by
  induction l generalizing s with
  | nil => rfl
  | cons a l ih => exact ih _

theorem PathAndArgs.ser_setPath (p : Path) (x : PathAndArgs) : (x.setPath p).ser = x.ser := by
  obtain ⟨q, a, r⟩ := x
  cases r with
  | string => exact congrArg Toml.str (pushArgs_setPath p a q.val)
  | array => exact serList_setPath p (q :: a)

theorem StringList.ser_setPath (p : Path) (x : StringList) : (x.setPath p).ser = x.ser := by
  obtain ⟨l, r⟩ := x
  cases r with
  | string => exact congrArg Toml.str (pushWords_setPath p l [])
  | array => exact serList_setPath p l

theorem StringOrArray.ser_setPath (p : Path) (x : StringOrArray) : (x.setPath p).ser = x.ser := by
  cases x with
  | string s => rfl
  | array l => exact serList_setPath p l

theorem EnvConfigValue.ser_setPath (p : Path) (x : EnvConfigValue) : (x.setPath p).ser = x.ser := by
  cases x with
  | value v => rfl
  | table v f r => cases f <;> cases r <;> rfl

theorem BuildConfig.ser_setPath (p : Path) (x : BuildConfig) : (x.setPath p).ser = x.ser := by
  simp only [BuildConfig.ser, BuildConfig.setPath, serField_same (serVal_setPath p _), serField_same (Flags.ser_setPath p),
    serField_same (StringOrArray.ser_setPath p)]

theorem TargetConfig.ser_setPath (p : Path) (x : TargetConfig) : (x.setPath p).ser = x.ser := by
  simp only [TargetConfig.ser, TargetConfig.setPath, serField_same (serVal_setPath p _), serField_same (Flags.ser_setPath p),
    serField_same (PathAndArgs.ser_setPath p)]

theorem HttpConfig.ser_setPath (p : Path) (x : HttpConfig) : (x.setPath p).ser = x.ser := by
  simp only [HttpConfig.ser, HttpConfig.setPath, serField_same (serVal_setPath p _)]

theorem NetConfig.ser_setPath (p : Path) (x : NetConfig) : (x.setPath p).ser = x.ser := by
  simp only [NetConfig.ser, NetConfig.setPath, serField_same (serVal_setPath p _)]

theorem RegistriesConfigValue.ser_setPath (p : Path) (x : RegistriesConfigValue) : (x.setPath p).ser = x.ser := by
  simp only [RegistriesConfigValue.ser, RegistriesConfigValue.setPath, serField_same (serVal_setPath p _)]

theorem RegistryConfig.ser_setPath (p : Path) (x : RegistryConfig) : (x.setPath p).ser = x.ser := by
  simp only [RegistryConfig.ser, RegistryConfig.setPath, serField_same (serVal_setPath p _)]

theorem TermConfig.ser_setPath (p : Path) (x : TermConfig) : (x.setPath p).ser = x.ser := by
  simp only [TermConfig.ser, TermConfig.setPath, TermProgress.ser, TermProgress.isNone, Option.isNone_map,
    serField_same (serVal_setPath p _)]

/-- What is written does not depend on the file. -/
theorem Config.ser_setPath (p : Path) (c : Config) : (c.setPath p).ser = c.ser := by
  have h1 : (c.build.setPath p).isNone = c.build.isNone := by simp [BuildConfig.isNone, BuildConfig.setPath]
  have h5 : (c.http.setPath p).isNone = c.http.isNone := by simp [HttpConfig.isNone, HttpConfig.setPath]
  have h6 : (c.net.setPath p).isNone = c.net.isNone := by simp [NetConfig.isNone, NetConfig.setPath]
  have h7 : (c.registry.setPath p).isNone = c.registry.isNone := by simp [RegistryConfig.isNone, RegistryConfig.setPath]
  have h8 : (c.term.setPath p).isNone = c.term.isNone := by simp [TermConfig.isNone, TermConfig.setPath, TermProgress.isNone]
  simp only [Config.ser, Config.setPath, h1, h5, h6, h7, h8, mapVals_isEmpty, serMap_same (StringList.ser_setPath p),
    serMap_same (EnvConfigValue.ser_setPath p), serMap_same (RegistriesConfigValue.ser_setPath p), serMap_same (TargetConfig.ser_setPath p),
    BuildConfig.ser_setPath, DocConfig.ser, DocConfig.isNone, FutureIncompatReportConfig.ser, FutureIncompatReportConfig.isNone,
    CargoNewConfig.ser, CargoNewConfig.isNone, HttpConfig.ser_setPath, NetConfig.ser_setPath, RegistryConfig.ser_setPath,
    TermConfig.ser_setPath, Option.isNone_map, serField_same (serVal_setPath p _), serField_same (PathAndArgs.ser_setPath p)]

theorem words_foundIn {f : Path} {x : Repr' × List (Val Str)} (h : ∀ v ∈ x.2, Word v.val) : ∀ v ∈ (allFoundIn f x).2, Word v.val := by
  intro v hv
  obtain ⟨w, hw, rfl⟩ := List.mem_map.1 hv
  exact h w hw

/-- Merging readable configs gives a readable one. -/
theorem loaded_readable (h : loadConfig fs (fun s => toml s >>= Config.de) cwd home = .ok c) : c.Readable := by
  have hp : ∀ s c, (fun s => toml s >>= Config.de) s = .ok c → c.Readable := by
    intro s c hs
    obtain ⟨t, _, ht⟩ := Res.bind_eq_ok.1 hs
    exact readable_read ht
  have hw : ∀ s c, (fun s => toml s >>= Config.de) s = .ok c → c.WF := fun s c hs => (hp s c hs).wf
  obtain ⟨raws, h1, h2⟩ := C05_nearest_wins hw h
  obtain ⟨raws2, h3, h4⟩ := C06_arrays_joined hw h
  obtain ⟨raws3, h5, h6⟩ := C07_commands_joined hw h
  have hr : ∀ {raws}, FilesRead fs.read (fun s => toml s >>= Config.de) (walk fs.ex cwd home) raws → ∀ x ∈ raws, x.2.Readable := by
    rintro raws hf ⟨p, raw⟩ hm
    obtain ⟨text, _, ht⟩ := hf.2 p raw hm
    exact hp _ _ ht
  have hs : ∀ (k : ScalarKey) v, k.get c = some v → ∃ x ∈ raws, ∃ d, k.get x.2 = some ⟨v.val, d⟩ := by
    intro k v hv
    rw [h2 k] at hv
    obtain ⟨x, hm, hx⟩ := List.mem_map.1 (firstSome_mem hv)
    cases hg : k.get x.2 with
    | none => simp only [hg] at hx; cases hx
    | some u =>
      simp only [hg, Option.map_some, Option.some.injEq] at hx
      subst hx
      exact ⟨x, hm, u.defn, by rw [hg]; rfl⟩
  refine ⟨?_, ?_, ?_, ?_, ?_⟩
  · obtain ⟨raws', g1, g2⟩ := loadPaths_ok.1 h
    exact mergeList_wf g2 (located_wf hw g1)
  · intro k i d hk
    obtain ⟨x, hm, d', hx⟩ := hs k _ hk
    exact (hr h1 x hm).i32 k i d' hx
  · intro k n d hk
    obtain ⟨x, hm, d', hx⟩ := hs k _ hk
    exact (hr h1 x hm).u32 k n d' hx
  · intro k l hk hsp
    have hj := h4 k
    rw [hk] at hj
    generalize hx : (raws2.filterMap fun (p, raw) => (k.get raw).map (allFoundIn p)) = xs at hj
    cases hj with
    | @string x ys hy =>
      have hm : (Repr'.string, l) ∈ raws2.filterMap fun (p, raw) => (k.get raw).map (allFoundIn p) := by rw [hx]; exact List.mem_cons_self
      obtain ⟨⟨p, raw⟩, hm, he⟩ := List.mem_filterMap.1 hm
      obtain ⟨y, hy, he⟩ := Option.map_eq_some_iff.1 he
      obtain ⟨r, ws⟩ := y
      have hr1 : r = .string := congrArg Prod.fst he
      subst hr1
      have := words_foundIn (f := p) (x := (.string, ws)) ((hr h3 _ hm).words k ws hy hsp)
      rw [he] at this
      exact this
  · intro k l hk
    have hj := h6 k
    rw [hk] at hj
    generalize hx : (raws3.filterMap fun (p, raw) => (k.get raw).map (allFoundIn p)) = xs at hj
    cases hj with
    | @string x ys hy =>
      have hm : (Repr'.string, l) ∈ raws3.filterMap fun (p, raw) => (k.get raw).map (allFoundIn p) := by rw [hx]; exact List.mem_cons_self
      obtain ⟨⟨p, raw⟩, hm, he⟩ := List.mem_filterMap.1 hm
      obtain ⟨y, hy, he⟩ := Option.map_eq_some_iff.1 he
      obtain ⟨r, ws⟩ := y
      have hr1 : r = .string := congrArg Prod.fst he
      subst hr1
      have := words_foundIn (f := p) (x := (.string, ws)) ((hr h5 _ hm).command k ws hy)
      rw [he] at this
      exact this

/-- Loading where the only config file is the written config. -/
theorem load_written (h : c.Readable) (hd : DocumentsOf fs' toml' cwd' home' [(f, c.ser)]) :
    loadConfig fs' (fun s => toml' s >>= Config.de) cwd' home' = .ok (c.bare.setPath f) := by
  obtain ⟨dirs, hd1, hd2, hd3⟩ := hd
  have hw : walk fs'.ex cwd' home' = [f] := by
    obtain ⟨dirs', h1, h2⟩ := C01_walk fs'.ex cwd' home'
    exact C01_spec_functional _ _ _ _ _ _ _ h1 hd1 h2 hd2
  unfold loadConfig
  rw [hw, loadPaths_ok]
  obtain ⟨text, h1, h2⟩ := hd3 f _ List.mem_cons_self
  refine ⟨[(f, c.bare)], filesRead_cons.2 ⟨c.bare, [], rfl, ⟨text, h1, ?_⟩, ?_⟩, rfl⟩
  · show (toml' text >>= Config.de) = _
    rw [h2, Res.ok_bind]
    exact Config.de_ser h
  · exact ⟨rfl, fun p raw hm => by cases hm⟩

theorem foundIn_congr {α : Type} {f : Path} {a b : Option (Val α)} (h : a.map Val.val = b.map Val.val) :
    a.map (Val.foundIn f) = b.map (Val.foundIn f) := by
  have e : ∀ x : Option (Val α), x.map (Val.foundIn f) = (x.map Val.val).map fun y => ⟨y, some (.path f)⟩ := by
    intro x; cases x <;> rfl
  rw [e, e, h]

theorem allFoundIn_texts {f : Path} (x : Option (Repr' × List (Val Str))) :
    x.map (allFoundIn f) = (x.map listTexts).map fun y => (y.1, y.2.map fun w => ⟨w, some (.path f)⟩) := by
  cases x with
  | none => rfl
  | some x => simp [allFoundIn, listTexts, Val.foundIn, Function.comp_def]

/-- The plain settings of a resolved config are those of the raw one after the environment was applied. -/
theorem plain_scalar {c : EConfig} {de : Config} {cx : Ctx} (h : EConfig.fromUnresolved de cx = .ok c) :
    ∃ de', de.applyEnv cx.env = .ok de' ∧
      (∀ (k : ScalarKey) x, k.plain c = some x → x = (k.get de').map Val.val) ∧
      (∀ (k : ListKey) x, k.plain c = some x → x = (k.get de').map fun y => y.2.map Val.val) := by
  simp only [EConfig.fromUnresolved, Res.bind_eq_ok, Res.pure_eq] at h
  obtain ⟨de', h0, b, hb, d, hd, en, he, e⟩ := h
  simp only [EBuild.fromUnresolved, Res.bind_eq_ok, Res.pure_eq] at hb
  obtain ⟨x1, _, x2, _, x3, _, x4, _, x5, _, x6, _, x7, _, e1⟩ := hb
  have e1 := Res.ok.inj e1
  subst e1
  have e := Res.ok.inj e
  refine ⟨de', h0, fun k x hx => ?_, fun k x hx => ?_⟩
  · rw [← e] at hx
    cases k <;> cases hx <;>
      simp only [ScalarKey.get, EHttp.fromUnresolved, ENet.fromUnresolved, ERegistry.fromUnresolved, ETerm.fromUnresolved,
        BMap.get_mapVals, Option.map_map, Function.comp_def, Val.map]
    all_goals (cases BMap.get de'.registries _ <;> simp [ERegistries.fromUnresolved, Function.comp_def])
  · rw [← e] at hx
    cases k <;> cases hx <;>
      simp [ListKey.get, BMap.get_mapVals, Function.comp_def, EStringList.fromUnresolved, EFlags.fromUnresolved]

/-- The raw config and the environment of a resolved config. -/
theorem loaded_raw {p : ProcEnv} {o : Options} {c : EConfig} {s : Cells} {look : Str → Option OsStr}
    (hd : ∀ e, o.env = some e → DistinctKeys e)
    (h : EConfig.loadWithOptions p fs (fun s => toml s >>= Config.de) cwd o = .ok (c, s)) (he : EnvOf p o look) (hh : HomeOf p o cwd home) :
    ∃ de cx, DistinctKeys cx.env ∧ Env.get cx.env = look ∧ EConfig.fromUnresolved de cx = .ok c ∧
      loadConfig fs (fun s => toml s >>= Config.de) cwd home = .ok de := by
  rw [load_home hh, C04_option, Res.bind_eq_ok] at h
  obtain ⟨de, h1, h⟩ := h
  rw [Res.bind_eq_ok] at h
  obtain ⟨c', h2, h⟩ := h
  cases Res.ok.inj h
  rw [intoContext_home] at h2
  exact ⟨de, _, env_distinct hd, env_unique he rfl, h2, h1⟩

end CC
