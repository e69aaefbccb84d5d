import Verif.Lemmas.SerdeShape
/-
Lemmas for C52: what is written does not depend on the locations of values or the spelling of flags.
-/
namespace CC

theorem serField_same {α : Type} {k : String} {o : Option α} {g : α → α} {f : α → Toml} (h : ∀ a, f (g a) = f a) :
    serField k (o.map g) f = serField k o f := by
  cases o with
  | none => rfl
  | some a => simp only [serField, Option.map_some, h]

theorem serMap_same {V : Type} {m : BMap V} {g : V → V} {f : V → Toml} (h : ∀ a, f (g a) = f a) :
    serMap f (m.mapVals g) = serMap f m := by
  simp only [serMap, BMap.mapVals, List.map_map, Function.comp_def, h]

theorem serVal_bare {α : Type} (f : α → Toml) (v : Val α) : serVal f v.bare = serVal f v := rfl

theorem serList_bare (l : List (Val Str)) : serList (l.map Val.bare) = serList l := by
  simp only [serList, List.map_map, Function.comp_def, serVal_bare]

theorem Flags.ser_bare (f : Flags) : f.bare.ser = f.ser := serList_bare _

theorem pushArgs_bare (l : List (Val Str)) (s : Str) : pushArgs s (l.map Val.bare) = pushArgs s l := by
  induction l generalizing s with
  | nil => rfl
  | cons a l ih => exact ih _

theorem pushWords_bare (l : List (Val Str)) (s : Str) : pushWords s (l.map Val.bare) = pushWords s l := by
  induction l generalizing s with
  | nil => rfl
  | cons a l ih => exact ih _

theorem PathAndArgs.ser_bare (x : PathAndArgs) : x.bare.ser = x.ser := by
  obtain ⟨p, a, r⟩ := x
  cases r with
  | string => exact congrArg Toml.str (pushArgs_bare a p.val)
  | array => exact serList_bare (p :: a)

theorem StringList.ser_bare (x : StringList) : x.bare.ser = x.ser := by
  obtain ⟨l, r⟩ := x
  cases r with
  | string => exact congrArg Toml.str (pushWords_bare l [])
  | array => exact serList_bare l

theorem StringOrArray.ser_bare (x : StringOrArray) : x.bare.ser = x.ser := by
  cases x with
  | string s => rfl
  | array l => exact serList_bare l

theorem EnvConfigValue.ser_bare (x : EnvConfigValue) : x.bare.ser = x.ser := by
  cases x with
  | value v => rfl
  | table v f r =>
    cases f <;> cases r <;> rfl

theorem BuildConfig.ser_bare (x : BuildConfig) : x.bare.ser = x.ser := by
  simp only [BuildConfig.ser, BuildConfig.bare, serField_same (serVal_bare _), serField_same Flags.ser_bare,
    serField_same StringOrArray.ser_bare]

theorem TargetConfig.ser_bare (x : TargetConfig) : x.bare.ser = x.ser := by
  simp only [TargetConfig.ser, TargetConfig.bare, serField_same (serVal_bare _), serField_same Flags.ser_bare,
    serField_same PathAndArgs.ser_bare]

theorem DocConfig.ser_bare (x : DocConfig) : x.bare.ser = x.ser := by
  simp only [DocConfig.ser, DocConfig.bare, serField_same PathAndArgs.ser_bare]

theorem FutureIncompatReportConfig.ser_bare (x : FutureIncompatReportConfig) : x.bare.ser = x.ser := by
  simp only [FutureIncompatReportConfig.ser, FutureIncompatReportConfig.bare, serField_same (serVal_bare _)]

theorem CargoNewConfig.ser_bare (x : CargoNewConfig) : x.bare.ser = x.ser := by
  simp only [CargoNewConfig.ser, CargoNewConfig.bare, serField_same (serVal_bare _)]

theorem HttpConfig.ser_bare (x : HttpConfig) : x.bare.ser = x.ser := by
  simp only [HttpConfig.ser, HttpConfig.bare, serField_same (serVal_bare _)]

theorem NetConfig.ser_bare (x : NetConfig) : x.bare.ser = x.ser := by
  simp only [NetConfig.ser, NetConfig.bare, serField_same (serVal_bare _)]

theorem RegistriesConfigValue.ser_bare (x : RegistriesConfigValue) : x.bare.ser = x.ser := by
  simp only [RegistriesConfigValue.ser, RegistriesConfigValue.bare, serField_same (serVal_bare _)]

theorem RegistryConfig.ser_bare (x : RegistryConfig) : x.bare.ser = x.ser := by
  simp only [RegistryConfig.ser, RegistryConfig.bare, serField_same (serVal_bare _)]

theorem TermProgress.ser_bare (x : TermProgress) : x.bare.ser = x.ser := by
  simp only [TermProgress.ser, TermProgress.bare, serField_same (serVal_bare _)]

theorem TermConfig.ser_bare (x : TermConfig) : x.bare.ser = x.ser := by
  have h : x.progress.bare.isNone = x.progress.isNone := by simp [TermProgress.isNone, TermProgress.bare]
  simp only [TermConfig.ser, TermConfig.bare, serField_same (serVal_bare _), TermProgress.ser_bare, h]

theorem mapVals_isEmpty {V W : Type} (m : BMap V) (g : V → W) : (m.mapVals g).isEmpty = m.isEmpty := by
  cases m <;> rfl

theorem Config.ser_bare (c : Config) : c.bare.ser = c.ser := by
  have h1 : c.build.bare.isNone = c.build.isNone := by simp [BuildConfig.isNone, BuildConfig.bare]
  have h2 : c.doc.bare.isNone = c.doc.isNone := by simp [DocConfig.isNone, DocConfig.bare]
  have h3 : c.futureIncompatReport.bare.isNone = c.futureIncompatReport.isNone := by
    simp [FutureIncompatReportConfig.isNone, FutureIncompatReportConfig.bare]
  have h4 : c.cargoNew.bare.isNone = c.cargoNew.isNone := by simp [CargoNewConfig.isNone, CargoNewConfig.bare]
  have h5 : c.http.bare.isNone = c.http.isNone := by simp [HttpConfig.isNone, HttpConfig.bare]
  have h6 : c.net.bare.isNone = c.net.isNone := by simp [NetConfig.isNone, NetConfig.bare]
  have h7 : c.registry.bare.isNone = c.registry.isNone := by simp [RegistryConfig.isNone, RegistryConfig.bare]
  have h8 : c.term.bare.isNone = c.term.isNone := by simp [TermConfig.isNone, TermConfig.bare, TermProgress.isNone, TermProgress.bare]
  simp only [Config.ser, Config.bare, h1, h2, h3, h4, h5, h6, h7, h8, mapVals_isEmpty, serMap_same StringList.ser_bare,
    serMap_same EnvConfigValue.ser_bare, serMap_same RegistriesConfigValue.ser_bare, serMap_same TargetConfig.ser_bare,
    BuildConfig.ser_bare, DocConfig.ser_bare, FutureIncompatReportConfig.ser_bare, CargoNewConfig.ser_bare, HttpConfig.ser_bare,
    NetConfig.ser_bare, RegistryConfig.ser_bare, TermConfig.ser_bare]

end CC
