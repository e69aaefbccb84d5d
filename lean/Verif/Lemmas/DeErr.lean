import Verif.Lemmas.Accept
/-
The errors of reading a config from a document are those of the TOML library (`toml_edit::de::Error`).
-/
namespace CC

/-- If this fails, the error is one of the TOML library. -/
def TomlErr {α : Type} (r : Res α) : Prop := ∀ e, r = .err e → ∃ what, e = .toml what

theorem tomlErr_ok {α : Type} (a : α) : TomlErr (Res.ok a) := nofun

theorem tomlErr_err {α : Type} : TomlErr (α := α) (.err (.toml [])) := fun _ h => (by cases h; exact ⟨_, rfl⟩)

theorem tomlErr_bind {α β : Type} {x : Res α} {g : α → Res β} (hx : TomlErr x) (hg : ∀ a, x = .ok a → TomlErr (g a)) :
    TomlErr (x >>= g) := by
  intro e h
  rcases Res.bind_eq_err.1 h with h | ⟨a, h1, h⟩
  · exact hx e h
  · exact hg a h1 e h

/-- Closes the goals at the leaves. -/
macro "toml_err" : tactic => `(tactic| first | exact tomlErr_ok _ | exact tomlErr_err)

theorem deField_tomlErr {α : Type} (l : List (Str × Toml)) (k : String) {f : Toml → Res α} (h : ∀ x, TomlErr (f x)) :
    TomlErr (deField l k f) := by
  unfold deField
  cases BMap.get l k.toList with
  | none => exact tomlErr_ok _
  | some x => exact tomlErr_bind (h x) fun _ _ => tomlErr_ok _

theorem deSection_tomlErr {α : Type} (l : List (Str × Toml)) (k : String) (d : α) {f : Toml → Res α}
    (h : ∀ x, TomlErr (f x)) : TomlErr (deSection l k d f) := by
  unfold deSection
  cases BMap.get l k.toList with
  | none => exact tomlErr_ok _
  | some x => exact h x

theorem deVal_tomlErr {α : Type} {f : Toml → Res α} (h : ∀ x, TomlErr (f x)) (x : Toml) : TomlErr (deVal f x) :=
  tomlErr_bind (h x) fun _ _ => tomlErr_ok _

theorem deStr_tomlErr (x : Toml) : TomlErr (deStr x) := by cases x <;> toml_err
theorem deBool_tomlErr (x : Toml) : TomlErr (deBool x) := by cases x <;> toml_err
theorem deI32_tomlErr (x : Toml) : TomlErr (deI32 x) := by
  unfold deI32; split
  · split <;> toml_err
  · toml_err
theorem deU32_tomlErr (x : Toml) : TomlErr (deU32 x) := by
  unfold deU32; split
  · split <;> toml_err
  · toml_err

theorem deElems_tomlErr {α : Type} {f : Toml → Res α} (h : ∀ x, TomlErr (f x)) : ∀ l, TomlErr (deElems f l)
  | [] => tomlErr_ok _
  | _ :: l => tomlErr_bind (h _) fun _ _ => tomlErr_bind (deElems_tomlErr h l) fun _ _ => tomlErr_ok _

theorem deList_tomlErr (x : Toml) : TomlErr (deList x) := by
  cases x with
  | arr l => exact deElems_tomlErr (deVal_tomlErr deStr_tomlErr) l
  | _ => toml_err

theorem deEntries_tomlErr {V : Type} {f : Toml → Res V} (h : ∀ x, TomlErr (f x)) : ∀ l (m : BMap V), TomlErr (deEntries f m l)
  | [], _ => tomlErr_ok _
  | _ :: l, _ => tomlErr_bind (h _) fun _ _ => deEntries_tomlErr h l _

theorem deMap_tomlErr {V : Type} {f : Toml → Res V} (h : ∀ x, TomlErr (f x)) (x : Toml) : TomlErr (deMap f x) := by
  cases x with
  | tbl l => exact deEntries_tomlErr h l []
  | _ => toml_err

theorem Vcs.de_tomlErr (x : Toml) : TomlErr (Vcs.de x) := by
  unfold Vcs.de
  split
  · repeat' split
    all_goals toml_err
  · toml_err

theorem Protocol.de_tomlErr (x : Toml) : TomlErr (Protocol.de x) := by
  unfold Protocol.de
  split
  · repeat' split
    all_goals toml_err
  · toml_err

theorem Color.de_tomlErr (x : Toml) : TomlErr (Color.de x) := by
  unfold Color.de
  split
  · repeat' split
    all_goals toml_err
  · toml_err

theorem When.de_tomlErr (x : Toml) : TomlErr (When.de x) := by
  unfold When.de
  split
  · repeat' split
    all_goals toml_err
  · toml_err

theorem Frequency.de_tomlErr (x : Toml) : TomlErr (Frequency.de x) := by
  unfold Frequency.de
  split
  · repeat' split
    all_goals toml_err
  · toml_err

theorem StringOrArray.de_tomlErr (x : Toml) : TomlErr (StringOrArray.de x) := by
  cases x with
  | str s => toml_err
  | _ => exact tomlErr_bind (deList_tomlErr _) fun _ _ => tomlErr_ok _

theorem Flags.de_tomlErr (x : Toml) : TomlErr (Flags.de x) :=
  tomlErr_bind (StringOrArray.de_tomlErr x) fun v _ => by cases v <;> toml_err

theorem StringList.de_tomlErr (x : Toml) : TomlErr (StringList.de x) :=
  tomlErr_bind (StringOrArray.de_tomlErr x) fun v _ => by cases v <;> toml_err

theorem PathAndArgs.de_tomlErr (x : Toml) : TomlErr (PathAndArgs.de x) :=
  tomlErr_bind (StringOrArray.de_tomlErr x) fun v _ => by
    cases v with
    | string s => dsimp only; cases PathAndArgs.fromString s.val none <;> toml_err
    | array l => dsimp only; cases PathAndArgs.fromArray l <;> toml_err

theorem EnvConfigValue.de_tomlErr (x : Toml) : TomlErr (EnvConfigValue.de x) := by
  cases x with
  | tbl l =>
    refine tomlErr_bind (deField_tomlErr _ _ (deVal_tomlErr deStr_tomlErr)) fun _ _ => ?_
    refine tomlErr_bind (deField_tomlErr _ _ (deVal_tomlErr deBool_tomlErr)) fun _ _ => ?_
    refine tomlErr_bind (deField_tomlErr _ _ (deVal_tomlErr deBool_tomlErr)) fun _ _ => ?_
    rename_i v _ _ _ _ _
    cases v <;> toml_err
  | _ => toml_err

theorem BuildConfig.de_tomlErr (x : Toml) : TomlErr (BuildConfig.de x) := by
  cases x with
  | tbl l =>
    refine tomlErr_bind (deField_tomlErr _ _ (deVal_tomlErr deI32_tomlErr)) fun _ _ => ?_
    refine tomlErr_bind (deField_tomlErr _ _ (deVal_tomlErr deStr_tomlErr)) fun _ _ => ?_
    refine tomlErr_bind (deField_tomlErr _ _ (deVal_tomlErr deStr_tomlErr)) fun _ _ => ?_
    refine tomlErr_bind (deField_tomlErr _ _ (deVal_tomlErr deStr_tomlErr)) fun _ _ => ?_
    refine tomlErr_bind (deField_tomlErr _ _ (deVal_tomlErr deStr_tomlErr)) fun _ _ => ?_
    refine tomlErr_bind (deField_tomlErr _ _ StringOrArray.de_tomlErr) fun _ _ => ?_
    refine tomlErr_bind (deField_tomlErr _ _ (deVal_tomlErr deStr_tomlErr)) fun _ _ => ?_
    refine tomlErr_bind (deField_tomlErr _ _ Flags.de_tomlErr) fun _ _ => ?_
    refine tomlErr_bind (deField_tomlErr _ _ Flags.de_tomlErr) fun _ _ => ?_
    refine tomlErr_bind (deField_tomlErr _ _ (deVal_tomlErr deBool_tomlErr)) fun _ _ => ?_
    refine tomlErr_bind (deField_tomlErr _ _ (deVal_tomlErr deStr_tomlErr)) fun _ _ => ?_
    toml_err
  | _ => toml_err

theorem TargetConfig.de_tomlErr (x : Toml) : TomlErr (TargetConfig.de x) := by
  cases x with
  | tbl l =>
    refine tomlErr_bind (deField_tomlErr _ _ (deVal_tomlErr deStr_tomlErr)) fun _ _ => ?_
    refine tomlErr_bind (deField_tomlErr _ _ PathAndArgs.de_tomlErr) fun _ _ => ?_
    refine tomlErr_bind (deField_tomlErr _ _ Flags.de_tomlErr) fun _ _ => ?_
    refine tomlErr_bind (deField_tomlErr _ _ Flags.de_tomlErr) fun _ _ => ?_
    toml_err
  | _ => toml_err

theorem DocConfig.de_tomlErr (x : Toml) : TomlErr (DocConfig.de x) := by
  cases x with
  | tbl l =>
    refine tomlErr_bind (deField_tomlErr _ _ PathAndArgs.de_tomlErr) fun _ _ => ?_
    toml_err
  | _ => toml_err

theorem FutureIncompatReportConfig.de_tomlErr (x : Toml) : TomlErr (FutureIncompatReportConfig.de x) := by
  cases x with
  | tbl l =>
    refine tomlErr_bind (deField_tomlErr _ _ (deVal_tomlErr Frequency.de_tomlErr)) fun _ _ => ?_
    toml_err
  | _ => toml_err

theorem CargoNewConfig.de_tomlErr (x : Toml) : TomlErr (CargoNewConfig.de x) := by
  cases x with
  | tbl l =>
    refine tomlErr_bind (deField_tomlErr _ _ (deVal_tomlErr Vcs.de_tomlErr)) fun _ _ => ?_
    toml_err
  | _ => toml_err

theorem HttpConfig.de_tomlErr (x : Toml) : TomlErr (HttpConfig.de x) := by
  cases x with
  | tbl l =>
    refine tomlErr_bind (deField_tomlErr _ _ (deVal_tomlErr deBool_tomlErr)) fun _ _ => ?_
    refine tomlErr_bind (deField_tomlErr _ _ (deVal_tomlErr deStr_tomlErr)) fun _ _ => ?_
    refine tomlErr_bind (deField_tomlErr _ _ (deVal_tomlErr deU32_tomlErr)) fun _ _ => ?_
    refine tomlErr_bind (deField_tomlErr _ _ (deVal_tomlErr deStr_tomlErr)) fun _ _ => ?_
    refine tomlErr_bind (deField_tomlErr _ _ (deVal_tomlErr deBool_tomlErr)) fun _ _ => ?_
    refine tomlErr_bind (deField_tomlErr _ _ (deVal_tomlErr deU32_tomlErr)) fun _ _ => ?_
    refine tomlErr_bind (deField_tomlErr _ _ (deVal_tomlErr deBool_tomlErr)) fun _ _ => ?_
    refine tomlErr_bind (deField_tomlErr _ _ (deVal_tomlErr deStr_tomlErr)) fun _ _ => ?_
    toml_err
  | _ => toml_err

theorem NetConfig.de_tomlErr (x : Toml) : TomlErr (NetConfig.de x) := by
  cases x with
  | tbl l =>
    refine tomlErr_bind (deField_tomlErr _ _ (deVal_tomlErr deU32_tomlErr)) fun _ _ => ?_
    refine tomlErr_bind (deField_tomlErr _ _ (deVal_tomlErr deBool_tomlErr)) fun _ _ => ?_
    refine tomlErr_bind (deField_tomlErr _ _ (deVal_tomlErr deBool_tomlErr)) fun _ _ => ?_
    toml_err
  | _ => toml_err

theorem RegistriesConfigValue.de_tomlErr (x : Toml) : TomlErr (RegistriesConfigValue.de x) := by
  cases x with
  | tbl l =>
    refine tomlErr_bind (deField_tomlErr _ _ (deVal_tomlErr deStr_tomlErr)) fun _ _ => ?_
    refine tomlErr_bind (deField_tomlErr _ _ (deVal_tomlErr deStr_tomlErr)) fun _ _ => ?_
    refine tomlErr_bind (deField_tomlErr _ _ (deVal_tomlErr Protocol.de_tomlErr)) fun _ _ => ?_
    toml_err
  | _ => toml_err

theorem RegistryConfig.de_tomlErr (x : Toml) : TomlErr (RegistryConfig.de x) := by
  cases x with
  | tbl l =>
    refine tomlErr_bind (deField_tomlErr _ _ (deVal_tomlErr deStr_tomlErr)) fun _ _ => ?_
    refine tomlErr_bind (deField_tomlErr _ _ (deVal_tomlErr deStr_tomlErr)) fun _ _ => ?_
    toml_err
  | _ => toml_err

theorem TermProgress.de_tomlErr (x : Toml) : TomlErr (TermProgress.de x) := by
  cases x with
  | tbl l =>
    refine tomlErr_bind (deField_tomlErr _ _ (deVal_tomlErr When.de_tomlErr)) fun _ _ => ?_
    refine tomlErr_bind (deField_tomlErr _ _ (deVal_tomlErr deU32_tomlErr)) fun _ _ => ?_
    toml_err
  | _ => toml_err

theorem TermConfig.de_tomlErr (x : Toml) : TomlErr (TermConfig.de x) := by
  cases x with
  | tbl l =>
    refine tomlErr_bind (deField_tomlErr _ _ (deVal_tomlErr deBool_tomlErr)) fun _ _ => ?_
    refine tomlErr_bind (deField_tomlErr _ _ (deVal_tomlErr deBool_tomlErr)) fun _ _ => ?_
    refine tomlErr_bind (deField_tomlErr _ _ (deVal_tomlErr Color.de_tomlErr)) fun _ _ => ?_
    refine tomlErr_bind (deSection_tomlErr _ _ _ TermProgress.de_tomlErr) fun _ _ => ?_
    toml_err
  | _ => toml_err

theorem Config.de_tomlErr (x : Toml) : TomlErr (Config.de x) := by
  cases x with
  | tbl l =>
    refine tomlErr_bind (deSection_tomlErr _ _ _ (deMap_tomlErr StringList.de_tomlErr)) fun _ _ => ?_
    refine tomlErr_bind (deSection_tomlErr _ _ _ BuildConfig.de_tomlErr) fun _ _ => ?_
    refine tomlErr_bind (deSection_tomlErr _ _ _ DocConfig.de_tomlErr) fun _ _ => ?_
    refine tomlErr_bind (deSection_tomlErr _ _ _ (deMap_tomlErr EnvConfigValue.de_tomlErr)) fun _ _ => ?_
    refine tomlErr_bind (deSection_tomlErr _ _ _ FutureIncompatReportConfig.de_tomlErr) fun _ _ => ?_
    refine tomlErr_bind (deSection_tomlErr _ _ _ CargoNewConfig.de_tomlErr) fun _ _ => ?_
    refine tomlErr_bind (deSection_tomlErr _ _ _ HttpConfig.de_tomlErr) fun _ _ => ?_
    refine tomlErr_bind (deSection_tomlErr _ _ _ NetConfig.de_tomlErr) fun _ _ => ?_
    refine tomlErr_bind (deSection_tomlErr _ _ _ (deMap_tomlErr RegistriesConfigValue.de_tomlErr)) fun _ _ => ?_
    refine tomlErr_bind (deSection_tomlErr _ _ _ RegistryConfig.de_tomlErr) fun _ _ => ?_
    refine tomlErr_bind (deSection_tomlErr _ _ _ (deMap_tomlErr TargetConfig.de_tomlErr)) fun _ _ => ?_
    refine tomlErr_bind (deSection_tomlErr _ _ _ TermConfig.de_tomlErr) fun _ _ => ?_
    toml_err
  | _ => toml_err

end CC
