import Verif.Lemmas.EasySerde
import Verif.Lemmas.EndToEnd
/-
Reading what a resolved config was written as, and resolving it again.
-/
namespace CC

/-! ### Reading -/

theorem map_comp_some {α β γ : Type} {g : α → β} {h : β → γ} {k : α → γ} (hk : ∀ a, h (g a) = k a) (o : Option α) :
    (o.map g).map h = o.map k := by
  cases o with
  | none => rfl
  | some a => exact congrArg some (hk a)

theorem list_comp {α β γ : Type} {g : α → β} {h : β → γ} {k : α → γ} (hk : ∀ a, h (g a) = k a) (l : List α) :
    (l.map g).map h = l.map k := by
  rw [List.map_map]
  exact List.map_congr_left fun a _ => hk a

theorem map_same {α : Type} {g : α → α} (hg : ∀ a, g a = a) (o : Option α) : o.map g = o := by
  cases o with
  | none => rfl
  | some a => exact congrArg some (hg a)

theorem list_same {α : Type} {g : α → α} (hg : ∀ a, g a = a) (l : List α) : l.map g = l := by
  rw [List.map_congr_left (g := id) fun a _ => hg a, List.map_id]

theorem mapVals_comp {U V W : Type} {g : U → V} {h : V → W} {k : U → W} (hk : ∀ a, h (g a) = k a) (m : BMap U) :
    BMap.mapVals h (BMap.mapVals g m) = BMap.mapVals k m := by
  unfold BMap.mapVals
  rw [List.map_map]
  exact List.map_congr_left fun a _ => by simp only [Function.comp_apply, hk]

theorem mapVals_same {V : Type} {g : V → V} (hg : ∀ a, g a = a) (m : BMap V) : BMap.mapVals g m = m := by
  unfold BMap.mapVals
  exact list_same (fun a => by simp only [hg]) m

theorem unlocated_bare {α : Type} (a : α) : (unlocated a).bare = unlocated a := rfl

theorem EFlags.toDe_bare (f : EFlags) : f.toDe.bare = f.toDe := by
  simp only [EFlags.toDe, Flags.bare, list_comp unlocated_bare]

theorem EStringList.toDe_bare (f : EStringList) : f.toDe.bare = f.toDe := by
  simp only [EStringList.toDe, StringList.bare, list_comp unlocated_bare]

theorem EPathAndArgs.toDe_bare (x : EPathAndArgs) : x.toDe.bare = x.toDe := by
  simp only [EPathAndArgs.toDe, PathAndArgs.bare, list_comp unlocated_bare, unlocated_bare]

theorem toDeFlag_bare (b : Bool) : (toDeFlag b).map Val.bare = toDeFlag b := by cases b <;> rfl

theorem EEnvValue.toDe_bare (e : EEnvValue) : e.toDe.bare = e.toDe := by
  obtain ⟨v, f, r⟩ := e
  cases f <;> cases r <;> rfl

theorem EBuild.toDe_bare (b : EBuild) : b.toDe.bare = b.toDe := by
  simp only [EBuild.toDe, BuildConfig.bare, map_comp_some unlocated_bare, map_comp_some EFlags.toDe_bare]
  congr 1
  refine map_comp_some (fun l => ?_) _
  simp only [StringOrArray.bare, List.map_map]
  rfl

theorem ETarget.toDe_bare (t : ETarget) : t.toDe.bare = t.toDe := by
  simp only [ETarget.toDe, TargetConfig.bare, map_comp_some unlocated_bare, map_comp_some EFlags.toDe_bare,
    map_comp_some EPathAndArgs.toDe_bare]

theorem ERegistries.toDe_bare (r : ERegistries) : r.toDe.bare = r.toDe := by
  simp only [ERegistries.toDe, RegistriesConfigValue.bare, map_comp_some unlocated_bare]

theorem EConfig.toDe_bare (c : EConfig) (ts : BMap ETarget) : (c.toDe ts).bare = c.toDe ts := by
  simp only [EConfig.toDe, Config.bare, mapVals_comp EStringList.toDe_bare, mapVals_comp EEnvValue.toDe_bare,
    mapVals_comp ERegistries.toDe_bare, mapVals_comp ETarget.toDe_bare, EBuild.toDe_bare, DocConfig.bare,
    FutureIncompatReportConfig.bare, CargoNewConfig.bare, map_comp_some EPathAndArgs.toDe_bare, map_comp_some unlocated_bare,
    EHttp.toDe, HttpConfig.bare, ENet.toDe, NetConfig.bare, ERegistry.toDe, RegistryConfig.bare, ETerm.toDe, TermConfig.bare,
    ETermProgress.toDe, TermProgress.bare]

/-- What a resolved config has to meet so that it can be read again. -/
structure EConfig.Ranges (c : EConfig) : Prop where
  alias : c.alias.Sorted
  env : c.env.Sorted
  registries : c.registries.Sorted
  jobs : ∀ i, c.build.jobs = some i → -2147483648 ≤ i ∧ i ≤ 2147483647
  timeout : ∀ n, c.http.timeout = some n → n ≤ 4294967295
  lowSpeedLimit : ∀ n, c.http.lowSpeedLimit = some n → n ≤ 4294967295
  retry : ∀ n, c.net.retry = some n → n ≤ 4294967295
  width : ∀ n, c.term.progress.width = some n → n ≤ 4294967295

theorem map_inj_some {α : Type} {g : α → Atom} {o : Option α} {x : Atom} {d : Option Definition}
    (h : (o.map unlocated).map (Val.map g) = some ⟨x, d⟩) : ∃ a, o = some a ∧ g a = x := by
  cases o with
  | none => cases h
  | some a => cases h; exact ⟨a, rfl, rfl⟩

theorem EConfig.toDe_readable {c : EConfig} (h : c.Ranges) {ts : BMap ETarget} (ht : ts.Sorted) : (c.toDe ts).Readable where
  wf := ⟨h.alias.mapVals _, h.env.mapVals _, h.registries.mapVals _, ht.mapVals _, rfl, rfl⟩
  i32 := by
    intro k i d hk
    cases k
    case buildJobs =>
      obtain ⟨a, ha, e⟩ := map_inj_some (g := .int) hk
      cases e
      exact h.jobs _ ha
    all_goals
      exfalso
      simp only [ScalarKey.get, EConfig.toDe] at hk
      simp only [Option.map_eq_some_iff, Option.bind_eq_some_iff] at hk
      grind [Val.map]
  u32 := by
    intro k n d hk
    cases k
    case httpTimeout =>
      obtain ⟨a, ha, e⟩ := map_inj_some (g := .nat) hk
      cases e
      exact h.timeout _ ha
    case httpLowSpeedLimit =>
      obtain ⟨a, ha, e⟩ := map_inj_some (g := .nat) hk
      cases e
      exact h.lowSpeedLimit _ ha
    case netRetry =>
      obtain ⟨a, ha, e⟩ := map_inj_some (g := .nat) hk
      cases e
      exact h.retry _ ha
    case termProgressWidth =>
      obtain ⟨a, ha, e⟩ := map_inj_some (g := .nat) hk
      cases e
      exact h.width _ ha
    all_goals
      exfalso
      simp only [ScalarKey.get, EConfig.toDe] at hk
      simp only [Option.map_eq_some_iff, Option.bind_eq_some_iff] at hk
      grind [Val.map]
  words := by
    intro k l hk
    exfalso
    cases k <;>
    · simp only [ListKey.get, EConfig.toDe, EBuild.toDe, BMap.get_mapVals] at hk
      simp only [Option.map_eq_some_iff, Option.bind_eq_some_iff] at hk
      grind [EStringList.toDe, EFlags.toDe, ETarget.toDe, Option.map_eq_some_iff]
  command := by
    intro k l hk
    exfalso
    cases k <;>
    · simp only [ProgKey.get, EConfig.toDe, BMap.get_mapVals] at hk
      simp only [Option.map_eq_some_iff, Option.bind_eq_some_iff] at hk
      grind [EPathAndArgs.toDe, ETarget.toDe, Option.map_eq_some_iff]

/-- What was written is read as it was. -/
theorem EConfig.de_ser {c : EConfig} (h : c.Ranges) {s : Cells} (ht : s.target.Sorted) :
    Config.de (c.ser s) = .ok (c.toDe s.target) := by
  rw [EConfig.ser_toDe, Config.de_ser (EConfig.toDe_readable h ht), EConfig.toDe_bare]

end CC
