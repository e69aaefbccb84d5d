import Verif.Lemmas.SerdeWrite
/-
What holds of every config read from TOML, and the round trip.
-/
namespace CC

theorem deSection_prop {α : Type} {l : List (Str × Toml)} {k : String} {d x : α} {f : Toml → Res α} (P : α → Prop)
    (h : deSection l k d f = .ok x) (hd : P d) (hf : ∀ v y, f v = .ok y → P y) : P x := by
  rcases deSection_inv h with ⟨_, rfl⟩ | ⟨v, _, h2⟩
  · exact hd
  · exact hf v x h2

theorem deField_prop {α : Type} {l : List (Str × Toml)} {k : String} {o : Option α} {f : Toml → Res α} {P : α → Prop}
    (h : deField l k f = .ok o) (hf : ∀ v y, f v = .ok y → P y) : ∀ v, o = some v → P v := by
  intro v hv
  subst hv
  have := deField_rel h
  generalize BMap.get l k.toList = x at this
  cases this with
  | some ha => exact hf _ _ ha

theorem deSection_map {V : Type} {l : List (Str × Toml)} {k : String} {m : BMap V} {f : Toml → Res V}
    (h : deSection l k [] (deMap f) = .ok m) :
    m.Sorted ∧ ∀ k v, BMap.get m k = some v → ∃ t, f t = .ok v := by
  rcases deSection_inv h with ⟨_, rfl⟩ | ⟨v, _, h2⟩
  · exact ⟨BMap.sorted_nil, fun k v h => by cases h⟩
  · exact deMap_mem h2

theorem words_of_tomlList {t : Toml} {ws : List Str} (h : TomlList true t .string ws) : ∀ w ∈ ws, Word w := by
  cases h with
  | words s _ => exact fun w hw => mem_splitSpaceSeparated (wordsIn_eq ▸ hw)
  | whole s h => cases h

theorem words_of_vals {t : Toml} {r : Repr'} {l : List (Val Str)} (h : TomlList true t r (l.map Val.val)) (hr : r = .string) :
    ∀ v ∈ l, Word v.val := by
  subst hr
  exact fun v hv => words_of_tomlList h v.val (List.mem_map_of_mem hv)

theorem wf_read {t : Toml} {c : Config} (h : Config.de t = .ok c) : c.WF := by
  obtain ⟨l, rfl, s⟩ := Config.de_eq h
  refine ⟨(deSection_map s.alias).1, (deSection_map s.env).1, (deSection_map s.registries).1, (deSection_map s.target).1, ?_, ?_⟩
  · refine deSection_prop (fun b : BuildConfig => b.overrideTargetRustflags = false) s.build rfl ?_
    intro v y hy; obtain ⟨l, rfl, h1, h2, h3, h4, h5, h6, h7, h8, h9, h10, h11, h12, h13⟩ := BuildConfig.de_eq hy
    exact h12
  · refine deSection_prop (fun b : BuildConfig => b.overrideTargetRustdocflags = false) s.build rfl ?_
    intro v y hy; obtain ⟨l, rfl, h1, h2, h3, h4, h5, h6, h7, h8, h9, h10, h11, h12, h13⟩ := BuildConfig.de_eq hy
    exact h13

theorem deU32_prop {l : List (Str × Toml)} {k : String} {o : Option (Val Nat)} (h : deField l k (deVal deU32) = .ok o) :
    ∀ v, o = some v → v.val ≤ 4294967295 :=
  deField_prop h fun _ _ hy => (deU32_eq (deVal_eq hy).1).2

theorem map_val_some {α : Type} {o : Option (Val α)} {g : α → Atom} {a : Atom} {d : Option Definition}
    (h : o.map (Val.map g) = some ⟨a, d⟩) : ∃ v, o = some v ∧ g v.val = a := by
  cases o with
  | none => cases h
  | some v =>
    simp only [Option.map_some, Val.map, Option.some.injEq, Val.mk.injEq] at h
    exact ⟨v, rfl, h.1⟩

theorem readable_read {t : Toml} {c : Config} (h : Config.de t = .ok c) : c.Readable := by
  have hwf := wf_read h
  obtain ⟨l, rfl, s⟩ := Config.de_eq h
  refine ⟨hwf, ?_, ?_, ?_, ?_⟩
  · intro k i d hk
    cases k <;> first
      | (obtain ⟨v, _, hv⟩ := map_val_some hk; cases hv; done)
      | skip
    · obtain ⟨v, hv, hi⟩ := map_val_some hk
      cases hi
      have := deSection_prop (fun b : BuildConfig => ∀ v, b.jobs = some v → -2147483648 ≤ v.val ∧ v.val ≤ 2147483647) s.build
        (fun v h => by cases h) ?_
      · exact this v hv
      · intro v y hy; obtain ⟨l, rfl, h1, _⟩ := BuildConfig.de_eq hy
        exact deField_prop h1 fun _ _ hy => (deI32_eq (deVal_eq hy).1).2
    · rename_i k
      simp only [ScalarKey.get] at hk
      cases hx : BMap.get c.env k with
      | none => rw [hx] at hk; cases hk
      | some e => rw [hx] at hk; cases hk
  · intro k n d hk
    have hhttp := deSection_prop (fun b : HttpConfig => (∀ v, b.timeout = some v → v.val ≤ 4294967295) ∧
      ∀ v, b.lowSpeedLimit = some v → v.val ≤ 4294967295) s.http ⟨(fun v h => by cases h), (fun v h => by cases h)⟩ (by
        intro v y hy; obtain ⟨l, rfl, h1, h2, h3, h4, h5, h6, h7, h8⟩ := HttpConfig.de_eq hy
        exact ⟨deU32_prop h3, deU32_prop h6⟩)
    have hnet := deSection_prop (fun b : NetConfig => ∀ v, b.retry = some v → v.val ≤ 4294967295) s.net
      (fun v h => by cases h) (by
        intro v y hy; obtain ⟨l, rfl, h1, _⟩ := NetConfig.de_eq hy
        exact deU32_prop h1)
    have hterm := deSection_prop (fun b : TermConfig => ∀ v, b.progress.width = some v → v.val ≤ 4294967295) s.term
      (fun v h => by cases h) (by
        intro v y hy; obtain ⟨l, rfl, h1, h2, h3, h4⟩ := TermConfig.de_eq hy
        refine deSection_prop (fun b : TermProgress => ∀ v, b.width = some v → v.val ≤ 4294967295) h4 (fun v h => by cases h) ?_
        intro v y hy; obtain ⟨l, rfl, h1, h2⟩ := TermProgress.de_eq hy
        exact deU32_prop h2)
    cases k <;> first
      | (obtain ⟨v, _, hv⟩ := map_val_some hk; cases hv; done)
      | skip
    · rename_i k
      simp only [ScalarKey.get] at hk
      cases hx : BMap.get c.env k with
      | none => rw [hx] at hk; cases hk
      | some e => rw [hx] at hk; cases hk
    all_goals (obtain ⟨v, hv, hn⟩ := map_val_some hk; cases hn)
    · exact hhttp.1 v hv
    · exact hhttp.2 v hv
    · exact hnet v hv
    · exact hterm v hv
  · intro k l hk hs
    have hfl : ∀ {o : Option Flags}, (∀ f, o = some f → ∃ t, Flags.de t = .ok f) →
        (o.map fun l => (l.repr, l.flags)) = some (.string, l) → ∀ v ∈ l, Word v.val := by
      intro o h1 h2
      cases o with
      | none => cases h2
      | some f =>
        obtain ⟨t, ht⟩ := h1 f rfl
        simp only [Option.map_some, Option.some.injEq, Prod.mk.injEq] at h2
        rw [← h2.2]
        exact words_of_vals (Flags.de_eq ht).1 h2.1
    have hb : (∀ f, c.build.rustflags = some f → ∃ t, Flags.de t = .ok f) ∧
        ∀ f, c.build.rustdocflags = some f → ∃ t, Flags.de t = .ok f := by
      refine deSection_prop (fun b : BuildConfig => (∀ f, b.rustflags = some f → ∃ t, Flags.de t = .ok f) ∧
        ∀ f, b.rustdocflags = some f → ∃ t, Flags.de t = .ok f) s.build
        ⟨(fun v h => by cases h), (fun v h => by cases h)⟩ ?_
      intro v y hy; obtain ⟨l, rfl, h1, h2, h3, h4, h5, h6, h7, h8, h9, h10, h11, h12, h13⟩ := BuildConfig.de_eq hy
      exact ⟨deField_prop h8 fun v _ h => ⟨v, h⟩, deField_prop h9 fun v _ h => ⟨v, h⟩⟩
    cases k with
    | alias k =>
      simp only [ListKey.get] at hk
      cases hx : BMap.get c.alias k with
      | none => rw [hx] at hk; cases hk
      | some e =>
        rw [hx] at hk
        obtain ⟨t, ht⟩ := (deSection_map s.alias).2 k e hx
        simp only [Option.map_some, Option.some.injEq, Prod.mk.injEq] at hk
        rw [← hk.2]
        exact words_of_vals (StringList.de_eq ht).1 hk.1
    | buildTarget => cases hs
    | buildRustflags => exact hfl hb.1 hk
    | buildRustdocflags => exact hfl hb.2 hk
    | targetRustflags k =>
      refine hfl ?_ hk
      intro f hf
      cases hx : BMap.get c.target k with
      | none => rw [hx] at hf; cases hf
      | some e =>
        rw [hx] at hf
        obtain ⟨t, ht⟩ := (deSection_map s.target).2 k e hx
        obtain ⟨l, rfl, h1, h2, h3, h4⟩ := TargetConfig.de_eq ht
        exact deField_prop (P := fun f => ∃ t, Flags.de t = .ok f) h3 (fun v _ h => ⟨v, h⟩) f hf
    | targetRustdocflags k =>
      refine hfl ?_ hk
      intro f hf
      cases hx : BMap.get c.target k with
      | none => rw [hx] at hf; cases hf
      | some e =>
        rw [hx] at hf
        obtain ⟨t, ht⟩ := (deSection_map s.target).2 k e hx
        obtain ⟨l, rfl, h1, h2, h3, h4⟩ := TargetConfig.de_eq ht
        exact deField_prop (P := fun f => ∃ t, Flags.de t = .ok f) h4 (fun v _ h => ⟨v, h⟩) f hf
  · intro k l hk
    have hfl : ∀ {o : Option PathAndArgs}, (∀ f, o = some f → ∃ t, PathAndArgs.de t = .ok f) →
        (o.map fun x => (x.repr, x.path :: x.args)) = some (.string, l) → ∀ v ∈ l, Word v.val := by
      intro o h1 h2
      cases o with
      | none => cases h2
      | some f =>
        obtain ⟨t, ht⟩ := h1 f rfl
        simp only [Option.map_some, Option.some.injEq, Prod.mk.injEq] at h2
        rw [← h2.2]
        exact words_of_vals (PathAndArgs.de_eq ht).1 h2.1
    cases k with
    | docBrowser =>
      refine hfl ?_ hk
      refine deSection_prop (fun b : DocConfig => ∀ f, b.browser = some f → ∃ t, PathAndArgs.de t = .ok f) s.doc
        (fun v h => by cases h) ?_
      intro v y hy; obtain ⟨l, rfl, h1⟩ := DocConfig.de_eq hy
      exact deField_prop h1 fun v _ h => ⟨v, h⟩
    | targetRunner k =>
      refine hfl ?_ hk
      intro f hf
      cases hx : BMap.get c.target k with
      | none => rw [hx] at hf; cases hf
      | some e =>
        rw [hx] at hf
        obtain ⟨t, ht⟩ := (deSection_map s.target).2 k e hx
        obtain ⟨l, rfl, h1, h2, h3, h4⟩ := TargetConfig.de_eq ht
        exact deField_prop (P := fun f => ∃ t, PathAndArgs.de t = .ok f) h2 (fun v _ h => ⟨v, h⟩) f hf

/-! ### Round trip -/

theorem BuildConfig.bare_default {x : BuildConfig} (h : x.isNone = true) : x.bare = {} := by
  obtain ⟨h1, h2, h3, h4, h5, h6, h7, h8, h9, h10, h11⟩ := (BuildConfig.isNone_iff x).1 h
  simp [BuildConfig.bare, h1, h2, h3, h4, h5, h6, h7, h8, h9, h10, h11]
theorem DocConfig.bare_default {x : DocConfig} (h : x.isNone = true) : x.bare = {} := by
  simp [DocConfig.bare, (DocConfig.isNone_iff x).1 h]
theorem FutureIncompatReportConfig.bare_default {x : FutureIncompatReportConfig} (h : x.isNone = true) : x.bare = {} := by
  simp [FutureIncompatReportConfig.bare, (FutureIncompatReportConfig.isNone_iff x).1 h]
theorem CargoNewConfig.bare_default {x : CargoNewConfig} (h : x.isNone = true) : x.bare = {} := by
  simp [CargoNewConfig.bare, (CargoNewConfig.isNone_iff x).1 h]
theorem HttpConfig.bare_default {x : HttpConfig} (h : x.isNone = true) : x.bare = {} := by
  obtain ⟨h1, h2, h3, h4, h5, h6, h7, h8⟩ := (HttpConfig.isNone_iff x).1 h
  simp [HttpConfig.bare, h1, h2, h3, h4, h5, h6, h7, h8]
theorem NetConfig.bare_default {x : NetConfig} (h : x.isNone = true) : x.bare = {} := by
  obtain ⟨h1, h2, h3⟩ := (NetConfig.isNone_iff x).1 h
  simp [NetConfig.bare, h1, h2, h3]
theorem RegistryConfig.bare_default {x : RegistryConfig} (h : x.isNone = true) : x.bare = {} := by
  obtain ⟨h1, h2⟩ := (RegistryConfig.isNone_iff x).1 h
  simp [RegistryConfig.bare, h1, h2]
theorem TermConfig.bare_default {x : TermConfig} (h : x.isNone = true) : x.bare = {} := by
  obtain ⟨h1, h2, h3, h4, h5⟩ := (TermConfig.isNone_iff x).1 h
  simp [TermConfig.bare, TermProgress.bare, h1, h2, h3, h4, h5]

theorem mapVals_bare_default {V : Type} {m : BMap V} {g : V → V} (h : m.isEmpty = true) : m.mapVals g = [] := by
  rw [List.isEmpty_iff] at h
  subst h; rfl

theorem Config.de_ser {c : Config} (h : c.Readable) : Config.de c.ser = .ok c.bare := by
  obtain ⟨l, hl, g1, g2, g3, g4, g5, g6, g7, g8, g9, g10, g11, g12⟩ := Config.ser_get c
  rw [hl]
  apply Config.de_of_sections
  have hprog : ∀ (k : ProgKey) (x : PathAndArgs), k.get c = some (x.repr, x.path :: x.args) →
      x.repr = .string → ∀ w ∈ x.path :: x.args, Word w.val := by
    intro k x hk hr
    rw [hr] at hk
    exact h.command k _ hk
  constructor
  · refine deSection_ser g1 mapVals_bare_default (deMap_ser h.wf.alias fun k v hv => StringList.de_ser fun hr => ?_)
    refine h.words (.alias k) v.list ?_ rfl
    simp only [ListKey.get, hv, Option.map_some, hr]
  · refine deSection_ser g2 BuildConfig.bare_default (BuildConfig.de_ser _ fun v hv => ?_)
    refine h.i32 .buildJobs v.val v.defn ?_
    simp only [ScalarKey.get, hv]; rfl
  · refine deSection_ser g3 DocConfig.bare_default (DocConfig.de_ser _ fun v hv => ?_)
    refine hprog .docBrowser v ?_
    simp only [ProgKey.get, hv]; rfl
  · exact deSection_ser g4 mapVals_bare_default (deMap_ser h.wf.env fun k v hv => EnvConfigValue.de_ser v)
  · exact deSection_ser g5 FutureIncompatReportConfig.bare_default (FutureIncompatReportConfig.de_ser _)
  · exact deSection_ser g6 CargoNewConfig.bare_default (CargoNewConfig.de_ser _)
  · refine deSection_ser g7 HttpConfig.bare_default (HttpConfig.de_ser _ (fun v hv => ?_) (fun v hv => ?_))
    · refine h.u32 .httpTimeout v.val v.defn ?_
      simp only [ScalarKey.get, hv]; rfl
    · refine h.u32 .httpLowSpeedLimit v.val v.defn ?_
      simp only [ScalarKey.get, hv]; rfl
  · refine deSection_ser g8 NetConfig.bare_default (NetConfig.de_ser _ (fun v hv => ?_))
    refine h.u32 .netRetry v.val v.defn ?_
    simp only [ScalarKey.get, hv]; rfl
  · exact deSection_ser g9 mapVals_bare_default (deMap_ser h.wf.registries fun k v hv => RegistriesConfigValue.de_ser v)
  · exact deSection_ser g10 RegistryConfig.bare_default (RegistryConfig.de_ser _)
  · refine deSection_ser g11 mapVals_bare_default (deMap_ser h.wf.target fun k v hv => TargetConfig.de_ser v fun x hx => ?_)
    refine hprog (.targetRunner k) x ?_
    simp only [ProgKey.get, hv, Option.bind_some, hx]; rfl
  · refine deSection_ser g12 TermConfig.bare_default (TermConfig.de_ser _ (fun v hv => ?_))
    refine h.u32 .termProgressWidth v.val v.defn ?_
    simp only [ScalarKey.get, hv]; rfl

/-! ### The settings of `Config.bare` -/

theorem map_bare_val {α : Type} (o : Option (Val α)) (g : α → Atom) :
    ((o.map Val.bare).map (Val.map g)).map Val.val = (o.map (Val.map g)).map Val.val := by
  cases o <;> rfl

theorem list_bare_val (l : List (Val Str)) : (l.map Val.bare).map Val.val = l.map Val.val := by
  simp only [List.map_map]; rfl

theorem scalar_bare (c : Config) (k : ScalarKey) : (k.get c.bare).map Val.val = (k.get c).map Val.val := by
  cases k with
  | envValue k =>
    simp only [ScalarKey.get, Config.bare, BMap.get_mapVals]
    cases BMap.get c.env k with
    | none => rfl
    | some e => cases e <;> rfl
  | envForce k =>
    simp only [ScalarKey.get, Config.bare, BMap.get_mapVals]
    cases BMap.get c.env k with
    | none => rfl
    | some e => cases e with
      | value v => rfl
      | table v f r => exact map_bare_val f _
  | envRelative k =>
    simp only [ScalarKey.get, Config.bare, BMap.get_mapVals]
    cases BMap.get c.env k with
    | none => rfl
    | some e => cases e with
      | value v => rfl
      | table v f r => exact map_bare_val r _
  | registriesIndex k =>
    simp only [ScalarKey.get, Config.bare, BMap.get_mapVals]
    cases BMap.get c.registries k with
    | none => rfl
    | some e => exact map_bare_val _ _
  | registriesToken k =>
    simp only [ScalarKey.get, Config.bare, BMap.get_mapVals]
    cases BMap.get c.registries k with
    | none => rfl
    | some e => exact map_bare_val _ _
  | registriesProtocol k =>
    simp only [ScalarKey.get, Config.bare, BMap.get_mapVals]
    cases BMap.get c.registries k with
    | none => rfl
    | some e => exact map_bare_val _ _
  | targetLinker k =>
    simp only [ScalarKey.get, Config.bare, BMap.get_mapVals]
    cases BMap.get c.target k with
    | none => rfl
    | some e => exact map_bare_val _ _
  | _ => exact map_bare_val _ _

theorem flags_bare (o : Option Flags) :
    ((o.map Flags.bare).map fun l => (l.repr, l.flags)).map listTexts
      = (o.map fun l => (l.repr, l.flags)).map fun x => (.array, x.2.map Val.val) := by
  cases o with
  | none => rfl
  | some f => simp only [Option.map_some, Flags.bare, listTexts, list_bare_val]

theorem list_bare (c : Config) (k : ListKey) : (k.get c.bare).map listTexts =
    (k.get c).map fun x => (if k.isFlags then .array else x.1, x.2.map Val.val) := by
  cases k with
  | alias k =>
    simp only [ListKey.get, Config.bare, BMap.get_mapVals]
    cases BMap.get c.alias k with
    | none => rfl
    | some e => simp only [Option.map_some, StringList.bare, listTexts, list_bare_val]; rfl
  | buildTarget =>
    simp only [ListKey.get, Config.bare, BuildConfig.bare]
    cases c.build.target with
    | none => rfl
    | some e => cases e with
      | string s => rfl
      | array l => simp only [Option.map_some, StringOrArray.bare, listTexts, list_bare_val]; rfl
  | buildRustflags => exact flags_bare _
  | buildRustdocflags => exact flags_bare _
  | targetRustflags k =>
    simp only [ListKey.get, Config.bare, BMap.get_mapVals]
    cases BMap.get c.target k with
    | none => rfl
    | some e => exact flags_bare _
  | targetRustdocflags k =>
    simp only [ListKey.get, Config.bare, BMap.get_mapVals]
    cases BMap.get c.target k with
    | none => rfl
    | some e => exact flags_bare _

theorem prog_bare (c : Config) (k : ProgKey) : (k.get c.bare).map listTexts = (k.get c).map listTexts := by
  have key : ∀ o : Option PathAndArgs, ((o.map PathAndArgs.bare).map fun x => (x.repr, x.path :: x.args)).map listTexts
      = (o.map fun x => (x.repr, x.path :: x.args)).map listTexts := by
    intro o
    cases o with
    | none => rfl
    | some x => simp only [Option.map_some, PathAndArgs.bare, listTexts, List.map_cons, list_bare_val]; rfl
  cases k with
  | docBrowser => exact key _
  | targetRunner k =>
    simp only [ProgKey.get, Config.bare, BMap.get_mapVals]
    cases BMap.get c.target k with
    | none => rfl
    | some e => exact key _

theorem entry_bare (c : Config) (k : TableKey) : k.present c.bare = k.present c := by
  cases k with
  | alias k => simp only [TableKey.present, Config.bare, BMap.get_mapVals]; cases BMap.get c.alias k <;> rfl
  | env k => simp only [TableKey.present, Config.bare, BMap.get_mapVals]; cases BMap.get c.env k <;> rfl
  | registries k => simp only [TableKey.present, Config.bare, BMap.get_mapVals]; cases BMap.get c.registries k <;> rfl
  | target k => simp only [TableKey.present, Config.bare, BMap.get_mapVals]; cases BMap.get c.target k <;> rfl

theorem envShape_bare (c : Config) (k : Str) : envShape c.bare k = envShape c k := by
  simp only [envShape, Config.bare, BMap.get_mapVals]
  cases BMap.get c.env k with
  | none => rfl
  | some e => cases e <;> rfl

end CC
