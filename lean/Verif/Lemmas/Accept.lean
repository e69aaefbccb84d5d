import Verif.Lemmas.SerdeRead
import Verif.Lemmas.Lists
/-
Which documents are read without an error.
-/
namespace CC

/-- `f` accepts the value. -/
def Accepted {α : Type} (f : Toml → Res α) (x : Toml) : Prop := ∃ a, f x = .ok a

theorem accepted_field {α : Type} {l : List (Str × Toml)} {k : String} {f : Toml → Res α}
    (h : ∀ x, BMap.get l k.toList = some x → Accepted f x) : ∃ o, deField l k f = .ok o := by
  unfold deField
  cases hg : BMap.get l k.toList with
  | none => exact ⟨_, rfl⟩
  | some x =>
    obtain ⟨a, ha⟩ := h x hg
    exact ⟨some a, by simp only [ha, Res.ok_bind]⟩

theorem accepted_section {α : Type} {l : List (Str × Toml)} {k : String} {d : α} {f : Toml → Res α}
    (h : ∀ x, BMap.get l k.toList = some x → Accepted f x) : ∃ o, deSection l k d f = .ok o := by
  unfold deSection
  cases hg : BMap.get l k.toList with
  | none => exact ⟨_, rfl⟩
  | some x => exact h x hg

theorem accepted_val {α : Type} {f : Toml → Res α} {x : Toml} (h : Accepted f x) : Accepted (deVal f) x := by
  obtain ⟨a, ha⟩ := h
  exact ⟨⟨a, none⟩, by simp only [deVal, ha, Res.ok_bind]⟩

theorem accepted_str {x : Toml} (h : ∃ s, x = .str s) : Accepted (deVal deStr) x := by
  obtain ⟨s, rfl⟩ := h
  exact accepted_val ⟨s, rfl⟩

theorem accepted_bool {x : Toml} (h : ∃ s, x = .bool s) : Accepted (deVal deBool) x := by
  obtain ⟨s, rfl⟩ := h
  exact accepted_val ⟨s, rfl⟩

theorem accepted_i32 {x : Toml} (h : ∃ i : Int, x = .int i ∧ -2 ^ 31 ≤ i ∧ i < 2 ^ 31) : Accepted (deVal deI32) x := by
  obtain ⟨i, rfl, h1, h2⟩ := h
  refine accepted_val ⟨i, ?_⟩
  have : -2147483648 ≤ i ∧ i ≤ 2147483647 := by omega
  simp only [deI32, if_pos this]

theorem accepted_u32 {x : Toml} (h : ∃ n : Nat, x = .int n ∧ n < 2 ^ 32) : Accepted (deVal deU32) x := by
  obtain ⟨n, rfl, h1⟩ := h
  refine accepted_val ⟨n, ?_⟩
  have : 0 ≤ (n : Int) ∧ (n : Int) ≤ 4294967295 := by omega
  simp only [deU32, if_pos this, Int.toNat_natCast]

theorem accepted_frequency {x : Toml} (h : x = .str "always".toList ∨ x = .str "never".toList) :
    Accepted (deVal Frequency.de) x := by
  rcases h with rfl | rfl <;> exact accepted_val ⟨_, rfl⟩

theorem accepted_vcs {x : Toml} (h : x = .str "git".toList ∨ x = .str "hg".toList ∨ x = .str "pijul".toList ∨
    x = .str "fossil".toList ∨ x = .str "none".toList) : Accepted (deVal Vcs.de) x := by
  rcases h with rfl | rfl | rfl | rfl | rfl <;> exact accepted_val ⟨_, rfl⟩

theorem accepted_protocol {x : Toml} (h : x = .str "git".toList ∨ x = .str "sparse".toList) :
    Accepted (deVal Protocol.de) x := by
  rcases h with rfl | rfl <;> exact accepted_val ⟨_, rfl⟩

theorem accepted_color {x : Toml} (h : x = .str "auto".toList ∨ x = .str "always".toList ∨ x = .str "never".toList) :
    Accepted (deVal Color.de) x := by
  rcases h with rfl | rfl | rfl <;> exact accepted_val ⟨_, rfl⟩

theorem accepted_when {x : Toml} (h : x = .str "auto".toList ∨ x = .str "always".toList ∨ x = .str "never".toList) :
    Accepted (deVal When.de) x := by
  rcases h with rfl | rfl | rfl <;> exact accepted_val ⟨_, rfl⟩

/-- A string or an array of strings. -/
def Listy (x : Toml) : Prop := (∃ s, x = .str s) ∨ ∃ ws : List Str, x = .arr (ws.map .str)

theorem deElems_map_str (ws : List Str) :
    deElems (deVal deStr) (ws.map .str) = .ok (ws.map fun w => { val := w, defn := none }) := by
  have := deElems_of_strs (ws.map fun w => { val := w, defn := none })
  simpa [List.map_map, Function.comp_def, serVal] using this

theorem stringOrArray_listy {x : Toml} (h : Listy x) :
    (∃ s, x = .str s ∧ StringOrArray.de x = .ok (.string ⟨s, none⟩)) ∨
    ∃ ws : List Str, x = .arr (ws.map .str) ∧
      StringOrArray.de x = .ok (.array (ws.map fun w => { val := w, defn := none })) := by
  rcases h with ⟨s, rfl⟩ | ⟨ws, rfl⟩
  · exact .inl ⟨s, rfl, rfl⟩
  · refine .inr ⟨ws, rfl, ?_⟩
    show (deElems (deVal deStr) (ws.map .str) >>= fun l => Res.ok (StringOrArray.array l)) = _
    rw [deElems_map_str, Res.ok_bind]

theorem accepted_stringOrArray {x : Toml} (h : Listy x) : Accepted StringOrArray.de x := by
  rcases stringOrArray_listy h with ⟨s, _, h⟩ | ⟨ws, _, h⟩ <;> exact ⟨_, h⟩

theorem accepted_flags {x : Toml} (h : Listy x) : Accepted Flags.de x := by
  unfold Accepted Flags.de
  rcases stringOrArray_listy h with ⟨s, _, h⟩ | ⟨ws, _, h⟩ <;> rw [h] <;> exact ⟨_, rfl⟩

theorem accepted_stringList {x : Toml} (h : Listy x) : Accepted StringList.de x := by
  unfold Accepted StringList.de
  rcases stringOrArray_listy h with ⟨s, _, h⟩ | ⟨ws, _, h⟩ <;> rw [h] <;> exact ⟨_, rfl⟩

/-- A command. -/
def Commandy (x : Toml) : Prop :=
  (∃ s, x = .str s ∧ ¬ Blank s) ∨ ∃ (w : Str) (ws : List Str), x = .arr ((w :: ws).map .str)

theorem accepted_command {x : Toml} (h : Commandy x) : Accepted PathAndArgs.de x := by
  unfold Accepted PathAndArgs.de
  rcases h with ⟨s, rfl, h⟩ | ⟨w, ws, rfl⟩
  · have h1 : splitSpaceSeparated s ≠ [] := fun e => h ((split_nil_iff s).1 e)
    show ∃ a, (Res.ok (StringOrArray.string ⟨s, none⟩) >>= _) = Res.ok a
    simp only [Res.ok_bind, PathAndArgs.fromString]
    cases hs : splitSpaceSeparated s with
    | nil => exact absurd hs h1
    | cons a as => exact ⟨_, rfl⟩
  · rcases stringOrArray_listy (x := .arr ((w :: ws).map .str)) (.inr ⟨w :: ws, rfl⟩) with ⟨s, h1, _⟩ | ⟨vs, h1, h2⟩
    · cases h1
    · rw [h2]
      cases vs with
      | nil => cases h1
      | cons v vs => exact ⟨_, rfl⟩

theorem command_accepted {x : Toml} {c : PathAndArgs} (h : PathAndArgs.de x = .ok c) : Commandy x := by
  simp only [PathAndArgs.de, Res.bind_eq_ok] at h
  obtain ⟨v, hv, h⟩ := h
  rcases StringOrArray.de_eq hv with ⟨s, rfl, rfl⟩ | ⟨vs, rfl, _, rfl⟩
  · refine .inl ⟨s, rfl, fun hb => ?_⟩
    simp only [PathAndArgs.fromString, (split_nil_iff s).2 hb] at h
    cases h
  · cases vs with
    | nil => cases h
    | cons v vs => exact .inr ⟨v.val, vs.map Val.val, rfl⟩

theorem accepted_entries {V : Type} {f : Toml → Res V} :
    ∀ {l : List (Str × Toml)} {m : BMap V}, (∀ e ∈ l, Accepted f e.2) → ∃ m', deEntries f m l = .ok m'
  | [], m, _ => ⟨m, rfl⟩
  | (k, x) :: l, m, h => by
    obtain ⟨a, ha⟩ := h _ (List.mem_cons_self ..)
    obtain ⟨m', hm⟩ := accepted_entries (l := l) (m := m.insert k a) (fun e he => h e (List.mem_cons_of_mem _ he))
    exact ⟨m', by simp only [deEntries]; rw [ha, Res.ok_bind, hm]⟩

theorem get_of_mem_nodup {V : Type} {l : List (Str × V)} (hd : (l.map Prod.fst).Nodup) {k : Str} {x : V}
    (h : (k, x) ∈ l) : BMap.get l k = some x := by
  induction l with
  | nil => cases h
  | cons e l ih =>
    obtain ⟨k', y⟩ := e
    rw [List.map_cons, List.nodup_cons] at hd
    unfold BMap.get
    rcases List.mem_cons.1 h with h | h
    · cases h; rw [if_pos rfl]
    · have hne : k' ≠ k := by
        rintro rfl
        exact hd.1 (List.mem_map.2 ⟨_, h, rfl⟩)
      rw [if_neg hne]
      exact ih hd.2 h

theorem accepted_map {V : Type} {f : Toml → Res V} {l : List (Str × Toml)} (hd : (l.map Prod.fst).Nodup)
    (h : ∀ k x, BMap.get l k = some x → Accepted f x) : Accepted (deMap f) (.tbl l) :=
  accepted_entries fun e he => h e.1 e.2 (get_of_mem_nodup hd he)

theorem accepted_BuildConfig {t : Toml} (h : t.IsConfig) {x : Toml} (hx : t.at ["build".toList] = some x) :
    Accepted BuildConfig.de x := by
  obtain ⟨l, rfl⟩ := h.sections ["build".toList] (by simp [sectionPaths]) x hx
  have below : ∀ (k : String) y, BMap.get l k.toList = some y → t.at ["build".toList, k.toList] = some y := by
    intro k y hy
    rw [show ["build".toList, k.toList] = ["build".toList] ++ [k.toList] from rfl, Toml.at_append, hx, Option.bind_some,
      Toml.at_tbl1, hy]
  obtain ⟨a0, h0⟩ := accepted_field (l := l) (k := "jobs") fun x hx => accepted_i32 (h.scalars (.buildJobs) x (below "jobs" x hx))
  obtain ⟨a1, h1⟩ := accepted_field (l := l) (k := "rustc") fun x hx => accepted_str (h.scalars (.buildRustc) x (below "rustc" x hx))
  obtain ⟨a2, h2⟩ := accepted_field (l := l) (k := "rustc-wrapper") fun x hx => accepted_str (h.scalars (.buildRustcWrapper) x (below "rustc-wrapper" x hx))
  obtain ⟨a3, h3⟩ := accepted_field (l := l) (k := "rustc-workspace-wrapper") fun x hx => accepted_str (h.scalars (.buildRustcWorkspaceWrapper) x (below "rustc-workspace-wrapper" x hx))
  obtain ⟨a4, h4⟩ := accepted_field (l := l) (k := "rustdoc") fun x hx => accepted_str (h.scalars (.buildRustdoc) x (below "rustdoc" x hx))
  obtain ⟨a5, h5⟩ := accepted_field (l := l) (k := "target") fun x hx => accepted_stringOrArray (h.lists (.buildTarget) x (below "target" x hx))
  obtain ⟨a6, h6⟩ := accepted_field (l := l) (k := "target-dir") fun x hx => accepted_str (h.scalars (.buildTargetDir) x (below "target-dir" x hx))
  obtain ⟨a7, h7⟩ := accepted_field (l := l) (k := "rustflags") fun x hx => accepted_flags (h.lists (.buildRustflags) x (below "rustflags" x hx))
  obtain ⟨a8, h8⟩ := accepted_field (l := l) (k := "rustdocflags") fun x hx => accepted_flags (h.lists (.buildRustdocflags) x (below "rustdocflags" x hx))
  obtain ⟨a9, h9⟩ := accepted_field (l := l) (k := "incremental") fun x hx => accepted_bool (h.scalars (.buildIncremental) x (below "incremental" x hx))
  obtain ⟨a10, h10⟩ := accepted_field (l := l) (k := "dep-info-basedir") fun x hx => accepted_str (h.scalars (.buildDepInfoBasedir) x (below "dep-info-basedir" x hx))
  exact ⟨_, by simp only [BuildConfig.de, h0, h1, h2, h3, h4, h5, h6, h7, h8, h9, h10, Res.ok_bind]; rfl⟩

theorem accepted_DocConfig {t : Toml} (h : t.IsConfig) {x : Toml} (hx : t.at ["doc".toList] = some x) :
    Accepted DocConfig.de x := by
  obtain ⟨l, rfl⟩ := h.sections ["doc".toList] (by simp [sectionPaths]) x hx
  have below : ∀ (k : String) y, BMap.get l k.toList = some y → t.at ["doc".toList, k.toList] = some y := by
    intro k y hy
    rw [show ["doc".toList, k.toList] = ["doc".toList] ++ [k.toList] from rfl, Toml.at_append, hx, Option.bind_some,
      Toml.at_tbl1, hy]
  obtain ⟨a0, h0⟩ := accepted_field (l := l) (k := "browser") fun x hx => accepted_command (h.commands (.docBrowser) x (below "browser" x hx))
  exact ⟨_, by simp only [DocConfig.de, h0, Res.ok_bind]; rfl⟩

theorem accepted_FutureIncompatReportConfig {t : Toml} (h : t.IsConfig) {x : Toml} (hx : t.at ["future-incompat-report".toList] = some x) :
    Accepted FutureIncompatReportConfig.de x := by
  obtain ⟨l, rfl⟩ := h.sections ["future-incompat-report".toList] (by simp [sectionPaths]) x hx
  have below : ∀ (k : String) y, BMap.get l k.toList = some y → t.at ["future-incompat-report".toList, k.toList] = some y := by
    intro k y hy
    rw [show ["future-incompat-report".toList, k.toList] = ["future-incompat-report".toList] ++ [k.toList] from rfl, Toml.at_append, hx, Option.bind_some,
      Toml.at_tbl1, hy]
  obtain ⟨a0, h0⟩ := accepted_field (l := l) (k := "frequency") fun x hx => accepted_frequency (h.scalars (.futureIncompatReportFrequency) x (below "frequency" x hx))
  exact ⟨_, by simp only [FutureIncompatReportConfig.de, h0, Res.ok_bind]; rfl⟩

theorem accepted_CargoNewConfig {t : Toml} (h : t.IsConfig) {x : Toml} (hx : t.at ["cargo-new".toList] = some x) :
    Accepted CargoNewConfig.de x := by
  obtain ⟨l, rfl⟩ := h.sections ["cargo-new".toList] (by simp [sectionPaths]) x hx
  have below : ∀ (k : String) y, BMap.get l k.toList = some y → t.at ["cargo-new".toList, k.toList] = some y := by
    intro k y hy
    rw [show ["cargo-new".toList, k.toList] = ["cargo-new".toList] ++ [k.toList] from rfl, Toml.at_append, hx, Option.bind_some,
      Toml.at_tbl1, hy]
  obtain ⟨a0, h0⟩ := accepted_field (l := l) (k := "vcs") fun x hx => accepted_vcs (h.scalars (.cargoNewVcs) x (below "vcs" x hx))
  exact ⟨_, by simp only [CargoNewConfig.de, h0, Res.ok_bind]; rfl⟩

theorem accepted_HttpConfig {t : Toml} (h : t.IsConfig) {x : Toml} (hx : t.at ["http".toList] = some x) :
    Accepted HttpConfig.de x := by
  obtain ⟨l, rfl⟩ := h.sections ["http".toList] (by simp [sectionPaths]) x hx
  have below : ∀ (k : String) y, BMap.get l k.toList = some y → t.at ["http".toList, k.toList] = some y := by
    intro k y hy
    rw [show ["http".toList, k.toList] = ["http".toList] ++ [k.toList] from rfl, Toml.at_append, hx, Option.bind_some,
      Toml.at_tbl1, hy]
  obtain ⟨a0, h0⟩ := accepted_field (l := l) (k := "debug") fun x hx => accepted_bool (h.scalars (.httpDebug) x (below "debug" x hx))
  obtain ⟨a1, h1⟩ := accepted_field (l := l) (k := "proxy") fun x hx => accepted_str (h.scalars (.httpProxy) x (below "proxy" x hx))
  obtain ⟨a2, h2⟩ := accepted_field (l := l) (k := "timeout") fun x hx => accepted_u32 (h.scalars (.httpTimeout) x (below "timeout" x hx))
  obtain ⟨a3, h3⟩ := accepted_field (l := l) (k := "cainfo") fun x hx => accepted_str (h.scalars (.httpCainfo) x (below "cainfo" x hx))
  obtain ⟨a4, h4⟩ := accepted_field (l := l) (k := "check-revoke") fun x hx => accepted_bool (h.scalars (.httpCheckRevoke) x (below "check-revoke" x hx))
  obtain ⟨a5, h5⟩ := accepted_field (l := l) (k := "low-speed-limit") fun x hx => accepted_u32 (h.scalars (.httpLowSpeedLimit) x (below "low-speed-limit" x hx))
  obtain ⟨a6, h6⟩ := accepted_field (l := l) (k := "multiplexing") fun x hx => accepted_bool (h.scalars (.httpMultiplexing) x (below "multiplexing" x hx))
  obtain ⟨a7, h7⟩ := accepted_field (l := l) (k := "user-agent") fun x hx => accepted_str (h.scalars (.httpUserAgent) x (below "user-agent" x hx))
  exact ⟨_, by simp only [HttpConfig.de, h0, h1, h2, h3, h4, h5, h6, h7, Res.ok_bind]; rfl⟩

theorem accepted_NetConfig {t : Toml} (h : t.IsConfig) {x : Toml} (hx : t.at ["net".toList] = some x) :
    Accepted NetConfig.de x := by
  obtain ⟨l, rfl⟩ := h.sections ["net".toList] (by simp [sectionPaths]) x hx
  have below : ∀ (k : String) y, BMap.get l k.toList = some y → t.at ["net".toList, k.toList] = some y := by
    intro k y hy
    rw [show ["net".toList, k.toList] = ["net".toList] ++ [k.toList] from rfl, Toml.at_append, hx, Option.bind_some,
      Toml.at_tbl1, hy]
  obtain ⟨a0, h0⟩ := accepted_field (l := l) (k := "retry") fun x hx => accepted_u32 (h.scalars (.netRetry) x (below "retry" x hx))
  obtain ⟨a1, h1⟩ := accepted_field (l := l) (k := "git-fetch-with-cli") fun x hx => accepted_bool (h.scalars (.netGitFetchWithCli) x (below "git-fetch-with-cli" x hx))
  obtain ⟨a2, h2⟩ := accepted_field (l := l) (k := "offline") fun x hx => accepted_bool (h.scalars (.netOffline) x (below "offline" x hx))
  exact ⟨_, by simp only [NetConfig.de, h0, h1, h2, Res.ok_bind]; rfl⟩

theorem accepted_RegistryConfig {t : Toml} (h : t.IsConfig) {x : Toml} (hx : t.at ["registry".toList] = some x) :
    Accepted RegistryConfig.de x := by
  obtain ⟨l, rfl⟩ := h.sections ["registry".toList] (by simp [sectionPaths]) x hx
  have below : ∀ (k : String) y, BMap.get l k.toList = some y → t.at ["registry".toList, k.toList] = some y := by
    intro k y hy
    rw [show ["registry".toList, k.toList] = ["registry".toList] ++ [k.toList] from rfl, Toml.at_append, hx, Option.bind_some,
      Toml.at_tbl1, hy]
  obtain ⟨a0, h0⟩ := accepted_field (l := l) (k := "default") fun x hx => accepted_str (h.scalars (.registryDefault) x (below "default" x hx))
  obtain ⟨a1, h1⟩ := accepted_field (l := l) (k := "token") fun x hx => accepted_str (h.scalars (.registryToken) x (below "token" x hx))
  exact ⟨_, by simp only [RegistryConfig.de, h0, h1, Res.ok_bind]; rfl⟩

theorem accepted_RegistriesConfigValue {t : Toml} (h : t.IsConfig) {key : Str} {x : Toml}
    (hx : t.at ["registries".toList, key] = some x) : Accepted RegistriesConfigValue.de x := by
  obtain ⟨l, rfl⟩ := h.registries key x hx
  have below : ∀ (k : String) y, BMap.get l k.toList = some y → t.at ["registries".toList, key, k.toList] = some y := by
    intro k y hy
    rw [show ["registries".toList, key, k.toList] = ["registries".toList, key] ++ [k.toList] from rfl, Toml.at_append, hx,
      Option.bind_some, Toml.at_tbl1, hy]
  obtain ⟨a0, h0⟩ := accepted_field (l := l) (k := "index") fun x hx => accepted_str (h.scalars (.registriesIndex key) x (below "index" x hx))
  obtain ⟨a1, h1⟩ := accepted_field (l := l) (k := "token") fun x hx => accepted_str (h.scalars (.registriesToken key) x (below "token" x hx))
  obtain ⟨a2, h2⟩ := accepted_field (l := l) (k := "protocol") fun x hx => accepted_protocol (h.scalars (.registriesProtocol key) x (below "protocol" x hx))
  exact ⟨_, by simp only [RegistriesConfigValue.de, h0, h1, h2, Res.ok_bind]; rfl⟩

theorem accepted_TargetConfig {t : Toml} (h : t.IsConfig) {key : Str} {x : Toml}
    (hx : t.at ["target".toList, key] = some x) : Accepted TargetConfig.de x := by
  obtain ⟨l, rfl⟩ := h.target key x hx
  have below : ∀ (k : String) y, BMap.get l k.toList = some y → t.at ["target".toList, key, k.toList] = some y := by
    intro k y hy
    rw [show ["target".toList, key, k.toList] = ["target".toList, key] ++ [k.toList] from rfl, Toml.at_append, hx,
      Option.bind_some, Toml.at_tbl1, hy]
  obtain ⟨a0, h0⟩ := accepted_field (l := l) (k := "linker") fun x hx => accepted_str (h.scalars (.targetLinker key) x (below "linker" x hx))
  obtain ⟨a1, h1⟩ := accepted_field (l := l) (k := "runner") fun x hx => accepted_command (h.commands (.targetRunner key) x (below "runner" x hx))
  obtain ⟨a2, h2⟩ := accepted_field (l := l) (k := "rustflags") fun x hx => accepted_flags (h.lists (.targetRustflags key) x (below "rustflags" x hx))
  obtain ⟨a3, h3⟩ := accepted_field (l := l) (k := "rustdocflags") fun x hx => accepted_flags (h.lists (.targetRustdocflags key) x (below "rustdocflags" x hx))
  exact ⟨_, by simp only [TargetConfig.de, h0, h1, h2, h3, Res.ok_bind]; rfl⟩

theorem accepted_TermProgress {t : Toml} (h : t.IsConfig) {x : Toml} (hx : t.at ["term".toList, "progress".toList] = some x) :
    Accepted TermProgress.de x := by
  obtain ⟨l, rfl⟩ := h.sections ["term".toList, "progress".toList] (by simp [sectionPaths]) x hx
  have below : ∀ (k : String) y, BMap.get l k.toList = some y →
      t.at ["term".toList, "progress".toList, k.toList] = some y := by
    intro k y hy
    rw [show ["term".toList, "progress".toList, k.toList] = ["term".toList, "progress".toList] ++ [k.toList] from rfl,
      Toml.at_append, hx, Option.bind_some, Toml.at_tbl1, hy]
  obtain ⟨a0, h0⟩ := accepted_field (l := l) (k := "when") fun x hx => accepted_when (h.scalars .termProgressWhen x (below "when" x hx))
  obtain ⟨a1, h1⟩ := accepted_field (l := l) (k := "width") fun x hx => accepted_u32 (h.scalars .termProgressWidth x (below "width" x hx))
  exact ⟨_, by simp only [TermProgress.de, h0, h1, Res.ok_bind]; rfl⟩

theorem accepted_TermConfig {t : Toml} (h : t.IsConfig) {x : Toml} (hx : t.at ["term".toList] = some x) :
    Accepted TermConfig.de x := by
  obtain ⟨l, rfl⟩ := h.sections ["term".toList] (by simp [sectionPaths]) x hx
  have below : ∀ (k : String) y, BMap.get l k.toList = some y → t.at ["term".toList, k.toList] = some y := by
    intro k y hy
    rw [show ["term".toList, k.toList] = ["term".toList] ++ [k.toList] from rfl, Toml.at_append, hx, Option.bind_some,
      Toml.at_tbl1, hy]
  obtain ⟨a0, h0⟩ := accepted_field (l := l) (k := "quiet") fun x hx => accepted_bool (h.scalars .termQuiet x (below "quiet" x hx))
  obtain ⟨a1, h1⟩ := accepted_field (l := l) (k := "verbose") fun x hx => accepted_bool (h.scalars .termVerbose x (below "verbose" x hx))
  obtain ⟨a2, h2⟩ := accepted_field (l := l) (k := "color") fun x hx => accepted_color (h.scalars .termColor x (below "color" x hx))
  obtain ⟨a3, h3⟩ := accepted_section (l := l) (k := "progress") (d := {}) fun x hx => accepted_TermProgress h (below "progress" x hx)
  exact ⟨_, by simp only [TermConfig.de, h0, h1, h2, h3, Res.ok_bind]; rfl⟩

theorem accepted_EnvConfigValue {t : Toml} (h : t.IsConfig) {key : Str} {x : Toml}
    (hx : t.at ["env".toList, key] = some x) : Accepted EnvConfigValue.de x := by
  have below : ∀ (k : String), t.at ["env".toList, key, k.toList] = x.at [k.toList] := by
    intro k
    rw [show ["env".toList, key, k.toList] = ["env".toList, key] ++ [k.toList] from rfl, Toml.at_append, hx, Option.bind_some]
  rcases h.env key x hx with ⟨s, rfl⟩ | ⟨v, hv⟩
  · exact ⟨_, rfl⟩
  · rw [below "value"] at hv
    cases x with
    | tbl l =>
      have he : t.envIsTable key = some true := by simp only [Toml.envIsTable, hx, Option.map_some]
      have hval : ∀ y, BMap.get l "value".toList = some y → ∃ s, y = .str s := by
        intro y hy
        refine h.scalars (.envValue key) y ?_
        simp only [ScalarKey.path, he, if_true]
        rw [below "value", Toml.at_tbl1, hy]
      rw [Toml.at_tbl1] at hv
      obtain ⟨s, rfl⟩ := hval v hv
      obtain ⟨a1, h1⟩ := accepted_field (l := l) (k := "force") fun x hx =>
        accepted_bool (h.scalars (.envForce key) x (by rw [ScalarKey.path, below "force", Toml.at_tbl1, hx]))
      obtain ⟨a2, h2⟩ := accepted_field (l := l) (k := "relative") fun x hx =>
        accepted_bool (h.scalars (.envRelative key) x (by rw [ScalarKey.path, below "relative", Toml.at_tbl1, hx]))
      have h0 : deField l "value" (deVal deStr) = .ok (some ⟨s, none⟩) := by
        unfold deField
        rw [hv]
        rfl
      exact ⟨_, by simp only [EnvConfigValue.de, h0, h1, h2, Res.ok_bind, Res.ofOption]; rfl⟩
    | _ => simp [Toml.at] at hv

theorem accepted_mapSection {V : Type} {f : Toml → Res V} {t : Toml} (h : t.IsConfig) (hd : t.DistinctKeys) (k : Str)
    (hk : [k] ∈ sectionPaths) (hf : ∀ key x, t.at [k, key] = some x → Accepted f x) {x : Toml} (hx : t.at [k] = some x) :
    Accepted (deMap f) x := by
  obtain ⟨l, rfl⟩ := h.sections [k] hk x hx
  refine accepted_map (hd _ _ hx) fun key y hy => hf key y ?_
  rw [show [k, key] = [k] ++ [key] from rfl, Toml.at_append, hx, Option.bind_some, Toml.at_tbl1, hy]

/-- A document that is a config is accepted. -/
theorem accepted_config {t : Toml} (h : t.IsConfig) (hd : t.DistinctKeys) : Accepted Config.de t := by
  obtain ⟨l, hl⟩ := h.table
  have at1 : ∀ (k : String) x, BMap.get l k.toList = some x → t.at [k.toList] = some x := by
    intro k x hx; rw [hl, Toml.at_tbl1, hx]
  obtain ⟨c1, h1⟩ := accepted_section (l := l) (k := "alias") (d := []) fun x hx =>
    accepted_mapSection (f := StringList.de) h hd _ (by simp [sectionPaths])
      (fun key y hy => accepted_stringList (h.lists (.alias key) y hy)) (at1 _ x hx)
  obtain ⟨c2, h2⟩ := accepted_section (l := l) (k := "build") (d := {}) fun x hx => accepted_BuildConfig h (at1 _ x hx)
  obtain ⟨c3, h3⟩ := accepted_section (l := l) (k := "doc") (d := {}) fun x hx => accepted_DocConfig h (at1 _ x hx)
  obtain ⟨c4, h4⟩ := accepted_section (l := l) (k := "env") (d := []) fun x hx =>
    accepted_mapSection (f := EnvConfigValue.de) h hd _ (by simp [sectionPaths])
      (fun key y hy => accepted_EnvConfigValue h hy) (at1 _ x hx)
  obtain ⟨c5, h5⟩ := accepted_section (l := l) (k := "future-incompat-report") (d := {}) fun x hx =>
    accepted_FutureIncompatReportConfig h (at1 _ x hx)
  obtain ⟨c6, h6⟩ := accepted_section (l := l) (k := "cargo-new") (d := {}) fun x hx => accepted_CargoNewConfig h (at1 _ x hx)
  obtain ⟨c7, h7⟩ := accepted_section (l := l) (k := "http") (d := {}) fun x hx => accepted_HttpConfig h (at1 _ x hx)
  obtain ⟨c8, h8⟩ := accepted_section (l := l) (k := "net") (d := {}) fun x hx => accepted_NetConfig h (at1 _ x hx)
  obtain ⟨c9, h9⟩ := accepted_section (l := l) (k := "registries") (d := []) fun x hx =>
    accepted_mapSection (f := RegistriesConfigValue.de) h hd _ (by simp [sectionPaths])
      (fun key y hy => accepted_RegistriesConfigValue h hy) (at1 _ x hx)
  obtain ⟨c10, h10⟩ := accepted_section (l := l) (k := "registry") (d := {}) fun x hx => accepted_RegistryConfig h (at1 _ x hx)
  obtain ⟨c11, h11⟩ := accepted_section (l := l) (k := "target") (d := []) fun x hx =>
    accepted_mapSection (f := TargetConfig.de) h hd _ (by simp [sectionPaths])
      (fun key y hy => accepted_TargetConfig h hy) (at1 _ x hx)
  obtain ⟨c12, h12⟩ := accepted_section (l := l) (k := "term") (d := {}) fun x hx => accepted_TermConfig h (at1 _ x hx)
  rw [hl]
  exact ⟨_, by simp only [Config.de, h1, h2, h3, h4, h5, h6, h7, h8, h9, h10, h11, h12, Res.ok_bind]; rfl⟩

/-! ### What was accepted is a config -/

theorem atom_nat_toml (n : Nat) : (Atom.nat n).toml = .int n := rfl

theorem takes_get {c : Config} (hr : c.Readable) (k : ScalarKey) {v : Val Atom} (h : k.get c = some v) :
    k.Takes v.val.toml := by
  have hi := hr.i32 k
  have hn := hr.u32 k
  obtain ⟨a, d⟩ := v
  cases k <;> simp only [ScalarKey.get, Option.map_eq_some_iff, Val.map, EnvConfigValue.theValue] at h <;>
    obtain ⟨⟨b, d'⟩, hb, he⟩ := h <;> cases he
  all_goals first
    | exact ⟨_, rfl⟩
    | (have := hi b d' (by simp [ScalarKey.get, hb, Val.map]); exact ⟨b, rfl, by have := this.1; omega, by have := this.2; omega⟩)
    | (have := hn b d' (by simp [ScalarKey.get, hb, Val.map]); exact ⟨b, rfl, by omega⟩)
    | (cases b <;> simp [ScalarKey.Takes, Atom.toml]; done)

theorem tbl_section {α : Type} {l : List (Str × Toml)} {k : String} {d x : α} {f : Toml → Res α} {y : Toml}
    (h : deSection l k d f = .ok x) (hy : (Toml.tbl l).at [k.toList] = some y) (hf : ∀ y x, f y = .ok x → ∃ l, y = .tbl l) :
    ∃ l, y = .tbl l := by
  rw [Toml.at_tbl1] at hy
  rcases deSection_inv h with ⟨h1, _⟩ | ⟨v, h1, h2⟩
  · rw [h1] at hy; cases hy
  · rw [h1] at hy; cases hy; exact hf _ _ h2

theorem deMap_tbl {V : Type} {f : Toml → Res V} (y : Toml) (m : BMap V) (h : deMap f y = .ok m) : ∃ l, y = .tbl l := by
  cases y with
  | tbl l => exact ⟨l, rfl⟩
  | _ => cases h

theorem config_accepted {t : Toml} {c : Config} (h : Config.de t = .ok c) (hd : t.DistinctKeys)
    (hr : c.Readable) : t.IsConfig := by
  obtain ⟨l, rfl, s⟩ := Config.de_eq h
  have hshape : envShape c = (Toml.tbl l).envIsTable := by
    funext k; exact envShape_read h hd k
  refine ⟨⟨l, rfl⟩, ?_, ?_, ?_, ?_, ?_, ?_, ?_⟩
  · intro p hp x hx
    simp only [sectionPaths, List.mem_cons, List.not_mem_nil, or_false] at hp
    rcases hp with rfl | rfl | rfl | rfl | rfl | rfl | rfl | rfl | rfl | rfl | rfl | rfl | rfl
    · exact tbl_section s.alias hx deMap_tbl
    · exact tbl_section s.build hx fun y x h => (BuildConfig.de_eq h).imp fun _ h => h.1
    · exact tbl_section s.doc hx fun y x h => (DocConfig.de_eq h).imp fun _ h => h.1
    · exact tbl_section s.env hx deMap_tbl
    · exact tbl_section s.futureIncompatReport hx fun y x h => (FutureIncompatReportConfig.de_eq h).imp fun _ h => h.1
    · exact tbl_section s.cargoNew hx fun y x h => (CargoNewConfig.de_eq h).imp fun _ h => h.1
    · exact tbl_section s.http hx fun y x h => (HttpConfig.de_eq h).imp fun _ h => h.1
    · exact tbl_section s.net hx fun y x h => (NetConfig.de_eq h).imp fun _ h => h.1
    · exact tbl_section s.registries hx deMap_tbl
    · exact tbl_section s.registry hx fun y x h => (RegistryConfig.de_eq h).imp fun _ h => h.1
    · exact tbl_section s.target hx deMap_tbl
    · exact tbl_section s.term hx fun y x h => (TermConfig.de_eq h).imp fun _ h => h.1
    · refine at_section (rest := ["progress".toList])
        (fun o (_ : TermConfig) => o = some x → ∃ l, x = .tbl l) s.term (fun h => by cases h) ?_ hx
      intro v y hy hx
      obtain ⟨l', rfl, _, _, _, h4⟩ := TermConfig.de_eq hy
      exact tbl_section h4 hx fun y x h => (TermProgress.de_eq h).imp fun _ h => h.1
  · intro k x hx
    refine at_map (rest := []) (fun o (_ : Option RegistriesConfigValue) => o = some x → ∃ l, x = .tbl l) hd s.registries
      (fun h => by cases h) ?_ k hx
    intro v y hy hx
    rw [Toml.at_nil] at hx
    cases hx
    exact (RegistriesConfigValue.de_eq hy).imp fun _ h => h.1
  · intro k x hx
    refine at_map (rest := []) (fun o (_ : Option TargetConfig) => o = some x → ∃ l, x = .tbl l) hd s.target
      (fun h => by cases h) ?_ k hx
    intro v y hy hx
    rw [Toml.at_nil] at hx
    cases hx
    exact (TargetConfig.de_eq hy).imp fun _ h => h.1
  · intro k x hx
    have key : (∃ s, x = .str s) ∨ ∃ l' v, x = .tbl l' ∧ BMap.get l' "value".toList = some v := by
      refine at_map (rest := []) (fun o (_ : Option EnvConfigValue) => o = some x →
        (∃ s, x = .str s) ∨ ∃ l' v, x = .tbl l' ∧ BMap.get l' "value".toList = some v) hd s.env
        (fun h => by cases h) ?_ k hx
      intro v y hy hx
      rw [Toml.at_nil] at hx
      cases hx
      rcases EnvConfigValue.de_eq hy with ⟨s, rfl, rfl⟩ | ⟨l', v, f, r, rfl, rfl, h1, h2, h3⟩
      · exact .inl ⟨s, rfl⟩
      · have h1 := deField_rel h1
        cases hg : BMap.get l' "value".toList with
        | none => rw [hg] at h1; cases h1
        | some w => exact .inr ⟨l', w, rfl, hg⟩
    rcases key with h1 | ⟨l', v, rfl, hv⟩
    · exact .inl h1
    · refine .inr ⟨v, ?_⟩
      rw [show ["env".toList, k, "value".toList] = ["env".toList, k] ++ ["value".toList] from rfl, Toml.at_append, hx,
        Option.bind_some, Toml.at_tbl1, hv]
  · intro k x hx
    have := scalar_read h hd k
    rw [hshape] at this
    rw [IsAt, hx] at this
    cases hg : k.get c with
    | none => rw [hg] at this; cases this
    | some v =>
      rw [hg] at this
      cases this
      exact takes_get hr k hg
  · intro k x hx
    have := list_read h hd k
    rw [SpellsAt, hx] at this
    generalize k.get c = o at this
    cases this with
    | @some _ x h =>
      obtain ⟨r, vs⟩ := x
      dsimp only at h
      generalize vs.map Val.val = ws at h
      cases h with
      | array ws => exact .inr ⟨_, rfl⟩
      | words s => exact .inl ⟨s, rfl⟩
      | whole s => exact .inl ⟨s, rfl⟩
  · intro k x hx
    cases k with
    | docBrowser =>
      refine at_section (rest := ["browser".toList]) (fun o (_ : DocConfig) => o = some x → Commandy x) s.doc
        (fun h => by cases h) ?_ hx
      intro v y hy hx
      obtain ⟨l', rfl, h1⟩ := DocConfig.de_eq hy
      rw [Toml.at_tbl1] at hx
      have h1 := deField_rel h1
      rw [hx] at h1
      generalize y.browser = o at h1
      cases h1 with
      | some h => exact command_accepted h
    | targetRunner k =>
      refine at_map (rest := ["runner".toList]) (fun o (_ : Option TargetConfig) => o = some x → Commandy x) hd s.target
        (fun h => by cases h) ?_ k hx
      intro v y hy hx
      obtain ⟨l', rfl, _, h1, _⟩ := TargetConfig.de_eq hy
      rw [Toml.at_tbl1] at hx
      have h1 := deField_rel h1
      rw [hx] at h1
      generalize y.runner = o at h1
      cases h1 with
      | some h => exact command_accepted h

/-! ### Reading does not panic -/

theorem deField_ne_panic {α : Type} (l : List (Str × Toml)) (k : String) {f : Toml → Res α} (h : ∀ x, f x ≠ .panic) :
    deField l k f ≠ .panic := by
  unfold deField
  cases BMap.get l k.toList with
  | none => nofun
  | some x => exact Res.bind_ne_panic (h x) fun _ _ => nofun

theorem deSection_ne_panic {α : Type} (l : List (Str × Toml)) (k : String) (d : α) {f : Toml → Res α}
    (h : ∀ x, f x ≠ .panic) : deSection l k d f ≠ .panic := by
  unfold deSection
  cases BMap.get l k.toList with
  | none => nofun
  | some x => exact h x

theorem deVal_ne_panic {α : Type} {f : Toml → Res α} (h : ∀ x, f x ≠ .panic) (x : Toml) : deVal f x ≠ .panic :=
  Res.bind_ne_panic (h x) fun _ _ => nofun

theorem deStr_ne_panic (x : Toml) : deStr x ≠ .panic := by cases x <;> nofun
theorem deBool_ne_panic (x : Toml) : deBool x ≠ .panic := by cases x <;> nofun
theorem deI32_ne_panic (x : Toml) : deI32 x ≠ .panic := by
  unfold deI32; split
  · split <;> nofun
  · nofun
theorem deU32_ne_panic (x : Toml) : deU32 x ≠ .panic := by
  unfold deU32; split
  · split <;> nofun
  · nofun

theorem deElems_ne_panic {α : Type} {f : Toml → Res α} (h : ∀ x, f x ≠ .panic) : ∀ l, deElems f l ≠ .panic
  | [] => nofun
  | _ :: l => Res.bind_ne_panic (h _) fun _ _ => Res.bind_ne_panic (deElems_ne_panic h l) fun _ _ => nofun

theorem deList_ne_panic (x : Toml) : deList x ≠ .panic := by
  cases x with
  | arr l => exact deElems_ne_panic (deVal_ne_panic deStr_ne_panic) l
  | _ => nofun

theorem deEntries_ne_panic {V : Type} {f : Toml → Res V} (h : ∀ x, f x ≠ .panic) : ∀ l (m : BMap V), deEntries f m l ≠ .panic
  | [], _ => nofun
  | _ :: l, _ => Res.bind_ne_panic (h _) fun _ _ => deEntries_ne_panic h l _

theorem deMap_ne_panic {V : Type} {f : Toml → Res V} (h : ∀ x, f x ≠ .panic) (x : Toml) : deMap f x ≠ .panic := by
  cases x with
  | tbl l => exact deEntries_ne_panic h l []
  | _ => nofun

theorem Vcs.de_ne_panic (x : Toml) : Vcs.de x ≠ .panic := by
  unfold Vcs.de
  split
  · repeat' split
    all_goals nofun
  · nofun

theorem Protocol.de_ne_panic (x : Toml) : Protocol.de x ≠ .panic := by
  unfold Protocol.de
  split
  · repeat' split
    all_goals nofun
  · nofun

theorem Color.de_ne_panic (x : Toml) : Color.de x ≠ .panic := by
  unfold Color.de
  split
  · repeat' split
    all_goals nofun
  · nofun

theorem When.de_ne_panic (x : Toml) : When.de x ≠ .panic := by
  unfold When.de
  split
  · repeat' split
    all_goals nofun
  · nofun

theorem Frequency.de_ne_panic (x : Toml) : Frequency.de x ≠ .panic := by
  unfold Frequency.de
  split
  · repeat' split
    all_goals nofun
  · nofun

theorem StringOrArray.de_ne_panic (x : Toml) : StringOrArray.de x ≠ .panic := by
  cases x with
  | str s => nofun
  | _ => exact Res.bind_ne_panic (deList_ne_panic _) fun _ _ => nofun

theorem Flags.de_ne_panic (x : Toml) : Flags.de x ≠ .panic :=
  Res.bind_ne_panic (StringOrArray.de_ne_panic x) fun v _ => by cases v <;> nofun

theorem StringList.de_ne_panic (x : Toml) : StringList.de x ≠ .panic :=
  Res.bind_ne_panic (StringOrArray.de_ne_panic x) fun v _ => by cases v <;> nofun

theorem PathAndArgs.de_ne_panic (x : Toml) : PathAndArgs.de x ≠ .panic :=
  Res.bind_ne_panic (StringOrArray.de_ne_panic x) fun v _ => by
    cases v with
    | string s => dsimp only; cases PathAndArgs.fromString s.val none <;> nofun
    | array l => dsimp only; cases PathAndArgs.fromArray l <;> nofun

theorem EnvConfigValue.de_ne_panic (x : Toml) : EnvConfigValue.de x ≠ .panic := by
  cases x with
  | tbl l =>
    refine Res.bind_ne_panic (deField_ne_panic _ _ (deVal_ne_panic deStr_ne_panic)) fun _ _ => ?_
    refine Res.bind_ne_panic (deField_ne_panic _ _ (deVal_ne_panic deBool_ne_panic)) fun _ _ => ?_
    refine Res.bind_ne_panic (deField_ne_panic _ _ (deVal_ne_panic deBool_ne_panic)) fun _ _ => ?_
    rename_i v _ _ _ _ _
    cases v <;> nofun
  | _ => nofun

theorem BuildConfig.de_ne_panic (x : Toml) : BuildConfig.de x ≠ .panic := by
  cases x with
  | tbl l =>
    refine Res.bind_ne_panic (deField_ne_panic _ _ (deVal_ne_panic deI32_ne_panic)) fun _ _ => ?_
    refine Res.bind_ne_panic (deField_ne_panic _ _ (deVal_ne_panic deStr_ne_panic)) fun _ _ => ?_
    refine Res.bind_ne_panic (deField_ne_panic _ _ (deVal_ne_panic deStr_ne_panic)) fun _ _ => ?_
    refine Res.bind_ne_panic (deField_ne_panic _ _ (deVal_ne_panic deStr_ne_panic)) fun _ _ => ?_
    refine Res.bind_ne_panic (deField_ne_panic _ _ (deVal_ne_panic deStr_ne_panic)) fun _ _ => ?_
    refine Res.bind_ne_panic (deField_ne_panic _ _ StringOrArray.de_ne_panic) fun _ _ => ?_
    refine Res.bind_ne_panic (deField_ne_panic _ _ (deVal_ne_panic deStr_ne_panic)) fun _ _ => ?_
    refine Res.bind_ne_panic (deField_ne_panic _ _ Flags.de_ne_panic) fun _ _ => ?_
    refine Res.bind_ne_panic (deField_ne_panic _ _ Flags.de_ne_panic) fun _ _ => ?_
    refine Res.bind_ne_panic (deField_ne_panic _ _ (deVal_ne_panic deBool_ne_panic)) fun _ _ => ?_
    refine Res.bind_ne_panic (deField_ne_panic _ _ (deVal_ne_panic deStr_ne_panic)) fun _ _ => ?_
    nofun
  | _ => nofun

theorem TargetConfig.de_ne_panic (x : Toml) : TargetConfig.de x ≠ .panic := by
  cases x with
  | tbl l =>
    refine Res.bind_ne_panic (deField_ne_panic _ _ (deVal_ne_panic deStr_ne_panic)) fun _ _ => ?_
    refine Res.bind_ne_panic (deField_ne_panic _ _ PathAndArgs.de_ne_panic) fun _ _ => ?_
    refine Res.bind_ne_panic (deField_ne_panic _ _ Flags.de_ne_panic) fun _ _ => ?_
    refine Res.bind_ne_panic (deField_ne_panic _ _ Flags.de_ne_panic) fun _ _ => ?_
    nofun
  | _ => nofun

theorem DocConfig.de_ne_panic (x : Toml) : DocConfig.de x ≠ .panic := by
  cases x with
  | tbl l =>
    refine Res.bind_ne_panic (deField_ne_panic _ _ PathAndArgs.de_ne_panic) fun _ _ => ?_
    nofun
  | _ => nofun

theorem FutureIncompatReportConfig.de_ne_panic (x : Toml) : FutureIncompatReportConfig.de x ≠ .panic := by
  cases x with
  | tbl l =>
    refine Res.bind_ne_panic (deField_ne_panic _ _ (deVal_ne_panic Frequency.de_ne_panic)) fun _ _ => ?_
    nofun
  | _ => nofun

theorem CargoNewConfig.de_ne_panic (x : Toml) : CargoNewConfig.de x ≠ .panic := by
  cases x with
  | tbl l =>
    refine Res.bind_ne_panic (deField_ne_panic _ _ (deVal_ne_panic Vcs.de_ne_panic)) fun _ _ => ?_
    nofun
  | _ => nofun

theorem HttpConfig.de_ne_panic (x : Toml) : HttpConfig.de x ≠ .panic := by
  cases x with
  | tbl l =>
    refine Res.bind_ne_panic (deField_ne_panic _ _ (deVal_ne_panic deBool_ne_panic)) fun _ _ => ?_
    refine Res.bind_ne_panic (deField_ne_panic _ _ (deVal_ne_panic deStr_ne_panic)) fun _ _ => ?_
    refine Res.bind_ne_panic (deField_ne_panic _ _ (deVal_ne_panic deU32_ne_panic)) fun _ _ => ?_
    refine Res.bind_ne_panic (deField_ne_panic _ _ (deVal_ne_panic deStr_ne_panic)) fun _ _ => ?_
    refine Res.bind_ne_panic (deField_ne_panic _ _ (deVal_ne_panic deBool_ne_panic)) fun _ _ => ?_
    refine Res.bind_ne_panic (deField_ne_panic _ _ (deVal_ne_panic deU32_ne_panic)) fun _ _ => ?_
    refine Res.bind_ne_panic (deField_ne_panic _ _ (deVal_ne_panic deBool_ne_panic)) fun _ _ => ?_
    refine Res.bind_ne_panic (deField_ne_panic _ _ (deVal_ne_panic deStr_ne_panic)) fun _ _ => ?_
    nofun
  | _ => nofun

theorem NetConfig.de_ne_panic (x : Toml) : NetConfig.de x ≠ .panic := by
  cases x with
  | tbl l =>
    refine Res.bind_ne_panic (deField_ne_panic _ _ (deVal_ne_panic deU32_ne_panic)) fun _ _ => ?_
    refine Res.bind_ne_panic (deField_ne_panic _ _ (deVal_ne_panic deBool_ne_panic)) fun _ _ => ?_
    refine Res.bind_ne_panic (deField_ne_panic _ _ (deVal_ne_panic deBool_ne_panic)) fun _ _ => ?_
    nofun
  | _ => nofun

theorem RegistriesConfigValue.de_ne_panic (x : Toml) : RegistriesConfigValue.de x ≠ .panic := by
  cases x with
  | tbl l =>
    refine Res.bind_ne_panic (deField_ne_panic _ _ (deVal_ne_panic deStr_ne_panic)) fun _ _ => ?_
    refine Res.bind_ne_panic (deField_ne_panic _ _ (deVal_ne_panic deStr_ne_panic)) fun _ _ => ?_
    refine Res.bind_ne_panic (deField_ne_panic _ _ (deVal_ne_panic Protocol.de_ne_panic)) fun _ _ => ?_
    nofun
  | _ => nofun

theorem RegistryConfig.de_ne_panic (x : Toml) : RegistryConfig.de x ≠ .panic := by
  cases x with
  | tbl l =>
    refine Res.bind_ne_panic (deField_ne_panic _ _ (deVal_ne_panic deStr_ne_panic)) fun _ _ => ?_
    refine Res.bind_ne_panic (deField_ne_panic _ _ (deVal_ne_panic deStr_ne_panic)) fun _ _ => ?_
    nofun
  | _ => nofun

theorem TermProgress.de_ne_panic (x : Toml) : TermProgress.de x ≠ .panic := by
  cases x with
  | tbl l =>
    refine Res.bind_ne_panic (deField_ne_panic _ _ (deVal_ne_panic When.de_ne_panic)) fun _ _ => ?_
    refine Res.bind_ne_panic (deField_ne_panic _ _ (deVal_ne_panic deU32_ne_panic)) fun _ _ => ?_
    nofun
  | _ => nofun

theorem TermConfig.de_ne_panic (x : Toml) : TermConfig.de x ≠ .panic := by
  cases x with
  | tbl l =>
    refine Res.bind_ne_panic (deField_ne_panic _ _ (deVal_ne_panic deBool_ne_panic)) fun _ _ => ?_
    refine Res.bind_ne_panic (deField_ne_panic _ _ (deVal_ne_panic deBool_ne_panic)) fun _ _ => ?_
    refine Res.bind_ne_panic (deField_ne_panic _ _ (deVal_ne_panic Color.de_ne_panic)) fun _ _ => ?_
    refine Res.bind_ne_panic (deSection_ne_panic _ _ _ TermProgress.de_ne_panic) fun _ _ => ?_
    nofun
  | _ => nofun

theorem Config.de_ne_panic (x : Toml) : Config.de x ≠ .panic := by
  cases x with
  | tbl l =>
    refine Res.bind_ne_panic (deSection_ne_panic _ _ _ (deMap_ne_panic StringList.de_ne_panic)) fun _ _ => ?_
    refine Res.bind_ne_panic (deSection_ne_panic _ _ _ BuildConfig.de_ne_panic) fun _ _ => ?_
    refine Res.bind_ne_panic (deSection_ne_panic _ _ _ DocConfig.de_ne_panic) fun _ _ => ?_
    refine Res.bind_ne_panic (deSection_ne_panic _ _ _ (deMap_ne_panic EnvConfigValue.de_ne_panic)) fun _ _ => ?_
    refine Res.bind_ne_panic (deSection_ne_panic _ _ _ FutureIncompatReportConfig.de_ne_panic) fun _ _ => ?_
    refine Res.bind_ne_panic (deSection_ne_panic _ _ _ CargoNewConfig.de_ne_panic) fun _ _ => ?_
    refine Res.bind_ne_panic (deSection_ne_panic _ _ _ HttpConfig.de_ne_panic) fun _ _ => ?_
    refine Res.bind_ne_panic (deSection_ne_panic _ _ _ NetConfig.de_ne_panic) fun _ _ => ?_
    refine Res.bind_ne_panic (deSection_ne_panic _ _ _ (deMap_ne_panic RegistriesConfigValue.de_ne_panic)) fun _ _ => ?_
    refine Res.bind_ne_panic (deSection_ne_panic _ _ _ RegistryConfig.de_ne_panic) fun _ _ => ?_
    refine Res.bind_ne_panic (deSection_ne_panic _ _ _ (deMap_ne_panic TargetConfig.de_ne_panic)) fun _ _ => ?_
    refine Res.bind_ne_panic (deSection_ne_panic _ _ _ TermConfig.de_ne_panic) fun _ _ => ?_
    nofun
  | _ => nofun

end CC
