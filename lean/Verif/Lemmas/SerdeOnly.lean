import Verif.Lemmas.SerdePaths
/-
Lemmas for C52: the written document has nothing but the settings.
-/
namespace CC

/-- Not a table. -/
def Toml.NotTable (t : Toml) : Prop := ∀ l, t ≠ .tbl l

/-- The place of a setting. -/
def PlaceIn (sh : Str → Option Bool) (p : List Str) : Prop :=
  (∃ k : ScalarKey, p = k.path sh) ∨ (∃ k : ListKey, p = k.path) ∨ ∃ k : ProgKey, p = k.path

/-- What is at the place `p`: a setting, or a table that may be there. -/
def WrittenOk (sh : Str → Option Bool) (p : List Str) (t : Toml) : Prop :=
  t.NotTable ∧ PlaceIn sh p ∨ (∃ l, t = .tbl l) ∧ (p.length ≤ 1 ∨ (∃ k : TableKey, p = k.path) ∨ p = ["term".toList, "progress".toList])

theorem at_notTable {t : Toml} (ht : t.NotTable) {q : List Str} {v : Toml} (h : t.at q = some v) : q = [] ∧ v = t := by
  cases q with
  | nil => cases h; exact ⟨rfl, rfl⟩
  | cons s q =>
    cases t with
    | tbl l => exact absurd rfl (ht l)
    | _ => cases h

/-- A table: each entry is in order at its place. -/
theorem at_table {pre : List Str} {P : List Str → Toml → Prop} {l : List (Str × Toml)} (h0 : P pre (.tbl l))
    (h : ∀ x ∈ l, ∀ q v, x.2.at q = some v → P (pre ++ x.1 :: q) v) {q : List Str} {v : Toml} (hv : (Toml.tbl l).at q = some v) :
    P (pre ++ q) v := by
  cases q with
  | nil => cases hv; rw [List.append_nil]; exact h0
  | cons s q =>
    obtain ⟨t, ht, hv⟩ := Option.bind_eq_some_iff.1 hv
    exact h (s, t) (BMap.mem_of_get ht) q v hv

theorem forall_field {α : Type} {k : String} {o : Option α} {f : α → Toml} {P : Str × Toml → Prop} (h : ∀ a, P (k.toList, f a)) :
    ∀ x ∈ serField k o f, P x := by
  intro x hx
  cases o with
  | none => cases hx
  | some a => rw [List.mem_singleton.1 hx]; exact h a

theorem forall_section {k : String} {b : Bool} {t : Toml} {P : Str × Toml → Prop} (h : P (k.toList, t)) :
    ∀ x ∈ serSection k b t, P x := by
  intro x hx
  unfold serSection at hx
  split at hx
  · cases hx
  · rw [List.mem_singleton.1 hx]; exact h

theorem forall_map {V : Type} {f : V → Toml} {m : BMap V} {P : Str × Toml → Prop} (h : ∀ k v, (k, v) ∈ m → P (k, f v)) :
    ∀ x ∈ m.mapVals f, P x := by
  intro x hx
  obtain ⟨y, hy, rfl⟩ := List.mem_map.1 hx
  exact h y.1 y.2 hy

/-- A setting that is not a table. -/
theorem leaf_ok {sh : Str → Option Bool} {pre : List Str} {k : Str} {t : Toml} (ht : t.NotTable) (hp : PlaceIn sh (pre ++ [k])) :
    ∀ q v, t.at q = some v → WrittenOk sh (pre ++ k :: q) v := by
  intro q v h
  obtain ⟨rfl, rfl⟩ := at_notTable ht h
  exact .inl ⟨ht, hp⟩

theorem Flags.ser_notTable (x : Flags) : x.ser.NotTable := fun _ h => by cases h
theorem StringList.ser_notTable (x : StringList) : x.ser.NotTable := fun _ h => by
  unfold StringList.ser at h; split at h <;> cases h
theorem PathAndArgs.ser_notTable (x : PathAndArgs) : x.ser.NotTable := fun _ h => by
  unfold PathAndArgs.ser at h; split at h <;> cases h
theorem StringOrArray.ser_notTable (x : StringOrArray) : x.ser.NotTable := fun _ h => by
  cases x <;> cases h

section
variable {sh : Str → Option Bool}

/-- Closes the goal for a field with a single value. -/
macro "scalar_at" k:term : tactic =>
  `(tactic| exact forall_field fun _ => leaf_ok (fun _ h => by cases h) (.inl ⟨$k, rfl⟩))
/-- Closes the goal for a field with a list. -/
macro "list_at" k:term ", " h:term : tactic => `(tactic| exact forall_field fun x => leaf_ok ($h x) (.inr (.inl ⟨$k, rfl⟩)))
/-- Closes the goal for a field with a command. -/
macro "prog_at" k:term ", " h:term : tactic => `(tactic| exact forall_field fun x => leaf_ok ($h x) (.inr (.inr ⟨$k, rfl⟩)))

theorem BuildConfig.ser_only (x : BuildConfig) : ∀ q v, x.ser.at q = some v → WrittenOk sh ("build".toList :: q) v := by
  intro q v h
  refine at_table (pre := ["build".toList]) (.inr ⟨⟨_, rfl⟩, .inl (Nat.le_refl 1)⟩) ?_ h
  simp only [List.forall_mem_append]
  refine ⟨⟨⟨⟨⟨⟨⟨⟨⟨⟨?_, ?_⟩, ?_⟩, ?_⟩, ?_⟩, ?_⟩, ?_⟩, ?_⟩, ?_⟩, ?_⟩, ?_⟩
  · scalar_at .buildJobs
  · scalar_at .buildRustc
  · scalar_at .buildRustcWrapper
  · scalar_at .buildRustcWorkspaceWrapper
  · scalar_at .buildRustdoc
  · list_at .buildTarget, StringOrArray.ser_notTable
  · scalar_at .buildTargetDir
  · list_at .buildRustflags, Flags.ser_notTable
  · list_at .buildRustdocflags, Flags.ser_notTable
  · scalar_at .buildIncremental
  · scalar_at .buildDepInfoBasedir

theorem TargetConfig.ser_only (k : Str) (x : TargetConfig) : ∀ q v, x.ser.at q = some v → WrittenOk sh ("target".toList :: k :: q) v := by
  intro q v h
  refine at_table (pre := ["target".toList, k]) (.inr ⟨⟨_, rfl⟩, .inr (.inl ⟨.target k, rfl⟩)⟩) ?_ h
  simp only [List.forall_mem_append]
  refine ⟨⟨⟨?_, ?_⟩, ?_⟩, ?_⟩
  · scalar_at (.targetLinker k)
  · prog_at (.targetRunner k), PathAndArgs.ser_notTable
  · list_at (.targetRustflags k), Flags.ser_notTable
  · list_at (.targetRustdocflags k), Flags.ser_notTable

theorem DocConfig.ser_only (x : DocConfig) : ∀ q v, x.ser.at q = some v → WrittenOk sh ("doc".toList :: q) v := by
  intro q v h
  refine at_table (pre := ["doc".toList]) (.inr ⟨⟨_, rfl⟩, .inl (Nat.le_refl 1)⟩) ?_ h
  prog_at .docBrowser, PathAndArgs.ser_notTable

theorem FutureIncompatReportConfig.ser_only (x : FutureIncompatReportConfig) :
    ∀ q v, x.ser.at q = some v → WrittenOk sh ("future-incompat-report".toList :: q) v := by
  intro q v h
  refine at_table (pre := ["future-incompat-report".toList]) (.inr ⟨⟨_, rfl⟩, .inl (Nat.le_refl 1)⟩) ?_ h
  scalar_at .futureIncompatReportFrequency

theorem CargoNewConfig.ser_only (x : CargoNewConfig) : ∀ q v, x.ser.at q = some v → WrittenOk sh ("cargo-new".toList :: q) v := by
  intro q v h
  refine at_table (pre := ["cargo-new".toList]) (.inr ⟨⟨_, rfl⟩, .inl (Nat.le_refl 1)⟩) ?_ h
  scalar_at .cargoNewVcs

theorem HttpConfig.ser_only (x : HttpConfig) : ∀ q v, x.ser.at q = some v → WrittenOk sh ("http".toList :: q) v := by
  intro q v h
  refine at_table (pre := ["http".toList]) (.inr ⟨⟨_, rfl⟩, .inl (Nat.le_refl 1)⟩) ?_ h
  simp only [List.forall_mem_append]
  refine ⟨⟨⟨⟨⟨⟨⟨?_, ?_⟩, ?_⟩, ?_⟩, ?_⟩, ?_⟩, ?_⟩, ?_⟩
  · scalar_at .httpDebug
  · scalar_at .httpProxy
  · scalar_at .httpTimeout
  · scalar_at .httpCainfo
  · scalar_at .httpCheckRevoke
  · scalar_at .httpLowSpeedLimit
  · scalar_at .httpMultiplexing
  · scalar_at .httpUserAgent

theorem NetConfig.ser_only (x : NetConfig) : ∀ q v, x.ser.at q = some v → WrittenOk sh ("net".toList :: q) v := by
  intro q v h
  refine at_table (pre := ["net".toList]) (.inr ⟨⟨_, rfl⟩, .inl (Nat.le_refl 1)⟩) ?_ h
  simp only [List.forall_mem_append]
  refine ⟨⟨?_, ?_⟩, ?_⟩
  · scalar_at .netRetry
  · scalar_at .netGitFetchWithCli
  · scalar_at .netOffline

theorem RegistriesConfigValue.ser_only (k : Str) (x : RegistriesConfigValue) :
    ∀ q v, x.ser.at q = some v → WrittenOk sh ("registries".toList :: k :: q) v := by
  intro q v h
  refine at_table (pre := ["registries".toList, k]) (.inr ⟨⟨_, rfl⟩, .inr (.inl ⟨.registries k, rfl⟩)⟩) ?_ h
  simp only [List.forall_mem_append]
  refine ⟨⟨?_, ?_⟩, ?_⟩
  · scalar_at (.registriesIndex k)
  · scalar_at (.registriesToken k)
  · scalar_at (.registriesProtocol k)

theorem RegistryConfig.ser_only (x : RegistryConfig) : ∀ q v, x.ser.at q = some v → WrittenOk sh ("registry".toList :: q) v := by
  intro q v h
  refine at_table (pre := ["registry".toList]) (.inr ⟨⟨_, rfl⟩, .inl (Nat.le_refl 1)⟩) ?_ h
  simp only [List.forall_mem_append]
  refine ⟨?_, ?_⟩
  · scalar_at .registryDefault
  · scalar_at .registryToken

theorem TermProgress.ser_only (x : TermProgress) :
    ∀ q v, x.ser.at q = some v → WrittenOk sh ("term".toList :: "progress".toList :: q) v := by
  intro q v h
  refine at_table (pre := ["term".toList, "progress".toList]) (.inr ⟨⟨_, rfl⟩, .inr (.inr rfl)⟩) ?_ h
  simp only [List.forall_mem_append]
  refine ⟨?_, ?_⟩
  · scalar_at .termProgressWhen
  · scalar_at .termProgressWidth

theorem TermConfig.ser_only (x : TermConfig) : ∀ q v, x.ser.at q = some v → WrittenOk sh ("term".toList :: q) v := by
  intro q v h
  refine at_table (pre := ["term".toList]) (.inr ⟨⟨_, rfl⟩, .inl (Nat.le_refl 1)⟩) ?_ h
  simp only [List.forall_mem_append]
  refine ⟨⟨⟨?_, ?_⟩, ?_⟩, ?_⟩
  · scalar_at .termQuiet
  · scalar_at .termVerbose
  · scalar_at .termColor
  · exact forall_section fun q v h => x.progress.ser_only q v h

theorem EnvConfigValue.ser_only (k : Str) (x : EnvConfigValue) (hx : sh k = some x.isTable) :
    ∀ q v, x.ser.at q = some v → WrittenOk sh ("env".toList :: k :: q) v := by
  intro q v h
  cases x with
  | value s =>
    refine leaf_ok (pre := ["env".toList]) (fun _ h => by cases h) (.inl ⟨.envValue k, ?_⟩) q v h
    show _ = ScalarKey.path sh (.envValue k)
    simp only [ScalarKey.path]
    rw [if_neg (by rw [hx]; simp [EnvConfigValue.isTable])]
    rfl
  | table s f r =>
    refine at_table (pre := ["env".toList, k]) (.inr ⟨⟨_, rfl⟩, .inr (.inl ⟨.env k, rfl⟩)⟩) ?_ h
    simp only [List.forall_mem_append, List.forall_mem_singleton]
    refine ⟨⟨?_, ?_⟩, ?_⟩
    · refine leaf_ok (pre := ["env".toList, k]) (fun _ h => by cases h) (.inl ⟨.envValue k, ?_⟩)
      simp only [ScalarKey.path]
      rw [if_pos (show sh k = some true from hx)]
      rfl
    · scalar_at (.envForce k)
    · scalar_at (.envRelative k)

theorem map_only {V : Type} {s : String} {f : V → Toml} {m : BMap V}
    (h : ∀ k v, (k, v) ∈ m → ∀ q t, (f v).at q = some t → WrittenOk sh (s.toList :: k :: q) t) :
    ∀ q v, (serMap f m).at q = some v → WrittenOk sh (s.toList :: q) v := by
  intro q v hv
  exact at_table (pre := [s.toList]) (.inr ⟨⟨_, rfl⟩, .inl (Nat.le_refl 1)⟩) (forall_map h) hv
end

theorem Config.ser_only {c : Config} (he : c.env.Sorted) : ∀ q v, c.ser.at q = some v → WrittenOk (envShape c) q v := by
  intro q v h
  refine at_table (pre := []) (.inr ⟨⟨_, rfl⟩, .inl (Nat.zero_le 1)⟩) ?_ h
  simp only [List.forall_mem_append]
  refine ⟨⟨⟨⟨⟨⟨⟨⟨⟨⟨⟨?_, ?_⟩, ?_⟩, ?_⟩, ?_⟩, ?_⟩, ?_⟩, ?_⟩, ?_⟩, ?_⟩, ?_⟩, ?_⟩
  · exact forall_section (map_only fun k x _ => leaf_ok (pre := ["alias".toList]) x.ser_notTable (.inr (.inl ⟨.alias k, rfl⟩)))
  · exact forall_section c.build.ser_only
  · exact forall_section c.doc.ser_only
  · exact forall_section (map_only fun k x hm => x.ser_only k (by unfold envShape; rw [BMap.get_of_mem he hm]; rfl))
  · exact forall_section c.futureIncompatReport.ser_only
  · exact forall_section c.cargoNew.ser_only
  · exact forall_section c.http.ser_only
  · exact forall_section c.net.ser_only
  · exact forall_section (map_only fun k x _ => x.ser_only k)
  · exact forall_section c.registry.ser_only
  · exact forall_section (map_only fun k x _ => x.ser_only k)
  · exact forall_section c.term.ser_only

end CC
