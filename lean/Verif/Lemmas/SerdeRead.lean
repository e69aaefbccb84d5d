import Verif.Lemmas.Serde
/-
What each section reads.
-/
namespace CC

theorem BuildConfig.de_eq {t : Toml} {b : BuildConfig} (h : BuildConfig.de t = .ok b) :
    ∃ l, t = .tbl l ∧ deField l "jobs" (deVal deI32) = .ok b.jobs ∧ deField l "rustc" (deVal deStr) = .ok b.rustc ∧
      deField l "rustc-wrapper" (deVal deStr) = .ok b.rustcWrapper ∧
      deField l "rustc-workspace-wrapper" (deVal deStr) = .ok b.rustcWorkspaceWrapper ∧
      deField l "rustdoc" (deVal deStr) = .ok b.rustdoc ∧ deField l "target" StringOrArray.de = .ok b.target ∧
      deField l "target-dir" (deVal deStr) = .ok b.targetDir ∧ deField l "rustflags" Flags.de = .ok b.rustflags ∧
      deField l "rustdocflags" Flags.de = .ok b.rustdocflags ∧
      deField l "incremental" (deVal deBool) = .ok b.incremental ∧
      deField l "dep-info-basedir" (deVal deStr) = .ok b.depInfoBasedir ∧
      b.overrideTargetRustflags = false ∧ b.overrideTargetRustdocflags = false := by
  cases t with
  | tbl l =>
    simp only [BuildConfig.de, Res.bind_eq_ok] at h
    obtain ⟨a1, h1, a2, h2, a3, h3, a4, h4, a5, h5, a6, h6, a7, h7, a8, h8, a9, h9, a10, h10, a11, h11, h⟩ := h
    cases Res.ok.inj h
    exact ⟨l, rfl, h1, h2, h3, h4, h5, h6, h7, h8, h9, h10, h11, rfl, rfl⟩
  | _ => cases h

theorem TargetConfig.de_eq {t : Toml} {x : TargetConfig} (h : TargetConfig.de t = .ok x) :
    ∃ l, t = .tbl l ∧ deField l "linker" (deVal deStr) = .ok x.linker ∧ deField l "runner" PathAndArgs.de = .ok x.runner ∧
      deField l "rustflags" Flags.de = .ok x.rustflags ∧ deField l "rustdocflags" Flags.de = .ok x.rustdocflags := by
  cases t with
  | tbl l =>
    simp only [TargetConfig.de, Res.bind_eq_ok] at h
    obtain ⟨a1, h1, a2, h2, a3, h3, a4, h4, h⟩ := h
    cases Res.ok.inj h
    exact ⟨l, rfl, h1, h2, h3, h4⟩
  | _ => cases h

theorem DocConfig.de_eq {t : Toml} {x : DocConfig} (h : DocConfig.de t = .ok x) :
    ∃ l, t = .tbl l ∧ deField l "browser" PathAndArgs.de = .ok x.browser := by
  cases t with
  | tbl l =>
    simp only [DocConfig.de, Res.bind_eq_ok] at h
    obtain ⟨a1, h1, h⟩ := h
    cases Res.ok.inj h
    exact ⟨l, rfl, h1⟩
  | _ => cases h

theorem FutureIncompatReportConfig.de_eq {t : Toml} {x : FutureIncompatReportConfig}
    (h : FutureIncompatReportConfig.de t = .ok x) :
    ∃ l, t = .tbl l ∧ deField l "frequency" (deVal Frequency.de) = .ok x.frequency := by
  cases t with
  | tbl l =>
    simp only [FutureIncompatReportConfig.de, Res.bind_eq_ok] at h
    obtain ⟨a1, h1, h⟩ := h
    cases Res.ok.inj h
    exact ⟨l, rfl, h1⟩
  | _ => cases h

theorem CargoNewConfig.de_eq {t : Toml} {x : CargoNewConfig} (h : CargoNewConfig.de t = .ok x) :
    ∃ l, t = .tbl l ∧ deField l "vcs" (deVal Vcs.de) = .ok x.vcs := by
  cases t with
  | tbl l =>
    simp only [CargoNewConfig.de, Res.bind_eq_ok] at h
    obtain ⟨a1, h1, h⟩ := h
    cases Res.ok.inj h
    exact ⟨l, rfl, h1⟩
  | _ => cases h

theorem HttpConfig.de_eq {t : Toml} {x : HttpConfig} (h : HttpConfig.de t = .ok x) :
    ∃ l, t = .tbl l ∧ deField l "debug" (deVal deBool) = .ok x.debug ∧ deField l "proxy" (deVal deStr) = .ok x.proxy ∧
      deField l "timeout" (deVal deU32) = .ok x.timeout ∧ deField l "cainfo" (deVal deStr) = .ok x.cainfo ∧
      deField l "check-revoke" (deVal deBool) = .ok x.checkRevoke ∧
      deField l "low-speed-limit" (deVal deU32) = .ok x.lowSpeedLimit ∧
      deField l "multiplexing" (deVal deBool) = .ok x.multiplexing ∧
      deField l "user-agent" (deVal deStr) = .ok x.userAgent := by
  cases t with
  | tbl l =>
    simp only [HttpConfig.de, Res.bind_eq_ok] at h
    obtain ⟨a1, h1, a2, h2, a3, h3, a4, h4, a5, h5, a6, h6, a7, h7, a8, h8, h⟩ := h
    cases Res.ok.inj h
    exact ⟨l, rfl, h1, h2, h3, h4, h5, h6, h7, h8⟩
  | _ => cases h

theorem NetConfig.de_eq {t : Toml} {x : NetConfig} (h : NetConfig.de t = .ok x) :
    ∃ l, t = .tbl l ∧ deField l "retry" (deVal deU32) = .ok x.retry ∧
      deField l "git-fetch-with-cli" (deVal deBool) = .ok x.gitFetchWithCli ∧
      deField l "offline" (deVal deBool) = .ok x.offline := by
  cases t with
  | tbl l =>
    simp only [NetConfig.de, Res.bind_eq_ok] at h
    obtain ⟨a1, h1, a2, h2, a3, h3, h⟩ := h
    cases Res.ok.inj h
    exact ⟨l, rfl, h1, h2, h3⟩
  | _ => cases h

theorem RegistriesConfigValue.de_eq {t : Toml} {x : RegistriesConfigValue} (h : RegistriesConfigValue.de t = .ok x) :
    ∃ l, t = .tbl l ∧ deField l "index" (deVal deStr) = .ok x.index ∧ deField l "token" (deVal deStr) = .ok x.token ∧
      deField l "protocol" (deVal Protocol.de) = .ok x.protocol := by
  cases t with
  | tbl l =>
    simp only [RegistriesConfigValue.de, Res.bind_eq_ok] at h
    obtain ⟨a1, h1, a2, h2, a3, h3, h⟩ := h
    cases Res.ok.inj h
    exact ⟨l, rfl, h1, h2, h3⟩
  | _ => cases h

theorem RegistryConfig.de_eq {t : Toml} {x : RegistryConfig} (h : RegistryConfig.de t = .ok x) :
    ∃ l, t = .tbl l ∧ deField l "default" (deVal deStr) = .ok x.default ∧ deField l "token" (deVal deStr) = .ok x.token := by
  cases t with
  | tbl l =>
    simp only [RegistryConfig.de, Res.bind_eq_ok] at h
    obtain ⟨a1, h1, a2, h2, h⟩ := h
    cases Res.ok.inj h
    exact ⟨l, rfl, h1, h2⟩
  | _ => cases h

theorem TermProgress.de_eq {t : Toml} {x : TermProgress} (h : TermProgress.de t = .ok x) :
    ∃ l, t = .tbl l ∧ deField l "when" (deVal When.de) = .ok x.when ∧ deField l "width" (deVal deU32) = .ok x.width := by
  cases t with
  | tbl l =>
    simp only [TermProgress.de, Res.bind_eq_ok] at h
    obtain ⟨a1, h1, a2, h2, h⟩ := h
    cases Res.ok.inj h
    exact ⟨l, rfl, h1, h2⟩
  | _ => cases h

theorem TermConfig.de_eq {t : Toml} {x : TermConfig} (h : TermConfig.de t = .ok x) :
    ∃ l, t = .tbl l ∧ deField l "quiet" (deVal deBool) = .ok x.quiet ∧ deField l "verbose" (deVal deBool) = .ok x.verbose ∧
      deField l "color" (deVal Color.de) = .ok x.color ∧ deSection l "progress" {} TermProgress.de = .ok x.progress := by
  cases t with
  | tbl l =>
    simp only [TermConfig.de, Res.bind_eq_ok] at h
    obtain ⟨a1, h1, a2, h2, a3, h3, a4, h4, h⟩ := h
    cases Res.ok.inj h
    exact ⟨l, rfl, h1, h2, h3, h4⟩
  | _ => cases h

theorem EnvConfigValue.de_eq {t : Toml} {x : EnvConfigValue} (h : EnvConfigValue.de t = .ok x) :
    (∃ s, t = .str s ∧ x = .value ⟨s, none⟩) ∨
    ∃ l v f r, t = .tbl l ∧ x = .table v f r ∧ deField l "value" (deVal deStr) = .ok (some v) ∧
      deField l "force" (deVal deBool) = .ok f ∧ deField l "relative" (deVal deBool) = .ok r := by
  cases t with
  | str s => exact .inl ⟨s, rfl, (Res.ok.inj h).symm⟩
  | tbl l =>
    simp only [EnvConfigValue.de, Res.bind_eq_ok] at h
    obtain ⟨a1, h1, a2, h2, a3, h3, a4, h4, h⟩ := h
    cases a1 with
    | none => cases h4
    | some a1 =>
      cases Res.ok.inj h4
      cases Res.ok.inj h
      exact .inr ⟨l, _, a2, a3, rfl, rfl, h1, h2, h3⟩
  | _ => cases h

/-- The sections read by `Config.de`. -/
structure Config.Sections (l : List (Str × Toml)) (c : Config) : Prop where
  alias : deSection l "alias" [] (deMap StringList.de) = .ok c.alias
  build : deSection l "build" {} BuildConfig.de = .ok c.build
  doc : deSection l "doc" {} DocConfig.de = .ok c.doc
  env : deSection l "env" [] (deMap EnvConfigValue.de) = .ok c.env
  futureIncompatReport : deSection l "future-incompat-report" {} FutureIncompatReportConfig.de = .ok c.futureIncompatReport
  cargoNew : deSection l "cargo-new" {} CargoNewConfig.de = .ok c.cargoNew
  http : deSection l "http" {} HttpConfig.de = .ok c.http
  net : deSection l "net" {} NetConfig.de = .ok c.net
  registries : deSection l "registries" [] (deMap RegistriesConfigValue.de) = .ok c.registries
  registry : deSection l "registry" {} RegistryConfig.de = .ok c.registry
  target : deSection l "target" [] (deMap TargetConfig.de) = .ok c.target
  term : deSection l "term" {} TermConfig.de = .ok c.term

theorem Config.de_eq {t : Toml} {c : Config} (h : Config.de t = .ok c) : ∃ l, t = .tbl l ∧ Config.Sections l c := by
  cases t with
  | tbl l =>
    simp only [Config.de, Res.bind_eq_ok] at h
    obtain ⟨a1, h1, a2, h2, a3, h3, a4, h4, a5, h5, a6, h6, a7, h7, a8, h8, a9, h9, a10, h10, a11, h11, a12, h12, h⟩ := h
    cases Res.ok.inj h
    exact ⟨l, rfl, h1, h2, h3, h4, h5, h6, h7, h8, h9, h10, h11, h12⟩
  | _ => cases h

theorem Config.de_of_sections {l : List (Str × Toml)} {c : Config} (h : Config.Sections l c) :
    Config.de (.tbl l) = .ok c := by
  obtain ⟨h1, h2, h3, h4, h5, h6, h7, h8, h9, h10, h11, h12⟩ := h
  simp only [Config.de, h1, h2, h3, h4, h5, h6, h7, h8, h9, h10, h11, h12, Res.ok_bind]

/-! ### Following a path into the document -/

theorem Toml.at_nil (t : Toml) : t.at [] = some t := by
  cases t <;> simp [Toml.at]

theorem Toml.at_tbl (l : List (Str × Toml)) (k : Str) (ks : List Str) :
    (Toml.tbl l).at (k :: ks) = (BMap.get l k).bind fun t => t.at ks := by
  simp [Toml.at]

theorem Toml.at_tbl1 (l : List (Str × Toml)) (k : Str) : (Toml.tbl l).at [k] = BMap.get l k := by
  rw [Toml.at_tbl]
  cases BMap.get l k with
  | none => rfl
  | some t => exact Toml.at_nil t

theorem Toml.at_append (t : Toml) (p q : List Str) : t.at (p ++ q) = (t.at p).bind fun u => u.at q := by
  induction p generalizing t with
  | nil => rw [Toml.at_nil]; rfl
  | cons k p ih =>
    cases t with
    | tbl l =>
      rw [List.cons_append, Toml.at_tbl, Toml.at_tbl]
      cases BMap.get l k with
      | none => rfl
      | some u => exact ih u
    | _ => simp [Toml.at]

/-- A fact on a section read with a default. -/
theorem at_section {α : Type} {l : List (Str × Toml)} {k : String} {d x : α} {f : Toml → Res α} {rest : List Str}
    (R : Option Toml → α → Prop) (h : deSection l k d f = .ok x) (hd : R none d)
    (hf : ∀ v y, f v = .ok y → R (v.at rest) y) : R ((Toml.tbl l).at (k.toList :: rest)) x := by
  rw [Toml.at_tbl]
  rcases deSection_inv h with ⟨h1, rfl⟩ | ⟨v, h1, h2⟩
  · rw [h1]; exact hd
  · rw [h1]; exact hf v x h2

/-- A fact on the entry of a map. -/
theorem at_map {V : Type} {l : List (Str × Toml)} {k : String} {m : BMap V} {f : Toml → Res V} {rest : List Str}
    (R : Option Toml → Option V → Prop) (hdist : (Toml.tbl l).DistinctKeys)
    (h : deSection l k [] (deMap f) = .ok m) (hd : R none none)
    (hf : ∀ v y, f v = .ok y → R (v.at rest) (some y)) (key : Str) :
    R ((Toml.tbl l).at (k.toList :: key :: rest)) (BMap.get m key) := by
  rw [Toml.at_tbl]
  rcases deSection_inv h with ⟨h1, rfl⟩ | ⟨v, h1, h2⟩
  · rw [h1]; exact hd
  · rw [h1]
    have hv : (Toml.tbl l).at [k.toList] = some v := by rw [Toml.at_tbl1, h1]
    obtain ⟨_, m', rfl, h3⟩ := deMap_rel h2 (fun l' hl => hdist [k.toList] l' (by rw [hv, hl]))
    simp only [Option.bind_some, Toml.at_tbl]
    have h4 := h3 key
    generalize BMap.get m' key = a at h4
    generalize BMap.get m key = b at h4
    cases h4 with
    | none => exact hd
    | some h5 => exact hf _ _ h5

/-- A scalar field. -/
theorem at_field {α : Type} {l : List (Str × Toml)} {k : String} {f : Toml → Res α} {o : Option (Val α)} {g : α → Atom}
    (h : deField l k (deVal f) = .ok o) (hf : ∀ t a, f t = .ok a → t = (g a).toml) :
    (Toml.tbl l).at [k.toList] = (o.map (Val.map g)).map fun v => v.val.toml := by
  rw [Toml.at_tbl1]
  have := deField_rel h
  generalize BMap.get l k.toList = x at this
  cases this with
  | none => rfl
  | some ha =>
    rw [hf _ _ (deVal_eq ha).1]; rfl

theorem Vcs.de_eq {t : Toml} {x : Vcs} (h : Vcs.de t = .ok x) : t = (Atom.vcs x).toml := by
  cases t with
  | str s =>
    simp only [Vcs.de] at h
    repeat' split at h
    all_goals first | (cases Res.ok.inj h; subst_vars; rfl) | cases h
  | _ => cases h

theorem Protocol.de_eq {t : Toml} {x : Protocol} (h : Protocol.de t = .ok x) : t = (Atom.protocol x).toml := by
  cases t with
  | str s =>
    simp only [Protocol.de] at h
    repeat' split at h
    all_goals first | (cases Res.ok.inj h; subst_vars; rfl) | cases h
  | _ => cases h

theorem Color.de_eq {t : Toml} {x : Color} (h : Color.de t = .ok x) : t = (Atom.color x).toml := by
  cases t with
  | str s =>
    simp only [Color.de] at h
    repeat' split at h
    all_goals first | (cases Res.ok.inj h; subst_vars; rfl) | cases h
  | _ => cases h

theorem When.de_eq {t : Toml} {x : When} (h : When.de t = .ok x) : t = (Atom.when x).toml := by
  cases t with
  | str s =>
    simp only [When.de] at h
    repeat' split at h
    all_goals first | (cases Res.ok.inj h; subst_vars; rfl) | cases h
  | _ => cases h

theorem Frequency.de_eq {t : Toml} {x : Frequency} (h : Frequency.de t = .ok x) : t = (Atom.frequency x).toml := by
  cases t with
  | str s =>
    simp only [Frequency.de] at h
    repeat' split at h
    all_goals first | (cases Res.ok.inj h; subst_vars; rfl) | cases h
  | _ => cases h

/-- What is at a path is the optional value. -/
def IsAt (x : Option Toml) (o : Option (Val Atom)) : Prop := x = o.map fun v => v.val.toml

theorem isAt_none : IsAt none none := rfl

theorem isAt_str {l : List (Str × Toml)} {k : String} {o : Option (Val Str)} (h : deField l k (deVal deStr) = .ok o) :
    IsAt ((Toml.tbl l).at [k.toList]) (o.map (Val.map .str)) := at_field h fun _ _ h => deStr_eq h

theorem isAt_bool {l : List (Str × Toml)} {k : String} {o : Option (Val Bool)} (h : deField l k (deVal deBool) = .ok o) :
    IsAt ((Toml.tbl l).at [k.toList]) (o.map (Val.map .bool)) := at_field h fun _ _ h => deBool_eq h

theorem isAt_i32 {l : List (Str × Toml)} {k : String} {o : Option (Val Int)} (h : deField l k (deVal deI32) = .ok o) :
    IsAt ((Toml.tbl l).at [k.toList]) (o.map (Val.map .int)) := at_field h fun _ _ h => (deI32_eq h).1

theorem isAt_u32 {l : List (Str × Toml)} {k : String} {o : Option (Val Nat)} (h : deField l k (deVal deU32) = .ok o) :
    IsAt ((Toml.tbl l).at [k.toList]) (o.map (Val.map .nat)) := at_field h fun _ _ h => (deU32_eq h).1

/-- Every single-valued setting of a config read from a document is what the document has at the setting's path. -/
theorem scalar_read {t : Toml} {c : Config} (h : Config.de t = .ok c) (hd : t.DistinctKeys) (k : ScalarKey) :
    IsAt (t.at (k.path (envShape c))) (k.get c) := by
  obtain ⟨l, rfl, s⟩ := Config.de_eq h
  cases k with
  | buildJobs =>
    refine at_section (fun x (b : BuildConfig) => IsAt x (b.jobs.map (Val.map .int))) s.build isAt_none ?_
    intro v y hy; obtain ⟨l, rfl, h1, h2, h3, h4, h5, h6, h7, h8, h9, h10, h11, _⟩ := BuildConfig.de_eq hy
    exact isAt_i32 h1
  | buildRustc =>
    refine at_section (fun x (b : BuildConfig) => IsAt x (b.rustc.map (Val.map .str))) s.build isAt_none ?_
    intro v y hy; obtain ⟨l, rfl, h1, h2, h3, h4, h5, h6, h7, h8, h9, h10, h11, _⟩ := BuildConfig.de_eq hy
    exact isAt_str h2
  | buildRustcWrapper =>
    refine at_section (fun x (b : BuildConfig) => IsAt x (b.rustcWrapper.map (Val.map .str))) s.build isAt_none ?_
    intro v y hy; obtain ⟨l, rfl, h1, h2, h3, h4, h5, h6, h7, h8, h9, h10, h11, _⟩ := BuildConfig.de_eq hy
    exact isAt_str h3
  | buildRustcWorkspaceWrapper =>
    refine at_section (fun x (b : BuildConfig) => IsAt x (b.rustcWorkspaceWrapper.map (Val.map .str))) s.build isAt_none ?_
    intro v y hy; obtain ⟨l, rfl, h1, h2, h3, h4, h5, h6, h7, h8, h9, h10, h11, _⟩ := BuildConfig.de_eq hy
    exact isAt_str h4
  | buildRustdoc =>
    refine at_section (fun x (b : BuildConfig) => IsAt x (b.rustdoc.map (Val.map .str))) s.build isAt_none ?_
    intro v y hy; obtain ⟨l, rfl, h1, h2, h3, h4, h5, h6, h7, h8, h9, h10, h11, _⟩ := BuildConfig.de_eq hy
    exact isAt_str h5
  | buildTargetDir =>
    refine at_section (fun x (b : BuildConfig) => IsAt x (b.targetDir.map (Val.map .str))) s.build isAt_none ?_
    intro v y hy; obtain ⟨l, rfl, h1, h2, h3, h4, h5, h6, h7, h8, h9, h10, h11, _⟩ := BuildConfig.de_eq hy
    exact isAt_str h7
  | buildIncremental =>
    refine at_section (fun x (b : BuildConfig) => IsAt x (b.incremental.map (Val.map .bool))) s.build isAt_none ?_
    intro v y hy; obtain ⟨l, rfl, h1, h2, h3, h4, h5, h6, h7, h8, h9, h10, h11, _⟩ := BuildConfig.de_eq hy
    exact isAt_bool h10
  | buildDepInfoBasedir =>
    refine at_section (fun x (b : BuildConfig) => IsAt x (b.depInfoBasedir.map (Val.map .str))) s.build isAt_none ?_
    intro v y hy; obtain ⟨l, rfl, h1, h2, h3, h4, h5, h6, h7, h8, h9, h10, h11, _⟩ := BuildConfig.de_eq hy
    exact isAt_str h11
  | envValue k =>
    simp only [ScalarKey.path, ScalarKey.get]
    by_cases hs : envShape c k = some true
    · rw [if_pos hs]
      have := at_map (rest := ["value".toList]) (fun x (e : Option EnvConfigValue) => e.map EnvConfigValue.isTable = some true →
        IsAt x (e.map fun e => e.theValue.map .str)) hd s.env (fun h => by cases h) ?_ k
      · exact this hs
      · intro v y hy ht
        rcases EnvConfigValue.de_eq hy with ⟨s, rfl, rfl⟩ | ⟨l, v, f, r, rfl, rfl, h1, h2, h3⟩
        · cases ht
        · exact isAt_str h1
    · rw [if_neg hs]
      have := at_map (rest := []) (fun x (e : Option EnvConfigValue) => ¬ e.map EnvConfigValue.isTable = some true →
        IsAt x (e.map fun e => e.theValue.map .str)) hd s.env (fun _ => isAt_none) ?_ k
      · exact this hs
      · intro v y hy ht
        rcases EnvConfigValue.de_eq hy with ⟨s, rfl, rfl⟩ | ⟨l, v, f, r, rfl, rfl, h1, h2, h3⟩
        · rw [Toml.at_nil]; rfl
        · exact absurd rfl ht
  | envForce k =>
    refine at_map (fun x (e : Option EnvConfigValue) => IsAt x ((e.bind EnvConfigValue.theForce).map (Val.map .bool))) hd s.env
      isAt_none ?_ k
    intro v y hy
    rcases EnvConfigValue.de_eq hy with ⟨s, rfl, rfl⟩ | ⟨l, v, f, r, rfl, rfl, h1, h2, h3⟩
    · simp only [Toml.at]; exact isAt_none
    · exact isAt_bool h2
  | envRelative k =>
    refine at_map (fun x (e : Option EnvConfigValue) => IsAt x ((e.bind EnvConfigValue.theRelative).map (Val.map .bool))) hd s.env
      isAt_none ?_ k
    intro v y hy
    rcases EnvConfigValue.de_eq hy with ⟨s, rfl, rfl⟩ | ⟨l, v, f, r, rfl, rfl, h1, h2, h3⟩
    · simp only [Toml.at]; exact isAt_none
    · exact isAt_bool h3
  | futureIncompatReportFrequency =>
    refine at_section (fun x (b : FutureIncompatReportConfig) => IsAt x (b.frequency.map (Val.map .frequency)))
      s.futureIncompatReport isAt_none ?_
    intro v y hy; obtain ⟨l, rfl, h1⟩ := FutureIncompatReportConfig.de_eq hy
    exact at_field h1 fun _ _ h => Frequency.de_eq h
  | cargoNewVcs =>
    refine at_section (fun x (b : CargoNewConfig) => IsAt x (b.vcs.map (Val.map .vcs))) s.cargoNew isAt_none ?_
    intro v y hy; obtain ⟨l, rfl, h1⟩ := CargoNewConfig.de_eq hy
    exact at_field h1 fun _ _ h => Vcs.de_eq h
  | httpDebug =>
    refine at_section (fun x (b : HttpConfig) => IsAt x (b.debug.map (Val.map .bool))) s.http isAt_none ?_
    intro v y hy; obtain ⟨l, rfl, h1, h2, h3, h4, h5, h6, h7, h8⟩ := HttpConfig.de_eq hy
    exact isAt_bool h1
  | httpProxy =>
    refine at_section (fun x (b : HttpConfig) => IsAt x (b.proxy.map (Val.map .str))) s.http isAt_none ?_
    intro v y hy; obtain ⟨l, rfl, h1, h2, h3, h4, h5, h6, h7, h8⟩ := HttpConfig.de_eq hy
    exact isAt_str h2
  | httpTimeout =>
    refine at_section (fun x (b : HttpConfig) => IsAt x (b.timeout.map (Val.map .nat))) s.http isAt_none ?_
    intro v y hy; obtain ⟨l, rfl, h1, h2, h3, h4, h5, h6, h7, h8⟩ := HttpConfig.de_eq hy
    exact isAt_u32 h3
  | httpCainfo =>
    refine at_section (fun x (b : HttpConfig) => IsAt x (b.cainfo.map (Val.map .str))) s.http isAt_none ?_
    intro v y hy; obtain ⟨l, rfl, h1, h2, h3, h4, h5, h6, h7, h8⟩ := HttpConfig.de_eq hy
    exact isAt_str h4
  | httpCheckRevoke =>
    refine at_section (fun x (b : HttpConfig) => IsAt x (b.checkRevoke.map (Val.map .bool))) s.http isAt_none ?_
    intro v y hy; obtain ⟨l, rfl, h1, h2, h3, h4, h5, h6, h7, h8⟩ := HttpConfig.de_eq hy
    exact isAt_bool h5
  | httpLowSpeedLimit =>
    refine at_section (fun x (b : HttpConfig) => IsAt x (b.lowSpeedLimit.map (Val.map .nat))) s.http isAt_none ?_
    intro v y hy; obtain ⟨l, rfl, h1, h2, h3, h4, h5, h6, h7, h8⟩ := HttpConfig.de_eq hy
    exact isAt_u32 h6
  | httpMultiplexing =>
    refine at_section (fun x (b : HttpConfig) => IsAt x (b.multiplexing.map (Val.map .bool))) s.http isAt_none ?_
    intro v y hy; obtain ⟨l, rfl, h1, h2, h3, h4, h5, h6, h7, h8⟩ := HttpConfig.de_eq hy
    exact isAt_bool h7
  | httpUserAgent =>
    refine at_section (fun x (b : HttpConfig) => IsAt x (b.userAgent.map (Val.map .str))) s.http isAt_none ?_
    intro v y hy; obtain ⟨l, rfl, h1, h2, h3, h4, h5, h6, h7, h8⟩ := HttpConfig.de_eq hy
    exact isAt_str h8
  | netRetry =>
    refine at_section (fun x (b : NetConfig) => IsAt x (b.retry.map (Val.map .nat))) s.net isAt_none ?_
    intro v y hy; obtain ⟨l, rfl, h1, h2, h3⟩ := NetConfig.de_eq hy
    exact isAt_u32 h1
  | netGitFetchWithCli =>
    refine at_section (fun x (b : NetConfig) => IsAt x (b.gitFetchWithCli.map (Val.map .bool))) s.net isAt_none ?_
    intro v y hy; obtain ⟨l, rfl, h1, h2, h3⟩ := NetConfig.de_eq hy
    exact isAt_bool h2
  | netOffline =>
    refine at_section (fun x (b : NetConfig) => IsAt x (b.offline.map (Val.map .bool))) s.net isAt_none ?_
    intro v y hy; obtain ⟨l, rfl, h1, h2, h3⟩ := NetConfig.de_eq hy
    exact isAt_bool h3
  | registriesIndex k =>
    refine at_map (fun x (e : Option RegistriesConfigValue) => IsAt x ((e.bind (·.index)).map (Val.map .str))) hd s.registries
      isAt_none ?_ k
    intro v y hy; obtain ⟨l, rfl, h1, h2, h3⟩ := RegistriesConfigValue.de_eq hy
    exact isAt_str h1
  | registriesToken k =>
    refine at_map (fun x (e : Option RegistriesConfigValue) => IsAt x ((e.bind (·.token)).map (Val.map .str))) hd s.registries
      isAt_none ?_ k
    intro v y hy; obtain ⟨l, rfl, h1, h2, h3⟩ := RegistriesConfigValue.de_eq hy
    exact isAt_str h2
  | registriesProtocol k =>
    refine at_map (fun x (e : Option RegistriesConfigValue) => IsAt x ((e.bind (·.protocol)).map (Val.map .protocol))) hd
      s.registries isAt_none ?_ k
    intro v y hy; obtain ⟨l, rfl, h1, h2, h3⟩ := RegistriesConfigValue.de_eq hy
    exact at_field h3 fun _ _ h => Protocol.de_eq h
  | registryDefault =>
    refine at_section (fun x (b : RegistryConfig) => IsAt x (b.default.map (Val.map .str))) s.registry isAt_none ?_
    intro v y hy; obtain ⟨l, rfl, h1, h2⟩ := RegistryConfig.de_eq hy
    exact isAt_str h1
  | registryToken =>
    refine at_section (fun x (b : RegistryConfig) => IsAt x (b.token.map (Val.map .str))) s.registry isAt_none ?_
    intro v y hy; obtain ⟨l, rfl, h1, h2⟩ := RegistryConfig.de_eq hy
    exact isAt_str h2
  | targetLinker k =>
    refine at_map (fun x (e : Option TargetConfig) => IsAt x ((e.bind (·.linker)).map (Val.map .str))) hd s.target
      isAt_none ?_ k
    intro v y hy; obtain ⟨l, rfl, h1, h2, h3, h4⟩ := TargetConfig.de_eq hy
    exact isAt_str h1
  | termQuiet =>
    refine at_section (fun x (b : TermConfig) => IsAt x (b.quiet.map (Val.map .bool))) s.term isAt_none ?_
    intro v y hy; obtain ⟨l, rfl, h1, h2, h3, h4⟩ := TermConfig.de_eq hy
    exact isAt_bool h1
  | termVerbose =>
    refine at_section (fun x (b : TermConfig) => IsAt x (b.verbose.map (Val.map .bool))) s.term isAt_none ?_
    intro v y hy; obtain ⟨l, rfl, h1, h2, h3, h4⟩ := TermConfig.de_eq hy
    exact isAt_bool h2
  | termColor =>
    refine at_section (fun x (b : TermConfig) => IsAt x (b.color.map (Val.map .color))) s.term isAt_none ?_
    intro v y hy; obtain ⟨l, rfl, h1, h2, h3, h4⟩ := TermConfig.de_eq hy
    exact at_field h3 fun _ _ h => Color.de_eq h
  | termProgressWhen =>
    refine at_section (fun x (b : TermConfig) => IsAt x (b.progress.when.map (Val.map .when))) s.term isAt_none ?_
    intro v y hy; obtain ⟨l, rfl, h1, h2, h3, h4⟩ := TermConfig.de_eq hy
    refine at_section (fun x (b : TermProgress) => IsAt x (b.when.map (Val.map .when))) h4 isAt_none ?_
    intro v y hy; obtain ⟨l, rfl, h1, h2⟩ := TermProgress.de_eq hy
    exact at_field h1 fun _ _ h => When.de_eq h
  | termProgressWidth =>
    refine at_section (fun x (b : TermConfig) => IsAt x (b.progress.width.map (Val.map .nat))) s.term isAt_none ?_
    intro v y hy; obtain ⟨l, rfl, h1, h2, h3, h4⟩ := TermConfig.de_eq hy
    refine at_section (fun x (b : TermProgress) => IsAt x (b.width.map (Val.map .nat))) h4 isAt_none ?_
    intro v y hy; obtain ⟨l, rfl, h1, h2⟩ := TermProgress.de_eq hy
    exact isAt_u32 h2

/-- What is at a path spells the optional list. -/
def SpellsAt (split : Bool) (x : Option Toml) (o : Option (Repr' × List (Val Str))) : Prop :=
  OptionRel (fun t (l : Repr' × List (Val Str)) => TomlList split t l.1 (l.2.map Val.val)) x o

theorem spellsAt_flags {l : List (Str × Toml)} {k : String} {o : Option Flags} (h : deField l k Flags.de = .ok o) :
    SpellsAt true ((Toml.tbl l).at [k.toList]) (o.map fun l => (l.repr, l.flags)) := by
  rw [Toml.at_tbl1]
  have := deField_rel h
  generalize BMap.get l k.toList = x at this
  cases this with
  | none => exact .none
  | some ha => exact .some (Flags.de_eq ha).1

theorem spellsAt_prog {l : List (Str × Toml)} {k : String} {o : Option PathAndArgs} (h : deField l k PathAndArgs.de = .ok o) :
    SpellsAt true ((Toml.tbl l).at [k.toList]) (o.map fun x => (x.repr, x.path :: x.args)) := by
  rw [Toml.at_tbl1]
  have := deField_rel h
  generalize BMap.get l k.toList = x at this
  cases this with
  | none => exact .none
  | some ha => exact .some (PathAndArgs.de_eq ha).1

theorem spellsAt_target {l : List (Str × Toml)} {k : String} {o : Option StringOrArray}
    (h : deField l k StringOrArray.de = .ok o) :
    SpellsAt false ((Toml.tbl l).at [k.toList]) (o.map fun
      | .string s => (.string, [s])
      | .array l => (.array, l)) := by
  rw [Toml.at_tbl1]
  have := deField_rel h
  generalize BMap.get l k.toList = x at this
  cases this with
  | none => exact .none
  | some ha =>
    refine .some ?_
    rcases StringOrArray.de_eq ha with ⟨s, rfl, rfl⟩ | ⟨vs, rfl, h2, rfl⟩
    · exact .whole s rfl
    · exact .array _

/-- Every list setting of a config read from a document is spelled at the setting's path. -/
theorem list_read {t : Toml} {c : Config} (h : Config.de t = .ok c) (hd : t.DistinctKeys) (k : ListKey) :
    SpellsAt k.splits (t.at k.path) (k.get c) := by
  obtain ⟨l, rfl, s⟩ := Config.de_eq h
  cases k with
  | alias k =>
    refine at_map (rest := []) (fun x (e : Option StringList) => SpellsAt true x (e.map fun l => (l.repr, l.list))) hd s.alias
      .none ?_ k
    intro v y hy
    rw [Toml.at_nil]
    exact .some (StringList.de_eq hy).1
  | buildTarget =>
    refine at_section (fun x (b : BuildConfig) => SpellsAt false x (b.target.map fun
      | .string s => (.string, [s])
      | .array l => (.array, l))) s.build .none ?_
    intro v y hy; obtain ⟨l, rfl, h1, h2, h3, h4, h5, h6, h7, h8, h9, h10, h11, _⟩ := BuildConfig.de_eq hy
    exact spellsAt_target h6
  | buildRustflags =>
    refine at_section (fun x (b : BuildConfig) => SpellsAt true x (b.rustflags.map fun l => (l.repr, l.flags))) s.build .none ?_
    intro v y hy; obtain ⟨l, rfl, h1, h2, h3, h4, h5, h6, h7, h8, h9, h10, h11, _⟩ := BuildConfig.de_eq hy
    exact spellsAt_flags h8
  | buildRustdocflags =>
    refine at_section (fun x (b : BuildConfig) => SpellsAt true x (b.rustdocflags.map fun l => (l.repr, l.flags))) s.build .none ?_
    intro v y hy; obtain ⟨l, rfl, h1, h2, h3, h4, h5, h6, h7, h8, h9, h10, h11, _⟩ := BuildConfig.de_eq hy
    exact spellsAt_flags h9
  | targetRustflags k =>
    refine at_map (fun x (e : Option TargetConfig) => SpellsAt true x ((e.bind (·.rustflags)).map fun l => (l.repr, l.flags))) hd
      s.target .none ?_ k
    intro v y hy; obtain ⟨l, rfl, h1, h2, h3, h4⟩ := TargetConfig.de_eq hy
    exact spellsAt_flags h3
  | targetRustdocflags k =>
    refine at_map (fun x (e : Option TargetConfig) => SpellsAt true x ((e.bind (·.rustdocflags)).map fun l => (l.repr, l.flags)))
      hd s.target .none ?_ k
    intro v y hy; obtain ⟨l, rfl, h1, h2, h3, h4⟩ := TargetConfig.de_eq hy
    exact spellsAt_flags h4

/-- Every command of a config read from a document is spelled at the setting's path. -/
theorem prog_read {t : Toml} {c : Config} (h : Config.de t = .ok c) (hd : t.DistinctKeys) (k : ProgKey) :
    SpellsAt true (t.at k.path) (k.get c) := by
  obtain ⟨l, rfl, s⟩ := Config.de_eq h
  cases k with
  | docBrowser =>
    refine at_section (fun x (b : DocConfig) => SpellsAt true x (b.browser.map fun x => (x.repr, x.path :: x.args))) s.doc .none ?_
    intro v y hy; obtain ⟨l, rfl, h1⟩ := DocConfig.de_eq hy
    exact spellsAt_prog h1
  | targetRunner k =>
    refine at_map (fun x (e : Option TargetConfig) => SpellsAt true x ((e.bind (·.runner)).map fun x => (x.repr, x.path :: x.args)))
      hd s.target .none ?_ k
    intro v y hy; obtain ⟨l, rfl, h1, h2, h3, h4⟩ := TargetConfig.de_eq hy
    exact spellsAt_prog h2

/-- The table entries of a config read from a document are those of the document. -/
theorem entry_read {t : Toml} {c : Config} (h : Config.de t = .ok c) (hd : t.DistinctKeys) (k : TableKey) :
    k.present c = (t.at k.path).isSome := by
  obtain ⟨l, rfl, s⟩ := Config.de_eq h
  cases k with
  | alias k =>
    refine at_map (rest := []) (fun x (e : Option StringList) => e.isSome = x.isSome) hd s.alias rfl ?_ k
    intro v y _; rw [Toml.at_nil]; rfl
  | env k =>
    refine at_map (rest := []) (fun x (e : Option EnvConfigValue) => e.isSome = x.isSome) hd s.env rfl ?_ k
    intro v y _; rw [Toml.at_nil]; rfl
  | registries k =>
    refine at_map (rest := []) (fun x (e : Option RegistriesConfigValue) => e.isSome = x.isSome) hd s.registries rfl ?_ k
    intro v y _; rw [Toml.at_nil]; rfl
  | target k =>
    refine at_map (rest := []) (fun x (e : Option TargetConfig) => e.isSome = x.isSome) hd s.target rfl ?_ k
    intro v y _; rw [Toml.at_nil]; rfl

/-- Whether an `[env]` entry is a table. -/
theorem envShape_read {t : Toml} {c : Config} (h : Config.de t = .ok c) (hd : t.DistinctKeys) (k : Str) :
    envShape c k = (t.at ["env".toList, k]).map fun
      | .tbl _ => true
      | _ => false := by
  obtain ⟨l, rfl, s⟩ := Config.de_eq h
  refine at_map (rest := []) (fun x (e : Option EnvConfigValue) => e.map EnvConfigValue.isTable = x.map fun
      | .tbl _ => true
      | _ => false) hd s.env rfl ?_ k
  intro v y hy
  rw [Toml.at_nil]
  rcases EnvConfigValue.de_eq hy with ⟨s, rfl, rfl⟩ | ⟨l, v, f, r, rfl, rfl, h1, h2, h3⟩ <;> rfl

end CC
