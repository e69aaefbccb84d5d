import Verif.Lemmas.SerdeRead
/-
What each section writes, and that reading it gives the section back.
-/
namespace CC

/-! ### Sections written -/

theorem BuildConfig.ser_get (x : BuildConfig) : ∃ l, x.ser = .tbl l
    ∧ BMap.get l "jobs".toList = x.jobs.map (serVal .int)
    ∧ BMap.get l "rustc".toList = x.rustc.map (serVal .str)
    ∧ BMap.get l "rustc-wrapper".toList = x.rustcWrapper.map (serVal .str)
    ∧ BMap.get l "rustc-workspace-wrapper".toList = x.rustcWorkspaceWrapper.map (serVal .str)
    ∧ BMap.get l "rustdoc".toList = x.rustdoc.map (serVal .str)
    ∧ BMap.get l "target".toList = x.target.map StringOrArray.ser
    ∧ BMap.get l "target-dir".toList = x.targetDir.map (serVal .str)
    ∧ BMap.get l "rustflags".toList = x.rustflags.map Flags.ser
    ∧ BMap.get l "rustdocflags".toList = x.rustdocflags.map Flags.ser
    ∧ BMap.get l "incremental".toList = x.incremental.map (serVal .bool)
    ∧ BMap.get l "dep-info-basedir".toList = x.depInfoBasedir.map (serVal .str)
    := by
  refine ⟨_, rfl, ?_, ?_, ?_, ?_, ?_, ?_, ?_, ?_, ?_, ?_, ?_⟩ <;> (simp only [BMap.get_append, get_serField]; simp)

theorem TargetConfig.ser_get (x : TargetConfig) : ∃ l, x.ser = .tbl l
    ∧ BMap.get l "linker".toList = x.linker.map (serVal .str)
    ∧ BMap.get l "runner".toList = x.runner.map PathAndArgs.ser
    ∧ BMap.get l "rustflags".toList = x.rustflags.map Flags.ser
    ∧ BMap.get l "rustdocflags".toList = x.rustdocflags.map Flags.ser
    := by
  refine ⟨_, rfl, ?_, ?_, ?_, ?_⟩ <;> (simp only [BMap.get_append, get_serField]; simp)

theorem DocConfig.ser_get (x : DocConfig) : ∃ l, x.ser = .tbl l
    ∧ BMap.get l "browser".toList = x.browser.map PathAndArgs.ser
    := by
  refine ⟨_, rfl, ?_⟩ <;> (simp only [BMap.get_append, get_serField]; simp)

theorem FutureIncompatReportConfig.ser_get (x : FutureIncompatReportConfig) : ∃ l, x.ser = .tbl l
    ∧ BMap.get l "frequency".toList = x.frequency.map (serVal fun x => .str x.serName)
    := by
  refine ⟨_, rfl, ?_⟩ <;> (simp only [BMap.get_append, get_serField]; simp)

theorem CargoNewConfig.ser_get (x : CargoNewConfig) : ∃ l, x.ser = .tbl l
    ∧ BMap.get l "vcs".toList = x.vcs.map (serVal fun x => .str x.serName)
    := by
  refine ⟨_, rfl, ?_⟩ <;> (simp only [BMap.get_append, get_serField]; simp)

theorem HttpConfig.ser_get (x : HttpConfig) : ∃ l, x.ser = .tbl l
    ∧ BMap.get l "debug".toList = x.debug.map (serVal .bool)
    ∧ BMap.get l "proxy".toList = x.proxy.map (serVal .str)
    ∧ BMap.get l "timeout".toList = x.timeout.map (serVal serNat)
    ∧ BMap.get l "cainfo".toList = x.cainfo.map (serVal .str)
    ∧ BMap.get l "check-revoke".toList = x.checkRevoke.map (serVal .bool)
    ∧ BMap.get l "low-speed-limit".toList = x.lowSpeedLimit.map (serVal serNat)
    ∧ BMap.get l "multiplexing".toList = x.multiplexing.map (serVal .bool)
    ∧ BMap.get l "user-agent".toList = x.userAgent.map (serVal .str)
    := by
  refine ⟨_, rfl, ?_, ?_, ?_, ?_, ?_, ?_, ?_, ?_⟩ <;> (simp only [BMap.get_append, get_serField]; simp)

theorem NetConfig.ser_get (x : NetConfig) : ∃ l, x.ser = .tbl l
    ∧ BMap.get l "retry".toList = x.retry.map (serVal serNat)
    ∧ BMap.get l "git-fetch-with-cli".toList = x.gitFetchWithCli.map (serVal .bool)
    ∧ BMap.get l "offline".toList = x.offline.map (serVal .bool)
    := by
  refine ⟨_, rfl, ?_, ?_, ?_⟩ <;> (simp only [BMap.get_append, get_serField]; simp)

theorem RegistriesConfigValue.ser_get (x : RegistriesConfigValue) : ∃ l, x.ser = .tbl l
    ∧ BMap.get l "index".toList = x.index.map (serVal .str)
    ∧ BMap.get l "token".toList = x.token.map (serVal .str)
    ∧ BMap.get l "protocol".toList = x.protocol.map (serVal fun x => .str x.serName)
    := by
  refine ⟨_, rfl, ?_, ?_, ?_⟩ <;> (simp only [BMap.get_append, get_serField]; simp)

theorem RegistryConfig.ser_get (x : RegistryConfig) : ∃ l, x.ser = .tbl l
    ∧ BMap.get l "default".toList = x.default.map (serVal .str)
    ∧ BMap.get l "token".toList = x.token.map (serVal .str)
    := by
  refine ⟨_, rfl, ?_, ?_⟩ <;> (simp only [BMap.get_append, get_serField]; simp)

theorem TermProgress.ser_get (x : TermProgress) : ∃ l, x.ser = .tbl l
    ∧ BMap.get l "when".toList = x.when.map (serVal fun x => .str x.serName)
    ∧ BMap.get l "width".toList = x.width.map (serVal serNat)
    := by
  refine ⟨_, rfl, ?_, ?_⟩ <;> (simp only [BMap.get_append, get_serField]; simp)

theorem TermConfig.ser_get (x : TermConfig) : ∃ l, x.ser = .tbl l
    ∧ BMap.get l "quiet".toList = x.quiet.map (serVal .bool)
    ∧ BMap.get l "verbose".toList = x.verbose.map (serVal .bool)
    ∧ BMap.get l "color".toList = x.color.map (serVal fun x => .str x.serName)
    ∧ BMap.get l "progress".toList = (if x.progress.isNone then none else some x.progress.ser)
    := by
  refine ⟨_, rfl, ?_, ?_, ?_, ?_⟩ <;> (simp only [BMap.get_append, get_serField, get_serSection]; simp)

theorem Config.ser_get (c : Config) : ∃ l, c.ser = .tbl l
    ∧ BMap.get l "alias".toList = (if c.alias.isEmpty then none else some (serMap StringList.ser c.alias))
    ∧ BMap.get l "build".toList = (if c.build.isNone then none else some c.build.ser)
    ∧ BMap.get l "doc".toList = (if c.doc.isNone then none else some c.doc.ser)
    ∧ BMap.get l "env".toList = (if c.env.isEmpty then none else some (serMap EnvConfigValue.ser c.env))
    ∧ BMap.get l "future-incompat-report".toList
        = (if c.futureIncompatReport.isNone then none else some c.futureIncompatReport.ser)
    ∧ BMap.get l "cargo-new".toList = (if c.cargoNew.isNone then none else some c.cargoNew.ser)
    ∧ BMap.get l "http".toList = (if c.http.isNone then none else some c.http.ser)
    ∧ BMap.get l "net".toList = (if c.net.isNone then none else some c.net.ser)
    ∧ BMap.get l "registries".toList
        = (if c.registries.isEmpty then none else some (serMap RegistriesConfigValue.ser c.registries))
    ∧ BMap.get l "registry".toList = (if c.registry.isNone then none else some c.registry.ser)
    ∧ BMap.get l "target".toList = (if c.target.isEmpty then none else some (serMap TargetConfig.ser c.target))
    ∧ BMap.get l "term".toList = (if c.term.isNone then none else some c.term.ser)
    := by
  refine ⟨_, rfl, ?_, ?_, ?_, ?_, ?_, ?_, ?_, ?_, ?_, ?_, ?_, ?_⟩ <;>
    (simp only [BMap.get_append, get_serSection]; simp)

/-! ### `is_none` -/

theorem BuildConfig.isNone_iff (x : BuildConfig) : x.isNone = true ↔ x.jobs = none ∧ x.rustc = none ∧ x.rustcWrapper = none ∧ x.rustcWorkspaceWrapper = none ∧ x.rustdoc = none ∧ x.target = none ∧ x.targetDir = none ∧ x.rustflags = none ∧ x.rustdocflags = none ∧ x.incremental = none ∧ x.depInfoBasedir = none := by
  simp [BuildConfig.isNone, and_assoc]

theorem DocConfig.isNone_iff (x : DocConfig) : x.isNone = true ↔ x.browser = none := by
  simp [DocConfig.isNone, and_assoc]

theorem FutureIncompatReportConfig.isNone_iff (x : FutureIncompatReportConfig) : x.isNone = true ↔ x.frequency = none := by
  simp [FutureIncompatReportConfig.isNone, and_assoc]

theorem CargoNewConfig.isNone_iff (x : CargoNewConfig) : x.isNone = true ↔ x.vcs = none := by
  simp [CargoNewConfig.isNone, and_assoc]

theorem HttpConfig.isNone_iff (x : HttpConfig) : x.isNone = true ↔ x.debug = none ∧ x.proxy = none ∧ x.timeout = none ∧ x.cainfo = none ∧ x.checkRevoke = none ∧ x.lowSpeedLimit = none ∧ x.multiplexing = none ∧ x.userAgent = none := by
  simp [HttpConfig.isNone, and_assoc]

theorem NetConfig.isNone_iff (x : NetConfig) : x.isNone = true ↔ x.retry = none ∧ x.gitFetchWithCli = none ∧ x.offline = none := by
  simp [NetConfig.isNone, and_assoc]

theorem RegistryConfig.isNone_iff (x : RegistryConfig) : x.isNone = true ↔ x.default = none ∧ x.token = none := by
  simp [RegistryConfig.isNone, and_assoc]

theorem TermProgress.isNone_iff (x : TermProgress) : x.isNone = true ↔ x.when = none ∧ x.width = none := by
  simp [TermProgress.isNone, and_assoc]

theorem TermConfig.isNone_iff (x : TermConfig) : x.isNone = true ↔ x.quiet = none ∧ x.verbose = none ∧ x.color = none ∧
    x.progress.when = none ∧ x.progress.width = none := by
  simp [TermConfig.isNone, TermProgress.isNone_iff, and_assoc]

/-! ### The config without locations, and with flags spelled as arrays -/

/-- Without the location. -/
def Val.bare {α : Type} (v : Val α) : Val α := { val := v.val, defn := none }

/-- Without locations, spelled as an array. -/
def Flags.bare (f : Flags) : Flags := { flags := f.flags.map Val.bare, repr := .array }

/-- Without locations. -/
def PathAndArgs.bare (x : PathAndArgs) : PathAndArgs :=
  { path := x.path.bare, args := x.args.map Val.bare, repr := x.repr }

/-- Without locations. -/
def StringList.bare (x : StringList) : StringList := { list := x.list.map Val.bare, repr := x.repr }

/-- Without locations. -/
def StringOrArray.bare : StringOrArray → StringOrArray
  | .string s => .string s.bare
  | .array l => .array (l.map Val.bare)

/-- Without locations. -/
def EnvConfigValue.bare : EnvConfigValue → EnvConfigValue
  | .value v => .value v.bare
  | .table v f r => .table v.bare (f.map Val.bare) (r.map Val.bare)

/-- Without locations. -/
def BuildConfig.bare (x : BuildConfig) : BuildConfig :=
  { jobs := x.jobs.map Val.bare
    rustc := x.rustc.map Val.bare
    rustcWrapper := x.rustcWrapper.map Val.bare
    rustcWorkspaceWrapper := x.rustcWorkspaceWrapper.map Val.bare
    rustdoc := x.rustdoc.map Val.bare
    target := x.target.map StringOrArray.bare
    targetDir := x.targetDir.map Val.bare
    rustflags := x.rustflags.map Flags.bare
    rustdocflags := x.rustdocflags.map Flags.bare
    incremental := x.incremental.map Val.bare
    depInfoBasedir := x.depInfoBasedir.map Val.bare
    overrideTargetRustflags := false
    overrideTargetRustdocflags := false }

/-- Without locations. -/
def TargetConfig.bare (x : TargetConfig) : TargetConfig :=
  { linker := x.linker.map Val.bare
    runner := x.runner.map PathAndArgs.bare
    rustflags := x.rustflags.map Flags.bare
    rustdocflags := x.rustdocflags.map Flags.bare }

/-- Without locations. -/
def DocConfig.bare (x : DocConfig) : DocConfig :=
  { browser := x.browser.map PathAndArgs.bare }

/-- Without locations. -/
def FutureIncompatReportConfig.bare (x : FutureIncompatReportConfig) : FutureIncompatReportConfig :=
  { frequency := x.frequency.map Val.bare }

/-- Without locations. -/
def CargoNewConfig.bare (x : CargoNewConfig) : CargoNewConfig :=
  { vcs := x.vcs.map Val.bare }

/-- Without locations. -/
def HttpConfig.bare (x : HttpConfig) : HttpConfig :=
  { debug := x.debug.map Val.bare
    proxy := x.proxy.map Val.bare
    timeout := x.timeout.map Val.bare
    cainfo := x.cainfo.map Val.bare
    checkRevoke := x.checkRevoke.map Val.bare
    lowSpeedLimit := x.lowSpeedLimit.map Val.bare
    multiplexing := x.multiplexing.map Val.bare
    userAgent := x.userAgent.map Val.bare }

/-- Without locations. -/
def NetConfig.bare (x : NetConfig) : NetConfig :=
  { retry := x.retry.map Val.bare
    gitFetchWithCli := x.gitFetchWithCli.map Val.bare
    offline := x.offline.map Val.bare }

/-- Without locations. -/
def RegistriesConfigValue.bare (x : RegistriesConfigValue) : RegistriesConfigValue :=
  { index := x.index.map Val.bare
    token := x.token.map Val.bare
    protocol := x.protocol.map Val.bare }

/-- Without locations. -/
def RegistryConfig.bare (x : RegistryConfig) : RegistryConfig :=
  { default := x.default.map Val.bare
    token := x.token.map Val.bare }

/-- Without locations. -/
def TermProgress.bare (x : TermProgress) : TermProgress :=
  { when := x.when.map Val.bare
    width := x.width.map Val.bare }

/-- Without locations. -/
def TermConfig.bare (x : TermConfig) : TermConfig :=
  { quiet := x.quiet.map Val.bare
    verbose := x.verbose.map Val.bare
    color := x.color.map Val.bare
    progress := x.progress.bare }

/-- Without locations. -/
def Config.bare (c : Config) : Config :=
  { alias := c.alias.mapVals StringList.bare
    build := c.build.bare
    doc := c.doc.bare
    env := c.env.mapVals EnvConfigValue.bare
    futureIncompatReport := c.futureIncompatReport.bare
    cargoNew := c.cargoNew.bare
    http := c.http.bare
    net := c.net.bare
    registries := c.registries.mapVals RegistriesConfigValue.bare
    registry := c.registry.bare
    target := c.target.mapVals TargetConfig.bare
    term := c.term.bare }

/-! ### Reading what was written -/

theorem deField_ser {α : Type} {l : List (Str × Toml)} {k : String} {f : Toml → Res α} {o : Option α} {g : α → α}
    {s : α → Toml} (h : BMap.get l k.toList = o.map s) (hf : ∀ a, o = some a → f (s a) = .ok (g a)) :
    deField l k f = .ok (o.map g) := by
  apply deField_of_rel
  rw [h]
  cases o with
  | none => exact .none
  | some a => exact .some (hf a rfl)

theorem deSection_ser {α : Type} {l : List (Str × Toml)} {k : String} {f : Toml → Res α} {d x : α} {b : Bool} {t : Toml}
    (h : BMap.get l k.toList = if b then none else some t) (hd : b = true → x = d) (hf : f t = .ok x) :
    deSection l k d f = .ok x := by
  unfold deSection
  rw [h]
  cases b with
  | true => rw [hd rfl]; rfl
  | false => exact hf

theorem deStr_ser (v : Val Str) : deVal deStr (serVal .str v) = .ok v.bare := rfl
theorem deBool_ser (v : Val Bool) : deVal deBool (serVal .bool v) = .ok v.bare := rfl

theorem deI32_ser {v : Val Int} (h : -2147483648 ≤ v.val ∧ v.val ≤ 2147483647) :
    deVal deI32 (serVal .int v) = .ok v.bare := by
  simp only [deVal, serVal, deI32, if_pos h]; rfl

theorem deU32_ser {v : Val Nat} (h : v.val ≤ 4294967295) : deVal deU32 (serVal serNat v) = .ok v.bare := by
  have : (0 : Int) ≤ (v.val : Int) ∧ (v.val : Int) ≤ 4294967295 := by omega
  simp only [deVal, serVal, serNat, deU32, if_pos this, Int.toNat_natCast]; rfl

theorem Vcs.de_ser (v : Val Vcs) : deVal Vcs.de (serVal (fun x => .str x.serName) v) = .ok v.bare := by
  obtain ⟨v, d⟩ := v; cases v <;> rfl
theorem Protocol.de_ser (v : Val Protocol) : deVal Protocol.de (serVal (fun x => .str x.serName) v) = .ok v.bare := by
  obtain ⟨v, d⟩ := v; cases v <;> rfl
theorem Color.de_ser (v : Val Color) : deVal Color.de (serVal (fun x => .str x.serName) v) = .ok v.bare := by
  obtain ⟨v, d⟩ := v; cases v <;> rfl
theorem When.de_ser (v : Val When) : deVal When.de (serVal (fun x => .str x.serName) v) = .ok v.bare := by
  obtain ⟨v, d⟩ := v; cases v <;> rfl
theorem Frequency.de_ser (v : Val Frequency) : deVal Frequency.de (serVal (fun x => .str x.serName) v) = .ok v.bare := by
  obtain ⟨v, d⟩ := v; cases v <;> rfl

theorem deList_ser (l : List (Val Str)) : deList (serList l) = .ok (l.map Val.bare) := deElems_of_strs l

theorem StringOrArray.de_serList (l : List (Val Str)) : StringOrArray.de (serList l) = .ok (.array (l.map Val.bare)) := by
  show (deList (serList l) >>= fun l => .ok (StringOrArray.array l)) = _
  rw [deList_ser]; rfl

theorem Flags.de_ser (f : Flags) : Flags.de f.ser = .ok f.bare := by
  simp only [Flags.de, Flags.ser, StringOrArray.de_serList]; rfl

theorem StringOrArray.de_ser (x : StringOrArray) : StringOrArray.de x.ser = .ok x.bare := by
  cases x with
  | string s => rfl
  | array l => exact StringOrArray.de_serList l

theorem pushArgs_eq (s : Str) (l : List (Val Str)) : pushArgs s l = joinWith ' ' (s :: l.map Val.val) := by
  induction l generalizing s with
  | nil => rfl
  | cons a l ih =>
    rw [pushArgs, ih]
    cases l <;> simp [joinWith]

theorem pushWords_eq (l : List (Val Str)) (h : ∀ v ∈ l, v.val ≠ []) :
    pushWords [] l = joinWith ' ' (l.map Val.val) := by
  have key : ∀ (l : List (Val Str)) (s : Str), s ≠ [] → pushWords s l = joinWith ' ' (s :: l.map Val.val) := by
    intro l
    induction l with
    | nil => intro s _; rfl
    | cons a l ih =>
      intro s hs
      have hs' : (!s.isEmpty) = true := by cases s with
        | nil => exact absurd rfl hs
        | cons _ _ => rfl
      rw [pushWords, hs', if_pos rfl, ih _ (by simp)]
      cases l <;> simp [joinWith]
  cases l with
  | nil => rfl
  | cons a l =>
    rw [pushWords]
    exact key l a.val (h a (by simp))

theorem StringList.de_ser {x : StringList} (h : x.repr = .string → ∀ v ∈ x.list, Word v.val) :
    StringList.de x.ser = .ok x.bare := by
  obtain ⟨l, r⟩ := x
  cases r with
  | array => simp only [StringList.de, StringList.ser, StringOrArray.de_serList]; rfl
  | string =>
    have h := h rfl
    simp only [StringList.de, StringList.ser, StringOrArray.de, Res.ok_bind, StringList.fromString, StringList.bare]
    rw [pushWords_eq _ (fun v hv => (h v hv).1), splitSpaceSeparated_join]
    · simp only [List.map_map]; rfl
    · intro w hw
      simp only [List.mem_map] at hw
      obtain ⟨v, hv, rfl⟩ := hw
      exact h v hv

theorem PathAndArgs.de_ser {x : PathAndArgs} (h : x.repr = .string → ∀ v ∈ x.path :: x.args, Word v.val) :
    PathAndArgs.de x.ser = .ok x.bare := by
  obtain ⟨p, l, r⟩ := x
  cases r with
  | array => simp only [PathAndArgs.de, PathAndArgs.ser, StringOrArray.de_serList]; rfl
  | string =>
    have h := h rfl
    simp only [PathAndArgs.de, PathAndArgs.ser, StringOrArray.de, Res.ok_bind, PathAndArgs.fromString, PathAndArgs.bare]
    rw [pushArgs_eq, splitSpaceSeparated_join]
    · simp only [List.map_map]; rfl
    · intro w hw
      rw [← List.map_cons (f := Val.val)] at hw
      simp only [List.mem_map] at hw
      obtain ⟨v, hv, rfl⟩ := hw
      exact h v hv

theorem EnvConfigValue.de_ser (x : EnvConfigValue) : EnvConfigValue.de x.ser = .ok x.bare := by
  cases x with
  | value v => rfl
  | table v f r =>
    simp only [EnvConfigValue.ser]
    generalize hl : ([("value".toList, serVal Toml.str v)] ++ serField "force" f (serVal .bool) ++ serField "relative" r (serVal .bool)) = l
    have h1 : BMap.get l "value".toList = (some v).map (serVal .str) := by
      rw [← hl]; simp only [BMap.get_append, get_serField, BMap.get]; simp
    have h2 : BMap.get l "force".toList = f.map (serVal .bool) := by
      rw [← hl]; simp only [BMap.get_append, get_serField, BMap.get]; simp
    have h3 : BMap.get l "relative".toList = r.map (serVal .bool) := by
      rw [← hl]; simp only [BMap.get_append, get_serField, BMap.get]; simp
    have h1' := deField_ser (f := deVal deStr) (g := Val.bare) h1 (fun v _ => deStr_ser v)
    have h2' := deField_ser (f := deVal deBool) (g := Val.bare) h2 (fun v _ => deBool_ser v)
    have h3' := deField_ser (f := deVal deBool) (g := Val.bare) h3 (fun v _ => deBool_ser v)
    simp only [EnvConfigValue.de, h1', h2', h3', Res.ok_bind]
    rfl

theorem BuildConfig.de_ser (x : BuildConfig)
    (h_jobs : ∀ v, x.jobs = some v → -2147483648 ≤ v.val ∧ v.val ≤ 2147483647) :
    BuildConfig.de x.ser = .ok x.bare := by
  obtain ⟨l, hl, g0, g1, g2, g3, g4, g5, g6, g7, g8, g9, g10⟩ := BuildConfig.ser_get x
  rw [hl]
  have d0 := deField_ser (f := deVal deI32) (g := Val.bare) g0 (fun v hv => deI32_ser (h_jobs v hv))
  have d1 := deField_ser (f := deVal deStr) (g := Val.bare) g1 (fun v _ => deStr_ser v)
  have d2 := deField_ser (f := deVal deStr) (g := Val.bare) g2 (fun v _ => deStr_ser v)
  have d3 := deField_ser (f := deVal deStr) (g := Val.bare) g3 (fun v _ => deStr_ser v)
  have d4 := deField_ser (f := deVal deStr) (g := Val.bare) g4 (fun v _ => deStr_ser v)
  have d5 := deField_ser (f := StringOrArray.de) (g := StringOrArray.bare) g5 (fun v _ => StringOrArray.de_ser v)
  have d6 := deField_ser (f := deVal deStr) (g := Val.bare) g6 (fun v _ => deStr_ser v)
  have d7 := deField_ser (f := Flags.de) (g := Flags.bare) g7 (fun v _ => Flags.de_ser v)
  have d8 := deField_ser (f := Flags.de) (g := Flags.bare) g8 (fun v _ => Flags.de_ser v)
  have d9 := deField_ser (f := deVal deBool) (g := Val.bare) g9 (fun v _ => deBool_ser v)
  have d10 := deField_ser (f := deVal deStr) (g := Val.bare) g10 (fun v _ => deStr_ser v)
  simp only [BuildConfig.de, d0, d1, d2, d3, d4, d5, d6, d7, d8, d9, d10, Res.ok_bind]
  rfl

theorem TargetConfig.de_ser (x : TargetConfig)
    (h_runner : ∀ v, x.runner = some v → v.repr = .string → ∀ w ∈ v.path :: v.args, Word w.val) :
    TargetConfig.de x.ser = .ok x.bare := by
  obtain ⟨l, hl, g0, g1, g2, g3⟩ := TargetConfig.ser_get x
  rw [hl]
  have d0 := deField_ser (f := deVal deStr) (g := Val.bare) g0 (fun v _ => deStr_ser v)
  have d1 := deField_ser (f := PathAndArgs.de) (g := PathAndArgs.bare) g1 (fun v hv => PathAndArgs.de_ser (h_runner v hv))
  have d2 := deField_ser (f := Flags.de) (g := Flags.bare) g2 (fun v _ => Flags.de_ser v)
  have d3 := deField_ser (f := Flags.de) (g := Flags.bare) g3 (fun v _ => Flags.de_ser v)
  simp only [TargetConfig.de, d0, d1, d2, d3, Res.ok_bind]
  rfl

theorem DocConfig.de_ser (x : DocConfig)
    (h_browser : ∀ v, x.browser = some v → v.repr = .string → ∀ w ∈ v.path :: v.args, Word w.val) :
    DocConfig.de x.ser = .ok x.bare := by
  obtain ⟨l, hl, g0⟩ := DocConfig.ser_get x
  rw [hl]
  have d0 := deField_ser (f := PathAndArgs.de) (g := PathAndArgs.bare) g0 (fun v hv => PathAndArgs.de_ser (h_browser v hv))
  simp only [DocConfig.de, d0, Res.ok_bind]
  rfl

theorem FutureIncompatReportConfig.de_ser (x : FutureIncompatReportConfig) :
    FutureIncompatReportConfig.de x.ser = .ok x.bare := by
  obtain ⟨l, hl, g0⟩ := FutureIncompatReportConfig.ser_get x
  rw [hl]
  have d0 := deField_ser (f := deVal Frequency.de) (g := Val.bare) g0 (fun v _ => Frequency.de_ser v)
  simp only [FutureIncompatReportConfig.de, d0, Res.ok_bind]
  rfl

theorem CargoNewConfig.de_ser (x : CargoNewConfig) :
    CargoNewConfig.de x.ser = .ok x.bare := by
  obtain ⟨l, hl, g0⟩ := CargoNewConfig.ser_get x
  rw [hl]
  have d0 := deField_ser (f := deVal Vcs.de) (g := Val.bare) g0 (fun v _ => Vcs.de_ser v)
  simp only [CargoNewConfig.de, d0, Res.ok_bind]
  rfl

theorem HttpConfig.de_ser (x : HttpConfig)
    (h_timeout : ∀ v, x.timeout = some v → v.val ≤ 4294967295)
    (h_lowSpeedLimit : ∀ v, x.lowSpeedLimit = some v → v.val ≤ 4294967295) :
    HttpConfig.de x.ser = .ok x.bare := by
  obtain ⟨l, hl, g0, g1, g2, g3, g4, g5, g6, g7⟩ := HttpConfig.ser_get x
  rw [hl]
  have d0 := deField_ser (f := deVal deBool) (g := Val.bare) g0 (fun v _ => deBool_ser v)
  have d1 := deField_ser (f := deVal deStr) (g := Val.bare) g1 (fun v _ => deStr_ser v)
  have d2 := deField_ser (f := deVal deU32) (g := Val.bare) g2 (fun v hv => deU32_ser (h_timeout v hv))
  have d3 := deField_ser (f := deVal deStr) (g := Val.bare) g3 (fun v _ => deStr_ser v)
  have d4 := deField_ser (f := deVal deBool) (g := Val.bare) g4 (fun v _ => deBool_ser v)
  have d5 := deField_ser (f := deVal deU32) (g := Val.bare) g5 (fun v hv => deU32_ser (h_lowSpeedLimit v hv))
  have d6 := deField_ser (f := deVal deBool) (g := Val.bare) g6 (fun v _ => deBool_ser v)
  have d7 := deField_ser (f := deVal deStr) (g := Val.bare) g7 (fun v _ => deStr_ser v)
  simp only [HttpConfig.de, d0, d1, d2, d3, d4, d5, d6, d7, Res.ok_bind]
  rfl

theorem NetConfig.de_ser (x : NetConfig)
    (h_retry : ∀ v, x.retry = some v → v.val ≤ 4294967295) :
    NetConfig.de x.ser = .ok x.bare := by
  obtain ⟨l, hl, g0, g1, g2⟩ := NetConfig.ser_get x
  rw [hl]
  have d0 := deField_ser (f := deVal deU32) (g := Val.bare) g0 (fun v hv => deU32_ser (h_retry v hv))
  have d1 := deField_ser (f := deVal deBool) (g := Val.bare) g1 (fun v _ => deBool_ser v)
  have d2 := deField_ser (f := deVal deBool) (g := Val.bare) g2 (fun v _ => deBool_ser v)
  simp only [NetConfig.de, d0, d1, d2, Res.ok_bind]
  rfl

theorem RegistriesConfigValue.de_ser (x : RegistriesConfigValue) :
    RegistriesConfigValue.de x.ser = .ok x.bare := by
  obtain ⟨l, hl, g0, g1, g2⟩ := RegistriesConfigValue.ser_get x
  rw [hl]
  have d0 := deField_ser (f := deVal deStr) (g := Val.bare) g0 (fun v _ => deStr_ser v)
  have d1 := deField_ser (f := deVal deStr) (g := Val.bare) g1 (fun v _ => deStr_ser v)
  have d2 := deField_ser (f := deVal Protocol.de) (g := Val.bare) g2 (fun v _ => Protocol.de_ser v)
  simp only [RegistriesConfigValue.de, d0, d1, d2, Res.ok_bind]
  rfl

theorem RegistryConfig.de_ser (x : RegistryConfig) :
    RegistryConfig.de x.ser = .ok x.bare := by
  obtain ⟨l, hl, g0, g1⟩ := RegistryConfig.ser_get x
  rw [hl]
  have d0 := deField_ser (f := deVal deStr) (g := Val.bare) g0 (fun v _ => deStr_ser v)
  have d1 := deField_ser (f := deVal deStr) (g := Val.bare) g1 (fun v _ => deStr_ser v)
  simp only [RegistryConfig.de, d0, d1, Res.ok_bind]
  rfl

theorem TermProgress.de_ser (x : TermProgress)
    (h_width : ∀ v, x.width = some v → v.val ≤ 4294967295) :
    TermProgress.de x.ser = .ok x.bare := by
  obtain ⟨l, hl, g0, g1⟩ := TermProgress.ser_get x
  rw [hl]
  have d0 := deField_ser (f := deVal When.de) (g := Val.bare) g0 (fun v _ => When.de_ser v)
  have d1 := deField_ser (f := deVal deU32) (g := Val.bare) g1 (fun v hv => deU32_ser (h_width v hv))
  simp only [TermProgress.de, d0, d1, Res.ok_bind]
  rfl

theorem TermProgress.bare_default {x : TermProgress} (h : x.isNone = true) : x.bare = {} := by
  obtain ⟨h1, h2⟩ := (TermProgress.isNone_iff x).1 h
  simp [TermProgress.bare, h1, h2]

theorem TermConfig.de_ser (x : TermConfig) (h_width : ∀ v, x.progress.width = some v → v.val ≤ 4294967295) :
    TermConfig.de x.ser = .ok x.bare := by
  obtain ⟨l, hl, g0, g1, g2, g3⟩ := TermConfig.ser_get x
  rw [hl]
  have d0 := deField_ser (f := deVal deBool) (g := Val.bare) g0 (fun v _ => deBool_ser v)
  have d1 := deField_ser (f := deVal deBool) (g := Val.bare) g1 (fun v _ => deBool_ser v)
  have d2 := deField_ser (f := deVal Color.de) (g := Val.bare) g2 (fun v _ => Color.de_ser v)
  have d3 := deSection_ser (f := TermProgress.de) (d := {}) g3 TermProgress.bare_default (TermProgress.de_ser _ h_width)
  simp only [TermConfig.de, d0, d1, d2, d3, Res.ok_bind]
  rfl

theorem deEntries_ser {V : Type} {s : V → Toml} {f : Toml → Res V} {g : V → V} :
    ∀ {m : BMap V} {acc : BMap V}, m.Sorted → acc.Sorted → (∀ e ∈ acc, ∀ e' ∈ m, strLt e.1 e'.1 = true) →
    (∀ e ∈ m, f (s e.2) = .ok (g e.2)) → deEntries f acc (m.mapVals s) = .ok (acc ++ m.mapVals g) := by
  intro m
  induction m with
  | nil => intro acc _ _ _ _; simp [BMap.mapVals, deEntries]
  | cons e m ih =>
    obtain ⟨k, v⟩ := e
    intro acc hm hacc hlt hf
    have hfv : f (s v) = .ok (g v) := hf (k, v) (by simp)
    have hins : BMap.insert k (g v) acc = acc ++ [(k, g v)] := by
      have : ∀ e ∈ acc, strLt e.1 k = true := fun e he => hlt e he (k, v) (by simp)
      clear hlt hacc
      induction acc with
      | nil => rfl
      | cons e acc ih2 =>
        obtain ⟨k', v'⟩ := e
        have h1 : strLt k' k = true := this (k', v') (by simp)
        have hne : k ≠ k' := fun h => strLt_ne h1 h.symm
        simp only [BMap.insert, hne, if_false, strLt_asymm h1, Bool.false_eq_true, List.cons_append]
        rw [ih2 (fun e he => this e (by simp [he]))]
    show (f (s v) >>= fun a => deEntries f (BMap.insert k a acc) (BMap.mapVals s m)) = _
    rw [hfv, Res.ok_bind, hins, ih hm.tail]
    · simp [BMap.mapVals]
    · rw [BMap.Sorted, List.pairwise_append]
      refine ⟨hacc, by simp, ?_⟩
      intro a ha b hb
      simp only [List.mem_singleton] at hb
      subst hb
      exact hlt a ha (k, v) (by simp)
    · intro a ha b hb
      rcases List.mem_append.1 ha with ha | ha
      · exact hlt a ha b (by simp [hb])
      · simp only [List.mem_singleton] at ha
        subst ha
        exact hm.head b hb
    · intro a ha; exact hf a (by simp [ha])

theorem deMap_ser {V : Type} {s : V → Toml} {f : Toml → Res V} {g : V → V} {m : BMap V} (hm : m.Sorted)
    (hf : ∀ k v, BMap.get m k = some v → f (s v) = .ok (g v)) : deMap f (serMap s m) = .ok (m.mapVals g) :=
  deEntries_ser hm BMap.sorted_nil (by simp) (fun e he => hf e.1 e.2 (BMap.get_of_mem hm he))

end CC
