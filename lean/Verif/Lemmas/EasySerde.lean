import Verif.Model.EasySerde
import Verif.Lemmas.SerdePaths
/-
The resolved config is written like the unresolved config that has the same values, without locations and with all lists as arrays.
-/
namespace CC

/-- A value without location. -/
def unlocated {α : Type} (a : α) : Val α := ⟨a, none⟩

def EFlags.toDe (f : EFlags) : Flags := ⟨f.flags.map unlocated, .array⟩

def EStringList.toDe (l : EStringList) : StringList := ⟨l.list.map unlocated, .array⟩

def EPathAndArgs.toDe (x : EPathAndArgs) : PathAndArgs := ⟨unlocated x.path, x.args.map unlocated, .array⟩

/-- Present if set. -/
def toDeFlag : Bool → Option (Val Bool)
  | false => none
  | true => some (unlocated true)

def EEnvValue.toDe (e : EEnvValue) : EnvConfigValue :=
  match e.force, e.relative with
  | false, false => .value (unlocated e.value)
  | f, r => .table (unlocated e.value) (toDeFlag f) (toDeFlag r)

def EBuild.toDe (b : EBuild) : BuildConfig :=
  { jobs := b.jobs.map unlocated
    rustc := b.rustc.map unlocated
    rustcWrapper := b.rustcWrapper.map unlocated
    rustcWorkspaceWrapper := b.rustcWorkspaceWrapper.map unlocated
    rustdoc := b.rustdoc.map unlocated
    target := b.target.map fun l => .array (l.map fun t => unlocated t.cliTarget)
    targetDir := b.targetDir.map unlocated
    rustflags := b.rustflags.map EFlags.toDe
    rustdocflags := b.rustdocflags.map EFlags.toDe
    incremental := b.incremental.map unlocated
    depInfoBasedir := b.depInfoBasedir.map unlocated }

def ETarget.toDe (t : ETarget) : TargetConfig :=
  { linker := t.linker.map unlocated
    runner := t.runner.map EPathAndArgs.toDe
    rustflags := t.rustflags.map EFlags.toDe
    rustdocflags := t.rustdocflags.map EFlags.toDe }

def EHttp.toDe (h : EHttp) : HttpConfig :=
  { debug := h.debug.map unlocated
    proxy := h.proxy.map unlocated
    timeout := h.timeout.map unlocated
    cainfo := h.cainfo.map unlocated
    checkRevoke := h.checkRevoke.map unlocated
    lowSpeedLimit := h.lowSpeedLimit.map unlocated
    multiplexing := h.multiplexing.map unlocated
    userAgent := h.userAgent.map unlocated }

def ENet.toDe (n : ENet) : NetConfig :=
  { retry := n.retry.map unlocated
    gitFetchWithCli := n.gitFetchWithCli.map unlocated
    offline := n.offline.map unlocated }

def ERegistries.toDe (r : ERegistries) : RegistriesConfigValue :=
  { index := r.index.map unlocated
    token := r.token.map unlocated
    protocol := r.protocol.map unlocated }

def ERegistry.toDe (r : ERegistry) : RegistryConfig :=
  { default := r.default.map unlocated
    token := r.token.map unlocated }

def ETermProgress.toDe (p : ETermProgress) : TermProgress :=
  { when := p.when.map unlocated
    width := p.width.map unlocated }

def ETerm.toDe (t : ETerm) : TermConfig :=
  { quiet := t.quiet.map unlocated
    verbose := t.verbose.map unlocated
    color := t.color.map unlocated
    progress := t.progress.toDe }

def EConfig.toDe (c : EConfig) (ts : BMap ETarget) : Config :=
  { alias := c.alias.mapVals EStringList.toDe
    build := c.build.toDe
    doc := { browser := c.doc.browser.map EPathAndArgs.toDe }
    env := c.env.mapVals EEnvValue.toDe
    futureIncompatReport := { frequency := c.futureIncompatReport.frequency.map unlocated }
    cargoNew := { vcs := c.cargoNew.vcs.map unlocated }
    http := c.http.toDe
    net := c.net.toDe
    registries := c.registries.mapVals ERegistries.toDe
    registry := c.registry.toDe
    target := ts.mapVals ETarget.toDe
    term := c.term.toDe }

theorem serField_map {α β : Type} {k : String} {o : Option α} {g : α → β} {f : β → Toml} {f' : α → Toml}
    (h : ∀ a, f' a = f (g a)) : serField k o f' = serField k (o.map g) f := by
  cases o with
  | none => rfl
  | some a => simp only [serField, Option.map_some, h]

theorem serMap_map {V W : Type} {g : V → W} {f : W → Toml} {f' : V → Toml} (h : ∀ a, f' a = f (g a)) (m : BMap V) :
    serMap f' m = serMap f (m.mapVals g) := by
  simp only [serMap]
  congr 1
  induction m with
  | nil => rfl
  | cons e m ih =>
    simp only [BMap.mapVals, List.map_cons, h] at ih ⊢
    rw [ih]

theorem serStrs_toDe (l : List Str) : serStrs l = serList (l.map unlocated) := by
  simp only [serStrs, serList, List.map_map]; rfl

theorem EFlags.ser_toDe (f : EFlags) : f.ser = f.toDe.ser := serStrs_toDe _

theorem EStringList.ser_toDe (l : EStringList) : l.ser = l.toDe.ser := serStrs_toDe _

theorem EPathAndArgs.ser_toDe (x : EPathAndArgs) : x.ser = x.toDe.ser := serStrs_toDe (x.path :: x.args)

theorem EEnvValue.ser_toDe (e : EEnvValue) : e.ser = e.toDe.ser := by
  obtain ⟨v, f, r⟩ := e
  cases f <;> cases r <;> rfl

theorem isNone_map {α β : Type} (g : α → β) (o : Option α) : (o.map g).isNone = o.isNone := by cases o <;> rfl

theorem EBuild.ser_toDe (b : EBuild) : b.ser = b.toDe.ser ∧ b.isNone = b.toDe.isNone := by
  constructor
  · simp only [EBuild.ser, BuildConfig.ser, EBuild.toDe]
    rw [serField_map (f' := Toml.int) (f := serVal Toml.int) (g := unlocated) fun _ => rfl]
    simp only [serField_map (f' := Toml.str) (f := serVal Toml.str) (g := unlocated) fun _ => rfl,
      serField_map (f' := Toml.bool) (f := serVal Toml.bool) (g := unlocated) fun _ => rfl,
      serField_map (f' := EFlags.ser) (f := Flags.ser) (g := EFlags.toDe) EFlags.ser_toDe]
    rw [serField_map (f' := fun l : List TargetTriple => serStrs (l.map TargetTriple.serialize)) (f := StringOrArray.ser) (g := fun l => StringOrArray.array (l.map fun t : TargetTriple => unlocated t.cliTarget))]
    intro l
    rw [serStrs_toDe, List.map_map]
    rfl
  · simp only [EBuild.isNone, BuildConfig.isNone, EBuild.toDe, isNone_map]

theorem ETarget.ser_toDe (t : ETarget) : t.ser = t.toDe.ser := by
  simp only [ETarget.ser, TargetConfig.ser, ETarget.toDe,
    serField_map (f' := Toml.str) (f := serVal Toml.str) (g := unlocated) fun _ => rfl,
    serField_map (f' := EFlags.ser) (f := Flags.ser) (g := EFlags.toDe) EFlags.ser_toDe,
    serField_map (f' := EPathAndArgs.ser) (f := PathAndArgs.ser) (g := EPathAndArgs.toDe) EPathAndArgs.ser_toDe]

theorem EHttp.ser_toDe (h : EHttp) : h.ser = h.toDe.ser ∧ h.isNone = h.toDe.isNone := by
  constructor
  · simp only [EHttp.ser, HttpConfig.ser, EHttp.toDe,
      serField_map (f' := Toml.str) (f := serVal Toml.str) (g := unlocated) fun _ => rfl,
      serField_map (f' := Toml.bool) (f := serVal Toml.bool) (g := unlocated) fun _ => rfl,
      serField_map (f' := serNat) (f := serVal serNat) (g := unlocated) fun _ => rfl]
  · simp only [EHttp.isNone, HttpConfig.isNone, EHttp.toDe, isNone_map]

theorem ENet.ser_toDe (n : ENet) : n.ser = n.toDe.ser ∧ n.isNone = n.toDe.isNone := by
  constructor
  · simp only [ENet.ser, NetConfig.ser, ENet.toDe,
      serField_map (f' := Toml.bool) (f := serVal Toml.bool) (g := unlocated) fun _ => rfl,
      serField_map (f' := serNat) (f := serVal serNat) (g := unlocated) fun _ => rfl]
  · simp only [ENet.isNone, NetConfig.isNone, ENet.toDe, isNone_map]

theorem ERegistries.ser_toDe (r : ERegistries) : r.ser = r.toDe.ser := by
  simp only [ERegistries.ser, RegistriesConfigValue.ser, ERegistries.toDe,
    serField_map (f' := Toml.str) (f := serVal Toml.str) (g := unlocated) fun _ => rfl]
  rw [serField_map (f' := fun x : Protocol => Toml.str x.serName) (f := serVal fun x : Protocol => Toml.str x.serName) (g := unlocated) fun _ => rfl]

theorem ERegistry.ser_toDe (r : ERegistry) : r.ser = r.toDe.ser ∧ r.isNone = r.toDe.isNone := by
  constructor
  · simp only [ERegistry.ser, RegistryConfig.ser, ERegistry.toDe,
      serField_map (f' := Toml.str) (f := serVal Toml.str) (g := unlocated) fun _ => rfl]
  · simp only [ERegistry.isNone, RegistryConfig.isNone, ERegistry.toDe, isNone_map]

theorem ETermProgress.ser_toDe (p : ETermProgress) : p.ser = p.toDe.ser ∧ p.isNone = p.toDe.isNone := by
  constructor
  · simp only [ETermProgress.ser, TermProgress.ser, ETermProgress.toDe,
      serField_map (f' := serNat) (f := serVal serNat) (g := unlocated) fun _ => rfl]
    rw [serField_map (f' := fun x : When => Toml.str x.serName) (f := serVal fun x : When => Toml.str x.serName) (g := unlocated) fun _ => rfl]
  · simp only [ETermProgress.isNone, TermProgress.isNone, ETermProgress.toDe, isNone_map]

theorem ETerm.ser_toDe (t : ETerm) : t.ser = t.toDe.ser ∧ t.isNone = t.toDe.isNone := by
  constructor
  · simp only [ETerm.ser, TermConfig.ser, ETerm.toDe, (ETermProgress.ser_toDe _).1, (ETermProgress.ser_toDe _).2,
      serField_map (f' := Toml.bool) (f := serVal Toml.bool) (g := unlocated) fun _ => rfl]
    rw [serField_map (f' := fun x : Color => Toml.str x.serName) (f := serVal fun x : Color => Toml.str x.serName) (g := unlocated) fun _ => rfl]
  · simp only [ETerm.isNone, TermConfig.isNone, ETerm.toDe, isNone_map, (ETermProgress.ser_toDe _).2]

theorem isEmpty_mapVals {V W : Type} (g : V → W) (m : BMap V) : (m.mapVals g).isEmpty = m.isEmpty := by cases m <;> rfl

/-- The resolved config is written like its unresolved counterpart. -/
theorem EConfig.ser_toDe (c : EConfig) (s : Cells) : c.ser s = (c.toDe s.target).ser := by
  simp only [EConfig.ser, Config.ser, EConfig.toDe, isEmpty_mapVals, (EBuild.ser_toDe _).1, (EBuild.ser_toDe _).2,
    (EHttp.ser_toDe _).1, (EHttp.ser_toDe _).2, (ENet.ser_toDe _).1, (ENet.ser_toDe _).2, (ERegistry.ser_toDe _).1,
    (ERegistry.ser_toDe _).2, (ETerm.ser_toDe _).1, (ETerm.ser_toDe _).2,
    serMap_map EStringList.ser_toDe, serMap_map EEnvValue.ser_toDe, serMap_map ERegistries.ser_toDe, serMap_map ETarget.ser_toDe]
  congr 2
  · simp only [EDoc.ser, DocConfig.ser, EDoc.isNone, DocConfig.isNone, isNone_map,
      serField_map (f' := EPathAndArgs.ser) (f := PathAndArgs.ser) (g := EPathAndArgs.toDe) EPathAndArgs.ser_toDe,
      EFutureIncompatReport.ser, FutureIncompatReportConfig.ser, EFutureIncompatReport.isNone, FutureIncompatReportConfig.isNone,
      ECargoNew.ser, CargoNewConfig.ser, ECargoNew.isNone, CargoNewConfig.isNone]
    rw [serField_map (f' := fun x : Frequency => Toml.str x.serName) (f := serVal fun x : Frequency => Toml.str x.serName) (g := unlocated) fun _ => rfl,
      serField_map (f' := fun x : Vcs => Toml.str x.serName) (f := serVal fun x : Vcs => Toml.str x.serName) (g := unlocated) fun _ => rfl]

end CC
