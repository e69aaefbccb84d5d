import Verif.Spec.Moved
/-
Lemmas on moving the config files: merging, the environment and resolving do not look at where values come from.
-/
namespace CC

/-! ### Outcomes -/

theorem Alike.bind {α α' β β' : Type} {R : α → α' → Prop} {S : β → β' → Prop} {r : Res α} {r' : Res α'} {f : α → Res β} {f' : α' → Res β'}
    (h : Alike R r r') (hf : ∀ a a', R a a' → Alike S (f a) (f' a')) : Alike S (r >>= f) (r' >>= f') := by
  cases r <;> cases r' <;> first | exact h.elim | skip
  · exact hf _ _ h
  · trivial
  · trivial

theorem Alike.mono {α α' : Type} {R S : α → α' → Prop} {r : Res α} {r' : Res α'} (h : Alike R r r') (hf : ∀ a a', R a a' → S a a') :
    Alike S r r' := by
  cases r <;> cases r' <;> first | exact h.elim | skip
  · exact hf _ _ h
  · trivial
  · trivial

theorem Alike.refl {α : Type} {R : α → α → Prop} (hr : ∀ a, R a a) (r : Res α) : Alike R r r := by
  cases r
  · exact hr _
  · trivial
  · trivial

theorem Alike.withContext {α α' : Type} {R : α → α' → Prop} {r : Res α} {r' : Res α'} (h : Alike R r r') (m m' : Str) (a a' : List Str)
    (d d' : List Dbg) : Alike R (r.withContext m a d) (r'.withContext m' a' d') := by
  cases r <;> cases r' <;> first | exact h.elim | skip
  · exact h
  · trivial
  · trivial

/-! ### Lists and maps -/

theorem ListRel.append {α β : Type} {R : α → β → Prop} {a b : List α} {a' b' : List β} (h : ListRel R a a') (h' : ListRel R b b') :
    ListRel R (a ++ b) (a' ++ b') := by
  induction h with
  | nil => exact h'
  | cons h _ ih => exact .cons h ih

theorem ListRel.map {α β γ δ : Type} {R : α → β → Prop} {S : γ → δ → Prop} {a : List α} {a' : List β} (h : ListRel R a a')
    {f : α → γ} {g : β → δ} (hf : ∀ x y, R x y → S (f x) (g y)) : ListRel S (a.map f) (a'.map g) := by
  induction h with
  | nil => exact .nil
  | cons h _ ih => exact .cons (hf _ _ h) ih

theorem ListRel.eq {α : Type} {a a' : List α} (h : ListRel Eq a a') : a = a' := by
  induction h with
  | nil => rfl
  | cons h _ ih => rw [h, ih]

theorem ListRel.refl {α : Type} {R : α → α → Prop} (hr : ∀ a, R a a) (l : List α) : ListRel R l l := by
  induction l with
  | nil => exact .nil
  | cons a l ih => exact .cons (hr a) ih

theorem ListRel.mono {α β : Type} {R S : α → β → Prop} {a : List α} {a' : List β} (h : ListRel R a a')
    (hf : ∀ x y, R x y → S x y) : ListRel S a a' := by
  induction h with
  | nil => exact .nil
  | cons h _ ih => exact .cons (hf _ _ h) ih

theorem OptionRel.map {α β γ δ : Type} {R : α → β → Prop} {S : γ → δ → Prop} {a : Option α} {a' : Option β} (h : OptionRel R a a')
    {f : α → γ} {g : β → δ} (hf : ∀ x y, R x y → S (f x) (g y)) : OptionRel S (a.map f) (a'.map g) := by
  cases h with
  | none => exact .none
  | some h => exact .some (hf _ _ h)

theorem OptionRel.eq {α : Type} {a a' : Option α} (h : OptionRel Eq a a') : a = a' := by
  cases h with
  | none => rfl
  | some h => rw [h]

theorem OptionRel.refl {α : Type} {R : α → α → Prop} (hr : ∀ a, R a a) (a : Option α) : OptionRel R a a := by
  cases a
  · exact .none
  · exact .some (hr _)

/-- Maps with the same keys and related values. -/
def MapRel {V W : Type} (R : V → W → Prop) (m : BMap V) (m' : BMap W) : Prop := ListRel (fun e e' => e.1 = e'.1 ∧ R e.2 e'.2) m m'

theorem MapRel.get {V W : Type} {R : V → W → Prop} {m : BMap V} {m' : BMap W} (h : MapRel R m m') (k : Str) :
    OptionRel R (m.get k) (m'.get k) := by
  induction h with
  | nil => exact .none
  | @cons a b as bs h _ ih =>
    obtain ⟨k1, v1⟩ := a
    obtain ⟨k2, v2⟩ := b
    obtain ⟨h1, h2⟩ := h
    dsimp only at h1 h2
    subst h1
    unfold BMap.get
    split
    · exact .some h2
    · exact ih

theorem MapRel.insert {V W : Type} {R : V → W → Prop} {m : BMap V} {m' : BMap W} (h : MapRel R m m') (k : Str) {v : V} {v' : W} (hv : R v v') :
    MapRel R (m.insert k v) (m'.insert k v') := by
  induction h with
  | nil => exact .cons ⟨rfl, hv⟩ .nil
  | @cons a b as bs h hs ih =>
    obtain ⟨k1, v1⟩ := a
    obtain ⟨k2, v2⟩ := b
    obtain ⟨h1, h2⟩ := h
    dsimp only at h1 h2
    subst h1
    unfold BMap.insert
    split
    · exact .cons ⟨rfl, hv⟩ hs
    · split
      · exact .cons ⟨rfl, hv⟩ (.cons ⟨rfl, h2⟩ hs)
      · exact .cons ⟨rfl, h2⟩ ih

theorem MapRel.mapVals {V X : Type} {R : V → V → Prop} {m m' : BMap V} (h : MapRel R m m') {f : V → X}
    (hf : ∀ v w, R v w → f v = f w) : m.mapVals f = m'.mapVals f := by
  induction h with
  | nil => rfl
  | @cons a b as bs h hs ih =>
    obtain ⟨k1, v1⟩ := a
    obtain ⟨k2, v2⟩ := b
    obtain ⟨h1, h2⟩ := h
    dsimp only at h1 h2
    subst h1
    show (k1, f v1) :: _ = (k1, f v2) :: _
    rw [hf _ _ h2]
    exact congrArg _ ih

/-! ### Unresolved configs -/

section
variable (D : Definition → Definition → Prop)

/-- The same value, from corresponding places. -/
def VRel {α : Type} (v v' : Val α) : Prop := v.val = v'.val ∧ OptionRel D v.defn v'.defn
/-- Optional values. -/
abbrev ORel {α : Type} (v v' : Option (Val α)) : Prop := OptionRel (VRel D) v v'
/-- Flags. -/
def FRel (v v' : Flags) : Prop := v.repr = v'.repr ∧ ListRel (VRel D) v.flags v'.flags
/-- String lists. -/
def SRel (v v' : StringList) : Prop := v.repr = v'.repr ∧ ListRel (VRel D) v.list v'.list
/-- Commands. -/
def PRel (v v' : PathAndArgs) : Prop := v.repr = v'.repr ∧ VRel D v.path v'.path ∧ ListRel (VRel D) v.args v'.args
/-- Strings or arrays. -/
inductive ARel : StringOrArray → StringOrArray → Prop where
  | string {s s'} : VRel D s s' → ARel (.string s) (.string s')
  | array {l l'} : ListRel (VRel D) l l' → ARel (.array l) (.array l')
/-- Entries of `[env]`. -/
inductive ERel : EnvConfigValue → EnvConfigValue → Prop where
  | value {s s'} : VRel D s s' → ERel (.value s) (.value s')
  | table {v v' f f' r r'} : VRel D v v' → ORel D f f' → ORel D r r' → ERel (.table v f r) (.table v' f' r')
/-- `[build]`. -/
structure BRel (b b' : BuildConfig) : Prop where
  jobs : ORel D b.jobs b'.jobs
  rustc : ORel D b.rustc b'.rustc
  rustcWrapper : ORel D b.rustcWrapper b'.rustcWrapper
  rustcWorkspaceWrapper : ORel D b.rustcWorkspaceWrapper b'.rustcWorkspaceWrapper
  rustdoc : ORel D b.rustdoc b'.rustdoc
  target : OptionRel (ARel D) b.target b'.target
  targetDir : ORel D b.targetDir b'.targetDir
  rustflags : OptionRel (FRel D) b.rustflags b'.rustflags
  rustdocflags : OptionRel (FRel D) b.rustdocflags b'.rustdocflags
  incremental : ORel D b.incremental b'.incremental
  depInfoBasedir : ORel D b.depInfoBasedir b'.depInfoBasedir
  o1 : b.overrideTargetRustflags = b'.overrideTargetRustflags
  o2 : b.overrideTargetRustdocflags = b'.overrideTargetRustdocflags
/-- Tables of targets. -/
structure TRel (t t' : TargetConfig) : Prop where
  linker : ORel D t.linker t'.linker
  runner : OptionRel (PRel D) t.runner t'.runner
  rustflags : OptionRel (FRel D) t.rustflags t'.rustflags
  rustdocflags : OptionRel (FRel D) t.rustdocflags t'.rustdocflags
/-- `[http]`. -/
structure HRel (h h' : HttpConfig) : Prop where
  debug : ORel D h.debug h'.debug
  proxy : ORel D h.proxy h'.proxy
  timeout : ORel D h.timeout h'.timeout
  cainfo : ORel D h.cainfo h'.cainfo
  checkRevoke : ORel D h.checkRevoke h'.checkRevoke
  lowSpeedLimit : ORel D h.lowSpeedLimit h'.lowSpeedLimit
  multiplexing : ORel D h.multiplexing h'.multiplexing
  userAgent : ORel D h.userAgent h'.userAgent
/-- `[net]`. -/
structure NRel (n n' : NetConfig) : Prop where
  retry : ORel D n.retry n'.retry
  gitFetchWithCli : ORel D n.gitFetchWithCli n'.gitFetchWithCli
  offline : ORel D n.offline n'.offline
/-- Registries. -/
structure RsRel (r r' : RegistriesConfigValue) : Prop where
  index : ORel D r.index r'.index
  token : ORel D r.token r'.token
  protocol : ORel D r.protocol r'.protocol
/-- `[registry]`. -/
structure RgRel (r r' : RegistryConfig) : Prop where
  default : ORel D r.default r'.default
  token : ORel D r.token r'.token
/-- `[term.progress]`. -/
structure TpRel (t t' : TermProgress) : Prop where
  when : ORel D t.when t'.when
  width : ORel D t.width t'.width
/-- `[term]`. -/
structure TmRel (t t' : TermConfig) : Prop where
  quiet : ORel D t.quiet t'.quiet
  verbose : ORel D t.verbose t'.verbose
  color : ORel D t.color t'.color
  progress : TpRel D t.progress t'.progress
/-- Configs. -/
structure CRel (c c' : Config) : Prop where
  alias : MapRel (SRel D) c.alias c'.alias
  build : BRel D c.build c'.build
  doc : OptionRel (PRel D) c.doc.browser c'.doc.browser
  env : MapRel (ERel D) c.env c'.env
  futureIncompatReport : ORel D c.futureIncompatReport.frequency c'.futureIncompatReport.frequency
  cargoNew : ORel D c.cargoNew.vcs c'.cargoNew.vcs
  http : HRel D c.http c'.http
  net : NRel D c.net c'.net
  registries : MapRel (RsRel D) c.registries c'.registries
  registry : RgRel D c.registry c'.registry
  target : MapRel (TRel D) c.target c'.target
  term : TmRel D c.term c'.term

theorem CRel.empty : CRel D {} {} := by
  constructor <;> first | exact .nil | exact .none | (constructor <;> first | exact .none | rfl | (constructor <;> exact .none))

variable {D}

/-! ### Setting the path -/

theorem setPath_val {α : Type} {p p' : Path} (h : D (.path p) (.path p')) (v : Val α) : VRel D (v.setPath p) (v.setPath p') :=
  ⟨rfl, .some h⟩

theorem setPath_opt {α : Type} {p p' : Path} (h : D (.path p) (.path p')) (v : Option (Val α)) :
    ORel D (v.map (Val.setPath p)) (v.map (Val.setPath p')) := by
  cases v
  · exact .none
  · exact .some (setPath_val h _)

theorem setPath_list {p p' : Path} (h : D (.path p) (.path p')) (l : List (Val Str)) :
    ListRel (VRel D) (setPathList p l) (setPathList p' l) := by
  induction l with
  | nil => exact .nil
  | cons v l ih => exact .cons (setPath_val h v) ih

theorem optRel_map {α β : Type} {R : β → β → Prop} {f g : α → β} (h : ∀ x, R (f x) (g x)) (o : Option α) : OptionRel R (o.map f) (o.map g) := by
  cases o
  · exact .none
  · exact .some (h _)

theorem mapRel_map {α β : Type} {R : β → β → Prop} {f g : α → β} (h : ∀ x, R (f x) (g x)) (m : BMap α) : MapRel R (m.mapVals f) (m.mapVals g) := by
  induction m with
  | nil => exact .nil
  | cons e m ih => exact .cons ⟨rfl, h _⟩ ih

theorem setPath_rel {p p' : Path} (h : D (.path p) (.path p')) (c : Config) : CRel D (c.setPath p) (c.setPath p') := by
  have hf : ∀ o : Option Flags, OptionRel (FRel D) (o.map (Flags.setPath p)) (o.map (Flags.setPath p')) :=
    optRel_map fun x => ⟨rfl, setPath_list h x.flags⟩
  have hp : ∀ o : Option PathAndArgs, OptionRel (PRel D) (o.map (PathAndArgs.setPath p)) (o.map (PathAndArgs.setPath p')) :=
    optRel_map fun x => ⟨rfl, setPath_val h _, setPath_list h x.args⟩
  have hs : ∀ o : Option StringOrArray, OptionRel (ARel D) (o.map (StringOrArray.setPath p)) (o.map (StringOrArray.setPath p')) :=
    optRel_map fun x => match x with
      | .string _ => .string (setPath_val h _)
      | .array _ => .array (setPath_list h _)
  have he : ∀ x : EnvConfigValue, ERel D (x.setPath p) (x.setPath p') := fun x => match x with
    | .value _ => .value (setPath_val h _)
    | .table _ _ _ => .table (setPath_val h _) (setPath_opt h _) (setPath_opt h _)
  exact {
    alias := mapRel_map (fun x => ⟨rfl, setPath_list h x.list⟩) _
    build := ⟨setPath_opt h _, setPath_opt h _, setPath_opt h _, setPath_opt h _, setPath_opt h _,
      hs _,
      setPath_opt h _, hf _, hf _, setPath_opt h _, setPath_opt h _, rfl, rfl⟩
    doc := hp _
    env := mapRel_map he _
    futureIncompatReport := setPath_opt h _
    cargoNew := setPath_opt h _
    http := ⟨setPath_opt h _, setPath_opt h _, setPath_opt h _, setPath_opt h _, setPath_opt h _, setPath_opt h _, setPath_opt h _, setPath_opt h _⟩
    net := ⟨setPath_opt h _, setPath_opt h _, setPath_opt h _⟩
    registries := mapRel_map (fun x => ⟨setPath_opt h _, setPath_opt h _, setPath_opt h _⟩) _
    registry := ⟨setPath_opt h _, setPath_opt h _⟩
    target := mapRel_map (fun x => ⟨setPath_opt h _, hp _, hf _, hf _⟩) _
    term := ⟨setPath_opt h _, setPath_opt h _, setPath_opt h _, setPath_opt h _, setPath_opt h _⟩ }

/-! ### Merging -/

/-- The merger does not look at places. -/
def Natural {V : Type} (R : V → V → Prop) (m : Merger V) : Prop :=
  ∀ a a' b b' f, R a a' → R b b' → Alike R (m a b f) (m a' b' f)

theorem Natural.scalar {V : Type} (R : V → V → Prop) : Natural R mergeScalar := by
  intro a a' b b' f ha hb
  cases f
  · exact ha
  · exact hb

theorem Natural.opt {V : Type} {R : V → V → Prop} {m : Merger V} (hm : Natural R m) : Natural (OptionRel R) (mergeOpt m) := by
  intro a a' b b' f ha hb
  cases ha with
  | none =>
    cases hb with
    | none => exact .none
    | some hb => exact .some hb
  | some ha =>
    cases hb with
    | none => exact .some ha
    | some hb => exact .bind (hm _ _ _ _ f ha hb) fun _ _ h => .some h

theorem natural_opt {α : Type} : Natural (ORel D (α := α)) (mergeOpt mergeScalar) := Natural.opt (.scalar _)

theorem Natural.map {V : Type} {R : V → V → Prop} {m : Merger V} (hm : Natural R m) (d d' : V → V → Bool → List Dbg) {a a' b b' : BMap V}
    (f : Bool) (ha : MapRel R a a') (hb : MapRel R b b') : Alike (MapRel R) (mergeMap d m a b f) (mergeMap d' m a' b' f) := by
  induction hb generalizing a a' with
  | nil => exact ha
  | @cons x y as bs h hs ih =>
    obtain ⟨k1, v1⟩ := x
    obtain ⟨k2, v2⟩ := y
    obtain ⟨h1, h2⟩ := h
    dsimp only at h1 h2
    subst h1
    have hg := ha.get k1
    unfold mergeMap
    generalize BMap.get a k1 = o at hg
    generalize BMap.get a' k1 = o' at hg
    cases hg with
    | none => exact ih (ha.insert k1 h2)
    | some hg => exact .bind ((hm _ _ _ _ f hg h2).withContext _ _ _ _ _ _) fun _ _ h => ih (ha.insert k1 h)

theorem natural_stringOrArray : Natural (ARel D) mergeStringOrArray := by
  intro a a' b b' f ha hb
  cases ha <;> cases hb
  · cases f
    · exact ARel.string ‹_›
    · exact ARel.string ‹_›
  · trivial
  · trivial
  · exact ARel.array (ListRel.append ‹_› ‹_›)

theorem natural_flags : Natural (FRel D) mergeFlags := by
  rintro ⟨a, ra⟩ ⟨a', ra'⟩ ⟨b, rb⟩ ⟨b', rb'⟩ f ⟨h1, h2⟩ ⟨h3, h4⟩
  cases h1
  cases h3
  cases ra <;> cases rb
  · cases f
    · exact ⟨rfl, h2⟩
    · exact ⟨rfl, h4⟩
  · trivial
  · trivial
  · exact ⟨rfl, h4.append h2⟩

theorem natural_stringList : Natural (SRel D) mergeStringList := by
  rintro ⟨a, ra⟩ ⟨a', ra'⟩ ⟨b, rb⟩ ⟨b', rb'⟩ f ⟨h1, h2⟩ ⟨h3, h4⟩
  cases h1
  cases h3
  cases ra <;> cases rb
  · cases f
    · exact ⟨rfl, h2⟩
    · exact ⟨rfl, h4⟩
  · trivial
  · trivial
  · exact ⟨rfl, h4.append h2⟩

theorem natural_prog : Natural (PRel D) mergePathAndArgs := by
  rintro ⟨p, a, ra⟩ ⟨p', a', ra'⟩ ⟨q, b, rb⟩ ⟨q', b', rb'⟩ f ⟨h1, h2, h2'⟩ ⟨h3, h4, h4'⟩
  cases h1
  cases h3
  cases ra <;> cases rb
  · cases f
    · exact ⟨rfl, h2, h2'⟩
    · exact ⟨rfl, h4, h4'⟩
  · trivial
  · trivial
  · exact ⟨rfl, h2, (h2'.append (.cons h4 .nil)).append h4'⟩

theorem natural_env : Natural (ERel D) mergeEnvConfigValue := by
  intro a a' b b' f ha hb
  cases ha <;> cases hb
  · cases f
    · exact ERel.value ‹_›
    · exact ERel.value ‹_›
  · trivial
  · trivial
  · rename_i v1 f1 r1 _ _ _ _ _ _ v2 f2 r2
    exact .bind (Natural.scalar _ _ _ _ _ f v1 v2) fun _ _ hv => .bind (natural_opt _ _ _ _ f f1 f2) fun _ _ hf =>
      .bind (natural_opt _ _ _ _ f r1 r2) fun _ _ hr => ERel.table hv hf hr

theorem natural_target : Natural (TRel D) mergeTarget := by
  intro a a' b b' f ha hb
  exact .bind (natural_opt _ _ _ _ f ha.linker hb.linker) fun _ _ h1 => .bind (natural_prog.opt _ _ _ _ f ha.runner hb.runner) fun _ _ h2 =>
    .bind (natural_flags.opt _ _ _ _ f ha.rustflags hb.rustflags) fun _ _ h3 =>
    .bind (natural_flags.opt _ _ _ _ f ha.rustdocflags hb.rustdocflags) fun _ _ h4 => (TRel.mk h1 h2 h3 h4 : TRel D _ _)

theorem natural_registries : Natural (RsRel D) mergeRegistries := by
  intro a a' b b' f ha hb
  exact .bind (natural_opt _ _ _ _ f ha.index hb.index) fun _ _ h1 => .bind (natural_opt _ _ _ _ f ha.token hb.token) fun _ _ h2 =>
    .bind (natural_opt _ _ _ _ f ha.protocol hb.protocol) fun _ _ h3 => (RsRel.mk h1 h2 h3 : RsRel D _ _)

theorem natural_registry : Natural (RgRel D) mergeRegistry := by
  intro a a' b b' f ha hb
  exact .bind (natural_opt _ _ _ _ f ha.default hb.default) fun _ _ h1 => .bind (natural_opt _ _ _ _ f ha.token hb.token) fun _ _ h2 =>
    (RgRel.mk h1 h2 : RgRel D _ _)

theorem natural_net : Natural (NRel D) mergeNet := by
  intro a a' b b' f ha hb
  exact .bind (natural_opt _ _ _ _ f ha.retry hb.retry) fun _ _ h1 =>
    .bind (natural_opt _ _ _ _ f ha.gitFetchWithCli hb.gitFetchWithCli) fun _ _ h2 =>
    .bind (natural_opt _ _ _ _ f ha.offline hb.offline) fun _ _ h3 => (NRel.mk h1 h2 h3 : NRel D _ _)

theorem natural_http : Natural (HRel D) mergeHttp := by
  intro a a' b b' f ha hb
  exact .bind (natural_opt _ _ _ _ f ha.debug hb.debug) fun _ _ h1 => .bind (natural_opt _ _ _ _ f ha.proxy hb.proxy) fun _ _ h2 =>
    .bind (natural_opt _ _ _ _ f ha.timeout hb.timeout) fun _ _ h3 => .bind (natural_opt _ _ _ _ f ha.cainfo hb.cainfo) fun _ _ h4 =>
    .bind (natural_opt _ _ _ _ f ha.checkRevoke hb.checkRevoke) fun _ _ h5 =>
    .bind (natural_opt _ _ _ _ f ha.lowSpeedLimit hb.lowSpeedLimit) fun _ _ h6 =>
    .bind (natural_opt _ _ _ _ f ha.multiplexing hb.multiplexing) fun _ _ h7 =>
    .bind (natural_opt _ _ _ _ f ha.userAgent hb.userAgent) fun _ _ h8 => (HRel.mk h1 h2 h3 h4 h5 h6 h7 h8 : HRel D _ _)

theorem natural_term : Natural (TmRel D) mergeTerm := by
  intro a a' b b' f ha hb
  exact .bind (natural_opt _ _ _ _ f ha.quiet hb.quiet) fun _ _ h1 => .bind (natural_opt _ _ _ _ f ha.verbose hb.verbose) fun _ _ h2 =>
    .bind (natural_opt _ _ _ _ f ha.color hb.color) fun _ _ h3 =>
    .bind (R := TpRel D) (.bind (natural_opt _ _ _ _ f ha.progress.when hb.progress.when) fun _ _ h4 =>
      .bind (natural_opt _ _ _ _ f ha.progress.width hb.progress.width) fun _ _ h5 => TpRel.mk h4 h5) fun _ _ h4 => TmRel.mk h1 h2 h3 h4

theorem natural_build : Natural (BRel D) mergeBuild := by
  intro a a' b b' f ha hb
  exact .bind (natural_opt _ _ _ _ f ha.jobs hb.jobs) fun _ _ h1 => .bind (natural_opt _ _ _ _ f ha.rustc hb.rustc) fun _ _ h2 =>
    .bind (natural_opt _ _ _ _ f ha.rustcWrapper hb.rustcWrapper) fun _ _ h3 =>
    .bind (natural_opt _ _ _ _ f ha.rustcWorkspaceWrapper hb.rustcWorkspaceWrapper) fun _ _ h4 =>
    .bind (natural_opt _ _ _ _ f ha.rustdoc hb.rustdoc) fun _ _ h5 =>
    .bind (natural_stringOrArray.opt _ _ _ _ f ha.target hb.target) fun _ _ h6 =>
    .bind (natural_opt _ _ _ _ f ha.targetDir hb.targetDir) fun _ _ h7 =>
    .bind (natural_flags.opt _ _ _ _ f ha.rustflags hb.rustflags) fun _ _ h8 =>
    .bind (natural_flags.opt _ _ _ _ f ha.rustdocflags hb.rustdocflags) fun _ _ h9 =>
    .bind (natural_opt _ _ _ _ f ha.incremental hb.incremental) fun _ _ h10 =>
    .bind (natural_opt _ _ _ _ f ha.depInfoBasedir hb.depInfoBasedir) fun _ _ h11 =>
      (BRel.mk h1 h2 h3 h4 h5 h6 h7 h8 h9 h10 h11 ha.o1 ha.o2 : BRel D ⟨_, _, _, _, _, _, _, _, _, _, _, _, _⟩ ⟨_, _, _, _, _, _, _, _, _, _, _, _, _⟩)

theorem natural_config : Natural (CRel D) mergeConfig := by
  intro a a' b b' f ha hb
  exact .bind (natural_stringList.map _ _ f ha.alias hb.alias) fun _ _ h1 => .bind (natural_build _ _ _ _ f ha.build hb.build) fun _ _ h2 =>
    .bind (R := fun (x y : DocConfig) => OptionRel (PRel D) x.browser y.browser)
      (.bind (natural_prog.opt _ _ _ _ f ha.doc hb.doc) fun _ _ h => h) fun _ _ h3 =>
    .bind (natural_env.map _ _ f ha.env hb.env) fun _ _ h4 =>
    .bind (R := fun (x y : FutureIncompatReportConfig) => ORel D x.frequency y.frequency)
      (.bind (natural_opt _ _ _ _ f ha.futureIncompatReport hb.futureIncompatReport) fun _ _ h => h) fun _ _ h5 =>
    .bind (R := fun (x y : CargoNewConfig) => ORel D x.vcs y.vcs)
      (.bind (natural_opt _ _ _ _ f ha.cargoNew hb.cargoNew) fun _ _ h => h) fun _ _ h6 =>
    .bind (natural_http _ _ _ _ f ha.http hb.http) fun _ _ h7 => .bind (natural_net _ _ _ _ f ha.net hb.net) fun _ _ h8 =>
    .bind (natural_registries.map _ _ f ha.registries hb.registries) fun _ _ h9 =>
    .bind (natural_registry _ _ _ _ f ha.registry hb.registry) fun _ _ h10 =>
    .bind (natural_target.map _ _ f ha.target hb.target) fun _ _ h11 => .bind (natural_term _ _ _ _ f ha.term hb.term) fun _ _ h12 =>
      (CRel.mk h1 h2 h3 h4 h5 h6 h7 h8 h9 h10 h11 h12 : CRel D _ _)

/-! ### Loading -/

theorem loadFile_rel {fs fs' : Fs} {parse : Str → Res Config} {p p' : Path} (hr : fs.read p = fs'.read p') (h : D (.path p) (.path p')) :
    Alike (CRel D) (loadFile fs parse p) (loadFile fs' parse p') := by
  unfold loadFile
  rw [hr]
  exact .bind ((Alike.refl (R := Eq) (fun _ => rfl) _).withContext _ _ _ _ _ _) fun _ _ h1 => by
    subst h1
    exact .bind ((Alike.refl (R := Eq) (fun _ => rfl) _).withContext _ _ _ _ _ _) fun _ _ h2 => by
      subst h2
      exact setPath_rel h _

theorem loadLoop_rel {fs fs' : Fs} {parse : Str → Res Config} {ps ps' : List Path}
    (h : ListRel (fun p p' => fs.read p = fs'.read p' ∧ D (.path p) (.path p')) ps ps') {b b' : Option (Path × Config)}
    (hb : OptionRel (fun x y => CRel D x.2 y.2) b b') :
    Alike (OptionRel fun x y => CRel D x.2 y.2) (loadLoop fs parse ps b) (loadLoop fs' parse ps' b') := by
  induction h generalizing b b' with
  | nil => exact hb
  | cons h _ ih =>
    unfold loadLoop
    refine .bind (loadFile_rel h.1 h.2) fun c c' hc => ?_
    cases hb with
    | none => exact ih (.some hc)
    | some hb =>
      rename_i x y
      exact .bind ((natural_config _ _ _ _ _ hb hc).withContext _ _ _ _ _ _) fun _ _ h' => ih (.some h')

theorem loadPaths_rel {fs fs' : Fs} {parse : Str → Res Config} {ps ps' : List Path}
    (h : ListRel (fun p p' => fs.read p = fs'.read p' ∧ D (.path p) (.path p')) ps ps') :
    Alike (CRel D) (loadPaths fs parse ps) (loadPaths fs' parse ps') := by
  unfold loadPaths
  refine .bind (loadLoop_rel h .none) fun c c' hc => ?_
  cases hc with
  | none => exact CRel.empty D
  | some hc => exact hc

end

end CC
