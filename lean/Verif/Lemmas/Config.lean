import Verif.Lemmas.MergeRec
import Verif.Spec.Config
/-
Merging of whole configs, by key.
-/
namespace CC

/-- The maps of a config are sorted. -/
structure Config.Maps (c : Config) : Prop where
  alias : c.alias.Sorted
  env : c.env.Sorted
  registries : c.registries.Sorted
  target : c.target.Sorted

theorem Config.WF.maps {c : Config} (h : c.WF) : c.Maps := ⟨h.alias, h.env, h.registries, h.target⟩

theorem mergeConfig_ok_iff' {a b r : Config} {f : Bool} : mergeConfig a b f = .ok r ↔
    mergeMap (clash StringList.dbg) mergeStringList a.alias b.alias f = .ok r.alias ∧
    mergeBuild a.build b.build f = .ok r.build ∧
    mergeDoc a.doc b.doc f = .ok r.doc ∧
    mergeMap (clash EnvConfigValue.dbg) mergeEnvConfigValue a.env b.env f = .ok r.env ∧
    mergeFutureIncompatReport a.futureIncompatReport b.futureIncompatReport f = .ok r.futureIncompatReport ∧
    mergeCargoNew a.cargoNew b.cargoNew f = .ok r.cargoNew ∧
    mergeHttp a.http b.http f = .ok r.http ∧
    mergeNet a.net b.net f = .ok r.net ∧
    mergeMap (clash RegistriesConfigValue.dbg) mergeRegistries a.registries b.registries f = .ok r.registries ∧
    mergeRegistry a.registry b.registry f = .ok r.registry ∧
    mergeMap clashTarget mergeTarget a.target b.target f = .ok r.target ∧
    mergeTerm a.term b.term f = .ok r.term := by
  simp only [mergeConfig, Res.bind_eq_ok]
  constructor
  · rintro ⟨x0, h0, x1, h1, x2, h2, x3, h3, x4, h4, x5, h5, x6, h6, x7, h7, x8, h8, x9, h9, x10, h10, x11, h11, h⟩
    cases h
    exact ⟨h0, h1, h2, h3, h4, h5, h6, h7, h8, h9, h10, h11⟩
  · rintro ⟨h0, h1, h2, h3, h4, h5, h6, h7, h8, h9, h10, h11⟩
    exact ⟨_, h0, _, h1, _, h2, _, h3, _, h4, _, h5, _, h6, _, h7, _, h8, _, h9, _, h10, _, h11, by cases r; rfl⟩

/-- The merge of two configs, pointwise. -/
structure MergedFields (a b r : Config) (f : Bool) : Prop where
  maps : r.Maps
  alias : ∀ k, mergeOpt mergeStringList (a.alias.get k) (b.alias.get k) f = .ok (r.alias.get k)
  build : mergeBuild a.build b.build f = .ok r.build
  doc : mergeDoc a.doc b.doc f = .ok r.doc
  env : ∀ k, mergeOpt mergeEnvConfigValue (a.env.get k) (b.env.get k) f = .ok (r.env.get k)
  fir : mergeFutureIncompatReport a.futureIncompatReport b.futureIncompatReport f = .ok r.futureIncompatReport
  cargoNew : mergeCargoNew a.cargoNew b.cargoNew f = .ok r.cargoNew
  http : mergeHttp a.http b.http f = .ok r.http
  net : mergeNet a.net b.net f = .ok r.net
  registries : ∀ k, mergeOpt mergeRegistries (a.registries.get k) (b.registries.get k) f = .ok (r.registries.get k)
  registry : mergeRegistry a.registry b.registry f = .ok r.registry
  target : ∀ k, mergeOpt mergeTarget (a.target.get k) (b.target.get k) f = .ok (r.target.get k)
  term : mergeTerm a.term b.term f = .ok r.term

theorem mergeConfig_ok_iff {a b r : Config} {f : Bool} (ha : a.Maps) (hb : b.Maps) :
    mergeConfig a b f = .ok r ↔ MergedFields a b r f := by
  rw [mergeConfig_ok_iff', mergeMap_ok_iff ha.alias hb.alias, mergeMap_ok_iff ha.env hb.env,
    mergeMap_ok_iff ha.registries hb.registries, mergeMap_ok_iff ha.target hb.target]
  constructor
  · rintro ⟨h0, h1, h2, h3, h4, h5, h6, h7, h8, h9, h10, h11⟩
    exact ⟨⟨h0.1, h3.1, h8.1, h10.1⟩, h0.2, h1, h2, h3.2, h4, h5, h6, h7, h8.2, h9, h10.2, h11⟩
  · rintro ⟨m, h0, h1, h2, h3, h4, h5, h6, h7, h8, h9, h10, h11⟩
    exact ⟨⟨m.alias, h0⟩, h1, h2, ⟨m.env, h3⟩, h4, h5, h6, h7, ⟨m.registries, h8⟩, h9, ⟨m.target, h10⟩, h11⟩

theorem MergedFields.wf {a b r : Config} {f : Bool} (h : MergedFields a b r f) (ha : a.WF) : r.WF := by
  obtain ⟨-, -, -, -, -, -, -, -, -, -, -, e1, e2⟩ := mergeBuild_ok_iff.1 h.build
  exact ⟨h.maps.alias, h.maps.env, h.maps.registries, h.maps.target,
    e1.trans ha.overrideTargetRustflags, e2.trans ha.overrideTargetRustdocflags⟩

theorem mergeConfig_noPanic (a b : Config) (f : Bool) : mergeConfig a b f ≠ .panic := by
  unfold mergeConfig
  refine Res.bind_ne_panic (mergeMap_noPanic stringListLaw) fun _ _ => ?_
  refine Res.bind_ne_panic (buildLaw.noPanic _ _ _) fun _ _ => ?_
  refine Res.bind_ne_panic (docLaw.noPanic _ _ _) fun _ _ => ?_
  refine Res.bind_ne_panic (mergeMap_noPanic envLaw) fun _ _ => ?_
  refine Res.bind_ne_panic (futureIncompatReportLaw.noPanic _ _ _) fun _ _ => ?_
  refine Res.bind_ne_panic (cargoNewLaw.noPanic _ _ _) fun _ _ => ?_
  refine Res.bind_ne_panic (httpLaw.noPanic _ _ _) fun _ _ => ?_
  refine Res.bind_ne_panic (netLaw.noPanic _ _ _) fun _ _ => ?_
  refine Res.bind_ne_panic (mergeMap_noPanic registriesLaw) fun _ _ => ?_
  refine Res.bind_ne_panic (registryLaw.noPanic _ _ _) fun _ _ => ?_
  refine Res.bind_ne_panic (mergeMap_noPanic targetLaw) fun _ _ => ?_
  refine Res.bind_ne_panic (termLaw.noPanic _ _ _) fun _ _ => ?_
  simp

theorem mergeConfig_assoc {a b c r : Config} {f : Bool} (ha : a.Maps) (hb : b.Maps) (hc : c.Maps) :
    (∃ ab, mergeConfig a b f = .ok ab ∧ mergeConfig ab c f = .ok r) ↔
    (∃ bc, mergeConfig b c f = .ok bc ∧ mergeConfig a bc f = .ok r) := by
  constructor
  · rintro ⟨w, h1, h2⟩
    rw [mergeConfig_ok_iff'] at h1 h2
    obtain ⟨p0, p1, p2, p3, p4, p5, p6, p7, p8, p9, p10, p11⟩ := h1
    obtain ⟨q0, q1, q2, q3, q4, q5, q6, q7, q8, q9, q10, q11⟩ := h2
    obtain ⟨y0, s0, t0⟩ := (mergeMap_assoc stringListLaw ha.alias hb.alias hc.alias).1 ⟨_, p0, q0⟩
    obtain ⟨y1, s1, t1⟩ := (buildLaw.assoc f _ _ _ _).1 ⟨_, p1, q1⟩
    obtain ⟨y2, s2, t2⟩ := (docLaw.assoc f _ _ _ _).1 ⟨_, p2, q2⟩
    obtain ⟨y3, s3, t3⟩ := (mergeMap_assoc envLaw ha.env hb.env hc.env).1 ⟨_, p3, q3⟩
    obtain ⟨y4, s4, t4⟩ := (futureIncompatReportLaw.assoc f _ _ _ _).1 ⟨_, p4, q4⟩
    obtain ⟨y5, s5, t5⟩ := (cargoNewLaw.assoc f _ _ _ _).1 ⟨_, p5, q5⟩
    obtain ⟨y6, s6, t6⟩ := (httpLaw.assoc f _ _ _ _).1 ⟨_, p6, q6⟩
    obtain ⟨y7, s7, t7⟩ := (netLaw.assoc f _ _ _ _).1 ⟨_, p7, q7⟩
    obtain ⟨y8, s8, t8⟩ := (mergeMap_assoc registriesLaw ha.registries hb.registries hc.registries).1 ⟨_, p8, q8⟩
    obtain ⟨y9, s9, t9⟩ := (registryLaw.assoc f _ _ _ _).1 ⟨_, p9, q9⟩
    obtain ⟨y10, s10, t10⟩ := (mergeMap_assoc targetLaw ha.target hb.target hc.target).1 ⟨_, p10, q10⟩
    obtain ⟨y11, s11, t11⟩ := (termLaw.assoc f _ _ _ _).1 ⟨_, p11, q11⟩
    exact ⟨⟨y0, y1, y2, y3, y4, y5, y6, y7, y8, y9, y10, y11⟩,
      mergeConfig_ok_iff'.2 ⟨s0, s1, s2, s3, s4, s5, s6, s7, s8, s9, s10, s11⟩,
      mergeConfig_ok_iff'.2 ⟨t0, t1, t2, t3, t4, t5, t6, t7, t8, t9, t10, t11⟩⟩
  · rintro ⟨w, h1, h2⟩
    rw [mergeConfig_ok_iff'] at h1 h2
    obtain ⟨p0, p1, p2, p3, p4, p5, p6, p7, p8, p9, p10, p11⟩ := h1
    obtain ⟨q0, q1, q2, q3, q4, q5, q6, q7, q8, q9, q10, q11⟩ := h2
    obtain ⟨y0, s0, t0⟩ := (mergeMap_assoc stringListLaw ha.alias hb.alias hc.alias).2 ⟨_, p0, q0⟩
    obtain ⟨y1, s1, t1⟩ := (buildLaw.assoc f _ _ _ _).2 ⟨_, p1, q1⟩
    obtain ⟨y2, s2, t2⟩ := (docLaw.assoc f _ _ _ _).2 ⟨_, p2, q2⟩
    obtain ⟨y3, s3, t3⟩ := (mergeMap_assoc envLaw ha.env hb.env hc.env).2 ⟨_, p3, q3⟩
    obtain ⟨y4, s4, t4⟩ := (futureIncompatReportLaw.assoc f _ _ _ _).2 ⟨_, p4, q4⟩
    obtain ⟨y5, s5, t5⟩ := (cargoNewLaw.assoc f _ _ _ _).2 ⟨_, p5, q5⟩
    obtain ⟨y6, s6, t6⟩ := (httpLaw.assoc f _ _ _ _).2 ⟨_, p6, q6⟩
    obtain ⟨y7, s7, t7⟩ := (netLaw.assoc f _ _ _ _).2 ⟨_, p7, q7⟩
    obtain ⟨y8, s8, t8⟩ := (mergeMap_assoc registriesLaw ha.registries hb.registries hc.registries).2 ⟨_, p8, q8⟩
    obtain ⟨y9, s9, t9⟩ := (registryLaw.assoc f _ _ _ _).2 ⟨_, p9, q9⟩
    obtain ⟨y10, s10, t10⟩ := (mergeMap_assoc targetLaw ha.target hb.target hc.target).2 ⟨_, p10, q10⟩
    obtain ⟨y11, s11, t11⟩ := (termLaw.assoc f _ _ _ _).2 ⟨_, p11, q11⟩
    exact ⟨⟨y0, y1, y2, y3, y4, y5, y6, y7, y8, y9, y10, y11⟩,
      mergeConfig_ok_iff'.2 ⟨s0, s1, s2, s3, s4, s5, s6, s7, s8, s9, s10, s11⟩,
      mergeConfig_ok_iff'.2 ⟨t0, t1, t2, t3, t4, t5, t6, t7, t8, t9, t10, t11⟩⟩

/-! ### by key -/

/-- The single value after a merge. -/
def pick {α : Type} (f : Bool) (a b : Option α) : Option α := if f then b.or a else a.or b

theorem mergeOpt_scalar_eq {α : Type} (a b : Option α) (f : Bool) : mergeOpt mergeScalar a b f = .ok (pick f a b) := by
  cases a <;> cases b <;> cases f <;> rfl

theorem mergeOpt_scalar {α : Type} {a b r : Option α} {f : Bool} : mergeOpt mergeScalar a b f = .ok r ↔ r = pick f a b := by
  rw [mergeOpt_scalar_eq]
  constructor
  · intro h; injection h with h; exact h.symm
  · rintro rfl; rfl

theorem pick_map {α β : Type} (g : α → β) (f : Bool) (a b : Option α) : (pick f a b).map g = pick f (a.map g) (b.map g) := by
  cases a <;> cases b <;> cases f <;> rfl

theorem mergeOpt_bind_scalar {V α : Type} {m : Merger V} {g : V → Option α} {f : Bool}
    (hm : ∀ x y z, m x y f = .ok z → g z = pick f (g x) (g y)) {a b r : Option V} (h : mergeOpt m a b f = .ok r) :
    r.bind g = pick f (a.bind g) (b.bind g) := by
  cases b with
  | none =>
    rw [mergeOpt_none_right] at h; cases h
    cases h : a.bind g <;> cases f <;> simp [pick]
  | some b =>
    cases a with
    | none =>
      rw [mergeOpt_none_left] at h; cases h
      cases h : g b <;> cases f <;> simp [pick]
    | some a =>
      rw [mergeOpt_some, Res.bind_eq_ok] at h
      obtain ⟨z, h1, h2⟩ := h
      cases h2
      exact hm _ _ _ h1

theorem env_theValue {x y z : EnvConfigValue} {f : Bool} (h : mergeEnvConfigValue x y f = .ok z) :
    some z.theValue = pick f (some x.theValue) (some y.theValue) ∧
    z.theForce = pick f x.theForce y.theForce ∧ z.theRelative = pick f x.theRelative y.theRelative ∧
    z.isTable = x.isTable ∧ x.isTable = y.isTable := by
  cases x with
  | value x =>
    cases y with
    | value y =>
      simp only [mergeEnvConfigValue] at h
      cases h
      cases f <;> simp [EnvConfigValue.theValue, EnvConfigValue.theForce, EnvConfigValue.theRelative, EnvConfigValue.isTable, pick]
    | table y1 y2 y3 => simp [mergeEnvConfigValue] at h
  | table x1 x2 x3 =>
    cases y with
    | value y => simp [mergeEnvConfigValue] at h
    | table y1 y2 y3 =>
      obtain ⟨z1, z2, z3, rfl, h1, h2, h3⟩ := mergeEnv_table_ok_iff.1 h
      rw [mergeOpt_scalar] at h2 h3
      simp only [mergeScalar] at h1
      cases h1
      subst h2 h3
      cases f <;> simp [EnvConfigValue.theValue, EnvConfigValue.theForce, EnvConfigValue.theRelative, EnvConfigValue.isTable, pick]

theorem MergedFields.scalar {a b r : Config} {f : Bool} (h : MergedFields a b r f) (k : ScalarKey) :
    k.get r = pick f (k.get a) (k.get b) := by
  obtain ⟨hm, -, hbuild, -, henv, hfir, hnew, hhttp, hnet, hregs, hreg, htgt, hterm⟩ := h
  rw [mergeBuild_ok_iff] at hbuild
  simp only [mergeOpt_scalar] at hbuild
  rw [mergeFutureIncompatReport_ok_iff] at hfir
  rw [mergeCargoNew_ok_iff] at hnew
  rw [mergeHttp_ok_iff] at hhttp
  rw [mergeNet_ok_iff] at hnet
  rw [mergeRegistry_ok_iff] at hreg
  rw [mergeTerm_ok_iff, mergeTermProgress_ok_iff] at hterm
  simp only [mergeOpt_scalar] at hfir hnew hhttp hnet hreg hterm
  obtain ⟨h1, h2, h3, h4, h5, -, h7, -, -, h10, h11, -, -⟩ := hbuild
  obtain ⟨p1, p2, p3, p4, p5, p6, p7, p8⟩ := hhttp
  obtain ⟨n1, n2, n3⟩ := hnet
  obtain ⟨r1, r2⟩ := hreg
  obtain ⟨t1, t2, t3, t4, t5⟩ := hterm
  cases k <;> simp only [ScalarKey.get]
  case envValue k =>
    have := mergeOpt_bind_scalar (g := fun e => some (e.theValue)) (fun x y z h => (env_theValue h).1) (henv k)
    have e : ∀ o : Option EnvConfigValue, (o.bind fun e => some e.theValue) = o.map (·.theValue) := by intro o; cases o <;> rfl
    simp only [e] at this
    have e2 : ∀ o : Option EnvConfigValue, (o.map fun e => e.theValue.map Atom.str) = (o.map (·.theValue)).map (Val.map Atom.str) := by
      intro o; cases o <;> rfl
    simp only [e2, this, pick_map]
  case envForce k =>
    rw [mergeOpt_bind_scalar (fun x y z h => (env_theValue h).2.1) (henv k), pick_map]
  case envRelative k =>
    rw [mergeOpt_bind_scalar (fun x y z h => (env_theValue h).2.2.1) (henv k), pick_map]
  case registriesIndex k =>
    rw [mergeOpt_bind_scalar (fun x y z h => mergeOpt_scalar.1 (mergeRegistries_ok_iff.1 h).1) (hregs k), pick_map]
  case registriesToken k =>
    rw [mergeOpt_bind_scalar (fun x y z h => mergeOpt_scalar.1 (mergeRegistries_ok_iff.1 h).2.1) (hregs k), pick_map]
  case registriesProtocol k =>
    rw [mergeOpt_bind_scalar (fun x y z h => mergeOpt_scalar.1 (mergeRegistries_ok_iff.1 h).2.2) (hregs k), pick_map]
  case targetLinker k =>
    rw [mergeOpt_bind_scalar (fun x y z h => mergeOpt_scalar.1 (mergeTarget_ok_iff.1 h).1) (htgt k), pick_map]
  all_goals simp only [h1, h2, h3, h4, h5, h7, h10, h11, p1, p2, p3, p4, p5, p6, p7, p8, n1, n2, n3, r1, r2, t1, t2, t3, t4, t5,
    hfir, hnew, pick_map]

/-- Joining lists by the rule for arrays: the low priority list comes first. -/
def joinList : Merger (Repr' × List (Val Str)) := fun a b f =>
  match a.1, b.1 with
  | .string, .string => .ok (if f then b else a)
  | .array, .array => .ok (.array, b.2 ++ a.2)
  | a, b => .err (mixErr a.asStr b.asStr)

/-- Joining commands: the low priority command comes last. -/
def joinProg : Merger (Repr' × List (Val Str)) := fun a b f =>
  match a.1, b.1 with
  | .string, .string => .ok (if f then b else a)
  | .array, .array => .ok (.array, a.2 ++ b.2)
  | a, b => .err (mixErr a.asStr b.asStr)

/-- `g` commutes with merging, including success. -/
def Hom {V W : Type} (m : Merger V) (n : Merger W) (g : V → W) : Prop :=
  ∀ a b f, n (g a) (g b) f = match m a b f with
    | .ok r => .ok (g r)
    | .err e => .err e
    | .panic => .panic

theorem Hom.opt {V W : Type} {m : Merger V} {n : Merger W} {g : V → W} (h : Hom m n g) {a b r : Option V} {f : Bool}
    (hm : mergeOpt m a b f = .ok r) : mergeOpt n (a.map g) (b.map g) f = .ok (r.map g) := by
  cases b with
  | none => rw [mergeOpt_none_right] at hm; cases hm; simp [mergeOpt_none_right]
  | some b =>
    cases a with
    | none => rw [mergeOpt_none_left] at hm; cases hm; simp [mergeOpt_none_left]
    | some a =>
      rw [mergeOpt_some, Res.bind_eq_ok] at hm
      obtain ⟨z, h1, h2⟩ := hm
      cases h2
      simp only [Option.map_some, mergeOpt_some, h a b f, h1]
      rfl

theorem Hom.opt_conv {V W : Type} {m : Merger V} {n : Merger W} {g : V → W} (h : Hom m n g) {a b : Option V} {f : Bool}
    {s : Option W} (hm : mergeOpt n (a.map g) (b.map g) f = .ok s) : ∃ r, mergeOpt m a b f = .ok r := by
  cases b with
  | none => exact ⟨_, mergeOpt_none_right _ _ _⟩
  | some b =>
    cases a with
    | none => exact ⟨_, mergeOpt_none_left _ _ _⟩
    | some a =>
      simp only [Option.map_some, mergeOpt_some, h a b f] at hm ⊢
      cases hr : m a b f with
      | ok r => exact ⟨_, rfl⟩
      | err e => rw [hr] at hm; simp at hm
      | panic => rw [hr] at hm; simp at hm

theorem hom_stringList : Hom mergeStringList joinList (fun l => (l.repr, l.list)) := by
  rintro ⟨a, ra⟩ ⟨b, rb⟩ f
  cases ra <;> cases rb <;> cases f <;> rfl

theorem hom_flags : Hom mergeFlags joinList (fun l => (l.repr, l.flags)) := by
  rintro ⟨a, ra⟩ ⟨b, rb⟩ f
  cases ra <;> cases rb <;> cases f <;> rfl

theorem hom_prog : Hom mergePathAndArgs joinProg (fun x => (x.repr, x.path :: x.args)) := by
  rintro ⟨pa, a, ra⟩ ⟨pb, b, rb⟩ f
  cases ra <;> cases rb <;> cases f <;> simp [mergePathAndArgs, joinProg]

/-- The list of a `StringOrArray`, as in `ListKey.get`. -/
def StringOrArray.pair : StringOrArray → Repr' × List (Val Str)
  | .string s => (.string, [s])
  | .array l => (.array, l)

theorem hom_stringOrArray : Hom mergeStringOrArray joinList StringOrArray.pair := by
  rintro (a | a) (b | b) f <;> cases f <;> rfl

theorem mergeOpt_bind {V W : Type} {m : Merger V} {n : Merger W} {g : V → Option W} {f : Bool}
    (hm : ∀ x y z, m x y f = .ok z → mergeOpt n (g x) (g y) f = .ok (g z)) {a b r : Option V} (h : mergeOpt m a b f = .ok r) :
    mergeOpt n (a.bind g) (b.bind g) f = .ok (r.bind g) := by
  cases b with
  | none => rw [mergeOpt_none_right] at h; cases h; simp [mergeOpt_none_right]
  | some b =>
    cases a with
    | none => rw [mergeOpt_none_left] at h; cases h; simp [mergeOpt_none_left]
    | some a =>
      rw [mergeOpt_some, Res.bind_eq_ok] at h
      obtain ⟨z, h1, h2⟩ := h
      cases h2
      exact hm _ _ _ h1

theorem listKey_buildTarget (c : Config) : ListKey.buildTarget.get c = c.build.target.map StringOrArray.pair := by
  simp only [ListKey.get]
  cases c.build.target with
  | none => rfl
  | some x => cases x <;> rfl

theorem MergedFields.list {a b r : Config} {f : Bool} (h : MergedFields a b r f) (k : ListKey) :
    mergeOpt joinList (k.get a) (k.get b) f = .ok (k.get r) := by
  obtain ⟨-, -, -, -, -, h6, -, h8, h9, -, -, -, -⟩ := mergeBuild_ok_iff.1 h.build
  cases k with
  | alias k => exact hom_stringList.opt (h.alias k)
  | buildTarget => rw [listKey_buildTarget, listKey_buildTarget, listKey_buildTarget]; exact hom_stringOrArray.opt h6
  | buildRustflags => exact hom_flags.opt h8
  | buildRustdocflags => exact hom_flags.opt h9
  | targetRustflags k =>
    exact hom_flags.opt (mergeOpt_bind (fun x y z h => (mergeTarget_ok_iff.1 h).2.2.1) (h.target k))
  | targetRustdocflags k =>
    exact hom_flags.opt (mergeOpt_bind (fun x y z h => (mergeTarget_ok_iff.1 h).2.2.2) (h.target k))

theorem MergedFields.prog {a b r : Config} {f : Bool} (h : MergedFields a b r f) (k : ProgKey) :
    mergeOpt joinProg (k.get a) (k.get b) f = .ok (k.get r) := by
  cases k with
  | docBrowser => exact hom_prog.opt (mergeDoc_ok_iff.1 h.doc)
  | targetRunner k =>
    exact hom_prog.opt (mergeOpt_bind (fun x y z h => (mergeTarget_ok_iff.1 h).2.1) (h.target k))

theorem mergeOpt_isSome {V : Type} {m : Merger V} {a b r : Option V} {f : Bool} (h : mergeOpt m a b f = .ok r) :
    r.isSome = (a.isSome || b.isSome) := by
  cases b with
  | none => rw [mergeOpt_none_right] at h; cases h; simp
  | some b =>
    cases a with
    | none => rw [mergeOpt_none_left] at h; cases h; simp
    | some a =>
      rw [mergeOpt_some, Res.bind_eq_ok] at h
      obtain ⟨z, h1, h2⟩ := h
      cases h2
      rfl

theorem MergedFields.present {a b r : Config} {f : Bool} (h : MergedFields a b r f) (k : TableKey) :
    k.present r = (k.present a || k.present b) := by
  cases k with
  | alias k => exact mergeOpt_isSome (h.alias k)
  | env k => exact mergeOpt_isSome (h.env k)
  | registries k => exact mergeOpt_isSome (h.registries k)
  | target k => exact mergeOpt_isSome (h.target k)

theorem MergedFields.envShape {a b r : Config} {f : Bool} (h : MergedFields a b r f) (k : Str) :
    CC.envShape r k = (CC.envShape a k).or (CC.envShape b k) ∧
    (∀ x y, CC.envShape a k = some x → CC.envShape b k = some y → x = y) := by
  have := h.env k
  simp only [CC.envShape]
  cases ha : a.env.get k with
  | none => rw [ha, mergeOpt_none_left] at this; injection this with this; simp [this]
  | some x =>
    cases hb : b.env.get k with
    | none => rw [ha, hb, mergeOpt_none_right] at this; injection this with this; simp [← this]
    | some y =>
      rw [ha, hb, mergeOpt_some, Res.bind_eq_ok] at this
      obtain ⟨z, h1, h2⟩ := this
      injection h2 with h2
      have := env_theValue h1
      simp only [← h2, Option.map_some, Option.some_or, this.2.2.2.1, true_and]
      intro p q hp hq
      injection hp with hp; injection hq with hq
      rw [← hp, ← hq]; exact this.2.2.2.2

/-! ### when merging succeeds -/

theorem joinList_ok_iff {x y : Repr' × List (Val Str)} {f : Bool} : (∃ r, joinList x y f = .ok r) ↔ x.1 = y.1 := by
  obtain ⟨r, x⟩ := x; obtain ⟨s, y⟩ := y
  cases r <;> cases s <;> simp [joinList]

theorem joinProg_ok_iff {x y : Repr' × List (Val Str)} {f : Bool} : (∃ r, joinProg x y f = .ok r) ↔ x.1 = y.1 := by
  obtain ⟨r, x⟩ := x; obtain ⟨s, y⟩ := y
  cases r <;> cases s <;> simp [joinProg]

theorem mergeOpt_ok {V : Type} {m : Merger V} {a b : Option V} {f : Bool}
    (h : ∀ x y, a = some x → b = some y → ∃ r, m x y f = .ok r) : ∃ r, mergeOpt m a b f = .ok r := by
  cases b with
  | none => exact ⟨_, mergeOpt_none_right _ _ _⟩
  | some b =>
    cases a with
    | none => exact ⟨_, mergeOpt_none_left _ _ _⟩
    | some a =>
      obtain ⟨r, hr⟩ := h a b rfl rfl
      exact ⟨some r, by rw [mergeOpt_some, hr]; rfl⟩

theorem mergeEnv_ok {x y : EnvConfigValue} {f : Bool} (h : x.isTable = y.isTable) :
    ∃ r, mergeEnvConfigValue x y f = .ok r := by
  cases x with
  | value x =>
    cases y with
    | value y => exact ⟨_, rfl⟩
    | table => simp [EnvConfigValue.isTable] at h
  | table x1 x2 x3 =>
    cases y with
    | value y => simp [EnvConfigValue.isTable] at h
    | table y1 y2 y3 =>
      exact ⟨_, mergeEnv_table_ok_iff.2 ⟨_, _, _, rfl, rfl, mergeOpt_scalar_eq _ _ _, mergeOpt_scalar_eq _ _ _⟩⟩

theorem mergeConfig_ok_of_compatible {a b : Config} {f : Bool} (ha : a.Maps) (hb : b.Maps)
    (h : ¬ ShapeConflict a b) : ∃ r, mergeConfig a b f = .ok r := by
  have hl : ∀ k : ListKey, ∃ s, mergeOpt joinList (k.get a) (k.get b) f = .ok s := by
    intro k
    refine mergeOpt_ok fun x y hx hy => joinList_ok_iff.2 ?_
    refine Classical.byContradiction fun hne => ?_
    exact h (.list k x.1 y.1 x.2 y.2 hx hy hne)
  have hp : ∀ k : ProgKey, ∃ s, mergeOpt joinProg (k.get a) (k.get b) f = .ok s := by
    intro k
    refine mergeOpt_ok fun x y hx hy => joinProg_ok_iff.2 ?_
    refine Classical.byContradiction fun hne => ?_
    exact h (.prog k x.1 y.1 x.2 y.2 hx hy hne)
  obtain ⟨al, hal⟩ := mergeMap_total (dbg := clash StringList.dbg) (m := mergeStringList) (f := f) (self := a.alias) hb.alias
    (fun k => hom_stringList.opt_conv (hl (.alias k)).choose_spec)
  obtain ⟨en, hen⟩ := mergeMap_total (dbg := clash EnvConfigValue.dbg) (m := mergeEnvConfigValue) (f := f) (self := a.env) hb.env
    (fun k => mergeOpt_ok fun x y hx hy => mergeEnv_ok (by
      refine Classical.byContradiction fun hne => ?_
      exact h (.env k x.isTable y.isTable (by simp [envShape, hx]) (by simp [envShape, hy]) hne)))
  obtain ⟨rg, hrg⟩ := mergeMap_total (dbg := clash RegistriesConfigValue.dbg) (m := mergeRegistries) (f := f) (self := a.registries)
    hb.registries (fun k => mergeOpt_ok fun x y _ _ =>
      ⟨⟨_, _, _⟩, mergeRegistries_ok_iff.2 ⟨mergeOpt_scalar_eq _ _ _, mergeOpt_scalar_eq _ _ _, mergeOpt_scalar_eq _ _ _⟩⟩)
  obtain ⟨tg, htg⟩ := mergeMap_total (dbg := clashTarget) (m := mergeTarget) (f := f) (self := a.target) hb.target
    (fun k => mergeOpt_ok fun x y hx hy => by
      have p := (hp (.targetRunner k)).choose_spec
      have q1 := (hl (.targetRustflags k)).choose_spec
      have q2 := (hl (.targetRustdocflags k)).choose_spec
      simp only [ProgKey.get, ListKey.get, hx, hy, Option.bind_some] at p q1 q2
      obtain ⟨z2, hz2⟩ := hom_prog.opt_conv p
      obtain ⟨z3, hz3⟩ := hom_flags.opt_conv q1
      obtain ⟨z4, hz4⟩ := hom_flags.opt_conv q2
      exact ⟨⟨_, _, _, _⟩, mergeTarget_ok_iff.2 ⟨mergeOpt_scalar_eq _ _ _, hz2, hz3, hz4⟩⟩)
  obtain ⟨dc, hdc⟩ := hom_prog.opt_conv (a := a.doc.browser) (b := b.doc.browser) (f := f) (hp .docBrowser).choose_spec
  obtain ⟨st, htarget⟩ := hl .buildTarget
  rw [listKey_buildTarget, listKey_buildTarget] at htarget
  obtain ⟨b6, hb6⟩ := hom_stringOrArray.opt_conv htarget
  obtain ⟨b8, hb8⟩ := hom_flags.opt_conv (a := a.build.rustflags) (b := b.build.rustflags) (f := f)
    (hl .buildRustflags).choose_spec
  obtain ⟨b9, hb9⟩ := hom_flags.opt_conv (a := a.build.rustdocflags) (b := b.build.rustdocflags) (f := f)
    (hl .buildRustdocflags).choose_spec
  exact ⟨⟨al, ⟨_, _, _, _, _, b6, _, b8, b9, _, _, _, _⟩, ⟨dc⟩, en, ⟨_⟩, ⟨_⟩, ⟨_, _, _, _, _, _, _, _⟩, ⟨_, _, _⟩, rg,
    ⟨_, _⟩, tg, ⟨_, _, _, ⟨_, _⟩⟩⟩,
    mergeConfig_ok_iff'.2 ⟨hal,
      mergeBuild_ok_iff.2 ⟨mergeOpt_scalar_eq _ _ _, mergeOpt_scalar_eq _ _ _, mergeOpt_scalar_eq _ _ _,
        mergeOpt_scalar_eq _ _ _, mergeOpt_scalar_eq _ _ _, hb6, mergeOpt_scalar_eq _ _ _, hb8, hb9,
        mergeOpt_scalar_eq _ _ _, mergeOpt_scalar_eq _ _ _, rfl, rfl⟩,
      mergeDoc_ok_iff.2 hdc, hen, mergeFutureIncompatReport_ok_iff.2 (mergeOpt_scalar_eq _ _ _),
      mergeCargoNew_ok_iff.2 (mergeOpt_scalar_eq _ _ _),
      mergeHttp_ok_iff.2 ⟨mergeOpt_scalar_eq _ _ _, mergeOpt_scalar_eq _ _ _, mergeOpt_scalar_eq _ _ _,
        mergeOpt_scalar_eq _ _ _, mergeOpt_scalar_eq _ _ _, mergeOpt_scalar_eq _ _ _, mergeOpt_scalar_eq _ _ _,
        mergeOpt_scalar_eq _ _ _⟩,
      mergeNet_ok_iff.2 ⟨mergeOpt_scalar_eq _ _ _, mergeOpt_scalar_eq _ _ _, mergeOpt_scalar_eq _ _ _⟩, hrg,
      mergeRegistry_ok_iff.2 ⟨mergeOpt_scalar_eq _ _ _, mergeOpt_scalar_eq _ _ _⟩, htg,
      mergeTerm_ok_iff.2 ⟨mergeOpt_scalar_eq _ _ _, mergeOpt_scalar_eq _ _ _, mergeOpt_scalar_eq _ _ _,
        mergeTermProgress_ok_iff.2 ⟨mergeOpt_scalar_eq _ _ _, mergeOpt_scalar_eq _ _ _⟩⟩⟩⟩

theorem compatible_of_mergedFields {a b r : Config} {f : Bool} (h : MergedFields a b r f) : ¬ ShapeConflict a b := by
  rintro (⟨k, r', s, x, y, h1, h2, hne⟩ | ⟨k, r', s, x, y, h1, h2, hne⟩ | ⟨k, r', s, h1, h2, hne⟩)
  · have := h.list k
    rw [h1, h2, mergeOpt_some, Res.bind_eq_ok] at this
    obtain ⟨z, hz, _⟩ := this
    exact hne (joinList_ok_iff.1 ⟨z, hz⟩)
  · have := h.prog k
    rw [h1, h2, mergeOpt_some, Res.bind_eq_ok] at this
    obtain ⟨z, hz, _⟩ := this
    exact hne (joinProg_ok_iff.1 ⟨z, hz⟩)
  · exact hne ((h.envShape k).2 _ _ h1 h2)

end CC
