import Verif.Lemmas.Merge
/-
Merging of records: field by field, no panics, associative.  (One pair of lemmas per record of src/gen/de.rs.)
-/
namespace CC

theorem mergeBuild_ok_iff {a b r : BuildConfig} {f : Bool} : mergeBuild a b f = .ok r ↔
    mergeOpt mergeScalar a.jobs b.jobs f = .ok r.jobs ∧
    mergeOpt mergeScalar a.rustc b.rustc f = .ok r.rustc ∧
    mergeOpt mergeScalar a.rustcWrapper b.rustcWrapper f = .ok r.rustcWrapper ∧
    mergeOpt mergeScalar a.rustcWorkspaceWrapper b.rustcWorkspaceWrapper f = .ok r.rustcWorkspaceWrapper ∧
    mergeOpt mergeScalar a.rustdoc b.rustdoc f = .ok r.rustdoc ∧
    mergeOpt mergeStringOrArray a.target b.target f = .ok r.target ∧
    mergeOpt mergeScalar a.targetDir b.targetDir f = .ok r.targetDir ∧
    mergeOpt mergeFlags a.rustflags b.rustflags f = .ok r.rustflags ∧
    mergeOpt mergeFlags a.rustdocflags b.rustdocflags f = .ok r.rustdocflags ∧
    mergeOpt mergeScalar a.incremental b.incremental f = .ok r.incremental ∧
    mergeOpt mergeScalar a.depInfoBasedir b.depInfoBasedir f = .ok r.depInfoBasedir ∧
    r.overrideTargetRustflags = a.overrideTargetRustflags ∧
    r.overrideTargetRustdocflags = a.overrideTargetRustdocflags := by
  simp only [mergeBuild, Res.bind_eq_ok]
  constructor
  · rintro ⟨x0, h0, x1, h1, x2, h2, x3, h3, x4, h4, x5, h5, x6, h6, x7, h7, x8, h8, x9, h9, x10, h10, h⟩
    cases h
    exact ⟨h0, h1, h2, h3, h4, h5, h6, h7, h8, h9, h10, rfl, rfl⟩
  · rintro ⟨h0, h1, h2, h3, h4, h5, h6, h7, h8, h9, h10, e0, e1⟩
    exact ⟨_, h0, _, h1, _, h2, _, h3, _, h4, _, h5, _, h6, _, h7, _, h8, _, h9, _, h10, by cases r; simp_all⟩

theorem buildLaw : MergeLaw mergeBuild where
  noPanic := by
    intro a b f
    unfold mergeBuild
    refine Res.bind_ne_panic (scalarLaw.opt.noPanic _ _ _) fun _ _ => ?_
    refine Res.bind_ne_panic (scalarLaw.opt.noPanic _ _ _) fun _ _ => ?_
    refine Res.bind_ne_panic (scalarLaw.opt.noPanic _ _ _) fun _ _ => ?_
    refine Res.bind_ne_panic (scalarLaw.opt.noPanic _ _ _) fun _ _ => ?_
    refine Res.bind_ne_panic (scalarLaw.opt.noPanic _ _ _) fun _ _ => ?_
    refine Res.bind_ne_panic (stringOrArrayLaw.opt.noPanic _ _ _) fun _ _ => ?_
    refine Res.bind_ne_panic (scalarLaw.opt.noPanic _ _ _) fun _ _ => ?_
    refine Res.bind_ne_panic (flagsLaw.opt.noPanic _ _ _) fun _ _ => ?_
    refine Res.bind_ne_panic (flagsLaw.opt.noPanic _ _ _) fun _ _ => ?_
    refine Res.bind_ne_panic (scalarLaw.opt.noPanic _ _ _) fun _ _ => ?_
    refine Res.bind_ne_panic (scalarLaw.opt.noPanic _ _ _) fun _ _ => ?_
    simp
  assoc := by
    intro f a b c r
    constructor
    · rintro ⟨w, h1, h2⟩
      rw [mergeBuild_ok_iff] at h1 h2
      obtain ⟨p0, p1, p2, p3, p4, p5, p6, p7, p8, p9, p10, pe0, pe1⟩ := h1
      obtain ⟨q0, q1, q2, q3, q4, q5, q6, q7, q8, q9, q10, qe0, qe1⟩ := h2
      obtain ⟨y0, s0, t0⟩ := (scalarLaw.opt.assoc f _ _ _ _).1 ⟨_, p0, q0⟩
      obtain ⟨y1, s1, t1⟩ := (scalarLaw.opt.assoc f _ _ _ _).1 ⟨_, p1, q1⟩
      obtain ⟨y2, s2, t2⟩ := (scalarLaw.opt.assoc f _ _ _ _).1 ⟨_, p2, q2⟩
      obtain ⟨y3, s3, t3⟩ := (scalarLaw.opt.assoc f _ _ _ _).1 ⟨_, p3, q3⟩
      obtain ⟨y4, s4, t4⟩ := (scalarLaw.opt.assoc f _ _ _ _).1 ⟨_, p4, q4⟩
      obtain ⟨y5, s5, t5⟩ := (stringOrArrayLaw.opt.assoc f _ _ _ _).1 ⟨_, p5, q5⟩
      obtain ⟨y6, s6, t6⟩ := (scalarLaw.opt.assoc f _ _ _ _).1 ⟨_, p6, q6⟩
      obtain ⟨y7, s7, t7⟩ := (flagsLaw.opt.assoc f _ _ _ _).1 ⟨_, p7, q7⟩
      obtain ⟨y8, s8, t8⟩ := (flagsLaw.opt.assoc f _ _ _ _).1 ⟨_, p8, q8⟩
      obtain ⟨y9, s9, t9⟩ := (scalarLaw.opt.assoc f _ _ _ _).1 ⟨_, p9, q9⟩
      obtain ⟨y10, s10, t10⟩ := (scalarLaw.opt.assoc f _ _ _ _).1 ⟨_, p10, q10⟩
      exact ⟨⟨y0, y1, y2, y3, y4, y5, y6, y7, y8, y9, y10, b.overrideTargetRustflags, b.overrideTargetRustdocflags⟩, mergeBuild_ok_iff.2 ⟨s0, s1, s2, s3, s4, s5, s6, s7, s8, s9, s10, rfl, rfl⟩, mergeBuild_ok_iff.2 ⟨t0, t1, t2, t3, t4, t5, t6, t7, t8, t9, t10, qe0.trans pe0, qe1.trans pe1⟩⟩
    · rintro ⟨w, h1, h2⟩
      rw [mergeBuild_ok_iff] at h1 h2
      obtain ⟨p0, p1, p2, p3, p4, p5, p6, p7, p8, p9, p10, pe0, pe1⟩ := h1
      obtain ⟨q0, q1, q2, q3, q4, q5, q6, q7, q8, q9, q10, qe0, qe1⟩ := h2
      obtain ⟨y0, s0, t0⟩ := (scalarLaw.opt.assoc f _ _ _ _).2 ⟨_, p0, q0⟩
      obtain ⟨y1, s1, t1⟩ := (scalarLaw.opt.assoc f _ _ _ _).2 ⟨_, p1, q1⟩
      obtain ⟨y2, s2, t2⟩ := (scalarLaw.opt.assoc f _ _ _ _).2 ⟨_, p2, q2⟩
      obtain ⟨y3, s3, t3⟩ := (scalarLaw.opt.assoc f _ _ _ _).2 ⟨_, p3, q3⟩
      obtain ⟨y4, s4, t4⟩ := (scalarLaw.opt.assoc f _ _ _ _).2 ⟨_, p4, q4⟩
      obtain ⟨y5, s5, t5⟩ := (stringOrArrayLaw.opt.assoc f _ _ _ _).2 ⟨_, p5, q5⟩
      obtain ⟨y6, s6, t6⟩ := (scalarLaw.opt.assoc f _ _ _ _).2 ⟨_, p6, q6⟩
      obtain ⟨y7, s7, t7⟩ := (flagsLaw.opt.assoc f _ _ _ _).2 ⟨_, p7, q7⟩
      obtain ⟨y8, s8, t8⟩ := (flagsLaw.opt.assoc f _ _ _ _).2 ⟨_, p8, q8⟩
      obtain ⟨y9, s9, t9⟩ := (scalarLaw.opt.assoc f _ _ _ _).2 ⟨_, p9, q9⟩
      obtain ⟨y10, s10, t10⟩ := (scalarLaw.opt.assoc f _ _ _ _).2 ⟨_, p10, q10⟩
      exact ⟨⟨y0, y1, y2, y3, y4, y5, y6, y7, y8, y9, y10, a.overrideTargetRustflags, a.overrideTargetRustdocflags⟩, mergeBuild_ok_iff.2 ⟨s0, s1, s2, s3, s4, s5, s6, s7, s8, s9, s10, rfl, rfl⟩, mergeBuild_ok_iff.2 ⟨t0, t1, t2, t3, t4, t5, t6, t7, t8, t9, t10, qe0, qe1⟩⟩

theorem mergeTarget_ok_iff {a b r : TargetConfig} {f : Bool} : mergeTarget a b f = .ok r ↔
    mergeOpt mergeScalar a.linker b.linker f = .ok r.linker ∧
    mergeOpt mergePathAndArgs a.runner b.runner f = .ok r.runner ∧
    mergeOpt mergeFlags a.rustflags b.rustflags f = .ok r.rustflags ∧
    mergeOpt mergeFlags a.rustdocflags b.rustdocflags f = .ok r.rustdocflags := by
  simp only [mergeTarget, Res.bind_eq_ok]
  constructor
  · rintro ⟨x0, h0, x1, h1, x2, h2, x3, h3, h⟩
    cases h
    exact ⟨h0, h1, h2, h3⟩
  · rintro ⟨h0, h1, h2, h3⟩
    exact ⟨_, h0, _, h1, _, h2, _, h3, by cases r; simp_all⟩

theorem targetLaw : MergeLaw mergeTarget where
  noPanic := by
    intro a b f
    unfold mergeTarget
    refine Res.bind_ne_panic (scalarLaw.opt.noPanic _ _ _) fun _ _ => ?_
    refine Res.bind_ne_panic (pathAndArgsLaw.opt.noPanic _ _ _) fun _ _ => ?_
    refine Res.bind_ne_panic (flagsLaw.opt.noPanic _ _ _) fun _ _ => ?_
    refine Res.bind_ne_panic (flagsLaw.opt.noPanic _ _ _) fun _ _ => ?_
    simp
  assoc := by
    intro f a b c r
    constructor
    · rintro ⟨w, h1, h2⟩
      rw [mergeTarget_ok_iff] at h1 h2
      obtain ⟨p0, p1, p2, p3⟩ := h1
      obtain ⟨q0, q1, q2, q3⟩ := h2
      obtain ⟨y0, s0, t0⟩ := (scalarLaw.opt.assoc f _ _ _ _).1 ⟨_, p0, q0⟩
      obtain ⟨y1, s1, t1⟩ := (pathAndArgsLaw.opt.assoc f _ _ _ _).1 ⟨_, p1, q1⟩
      obtain ⟨y2, s2, t2⟩ := (flagsLaw.opt.assoc f _ _ _ _).1 ⟨_, p2, q2⟩
      obtain ⟨y3, s3, t3⟩ := (flagsLaw.opt.assoc f _ _ _ _).1 ⟨_, p3, q3⟩
      exact ⟨⟨y0, y1, y2, y3⟩, mergeTarget_ok_iff.2 ⟨s0, s1, s2, s3⟩, mergeTarget_ok_iff.2 ⟨t0, t1, t2, t3⟩⟩
    · rintro ⟨w, h1, h2⟩
      rw [mergeTarget_ok_iff] at h1 h2
      obtain ⟨p0, p1, p2, p3⟩ := h1
      obtain ⟨q0, q1, q2, q3⟩ := h2
      obtain ⟨y0, s0, t0⟩ := (scalarLaw.opt.assoc f _ _ _ _).2 ⟨_, p0, q0⟩
      obtain ⟨y1, s1, t1⟩ := (pathAndArgsLaw.opt.assoc f _ _ _ _).2 ⟨_, p1, q1⟩
      obtain ⟨y2, s2, t2⟩ := (flagsLaw.opt.assoc f _ _ _ _).2 ⟨_, p2, q2⟩
      obtain ⟨y3, s3, t3⟩ := (flagsLaw.opt.assoc f _ _ _ _).2 ⟨_, p3, q3⟩
      exact ⟨⟨y0, y1, y2, y3⟩, mergeTarget_ok_iff.2 ⟨s0, s1, s2, s3⟩, mergeTarget_ok_iff.2 ⟨t0, t1, t2, t3⟩⟩

theorem mergeDoc_ok_iff {a b r : DocConfig} {f : Bool} : mergeDoc a b f = .ok r ↔
    mergeOpt mergePathAndArgs a.browser b.browser f = .ok r.browser := by
  simp only [mergeDoc, Res.bind_eq_ok]
  constructor
  · rintro ⟨x0, h0, h⟩
    cases h
    exact h0
  · intro h0
    exact ⟨_, h0, by cases r; rfl⟩

theorem docLaw : MergeLaw mergeDoc where
  noPanic := by
    intro a b f
    unfold mergeDoc
    refine Res.bind_ne_panic (pathAndArgsLaw.opt.noPanic _ _ _) fun _ _ => ?_
    simp
  assoc := by
    intro f a b c r
    constructor
    · rintro ⟨w, h1, h2⟩
      rw [mergeDoc_ok_iff] at h1 h2
      have p0 := h1
      have q0 := h2
      obtain ⟨y0, s0, t0⟩ := (pathAndArgsLaw.opt.assoc f _ _ _ _).1 ⟨_, p0, q0⟩
      exact ⟨⟨y0⟩, mergeDoc_ok_iff.2 s0, mergeDoc_ok_iff.2 t0⟩
    · rintro ⟨w, h1, h2⟩
      rw [mergeDoc_ok_iff] at h1 h2
      have p0 := h1
      have q0 := h2
      obtain ⟨y0, s0, t0⟩ := (pathAndArgsLaw.opt.assoc f _ _ _ _).2 ⟨_, p0, q0⟩
      exact ⟨⟨y0⟩, mergeDoc_ok_iff.2 s0, mergeDoc_ok_iff.2 t0⟩

theorem mergeFutureIncompatReport_ok_iff {a b r : FutureIncompatReportConfig} {f : Bool} : mergeFutureIncompatReport a b f = .ok r ↔
    mergeOpt mergeScalar a.frequency b.frequency f = .ok r.frequency := by
  simp only [mergeFutureIncompatReport, Res.bind_eq_ok]
  constructor
  · rintro ⟨x0, h0, h⟩
    cases h
    exact h0
  · intro h0
    exact ⟨_, h0, by cases r; rfl⟩

theorem futureIncompatReportLaw : MergeLaw mergeFutureIncompatReport where
  noPanic := by
    intro a b f
    unfold mergeFutureIncompatReport
    refine Res.bind_ne_panic (scalarLaw.opt.noPanic _ _ _) fun _ _ => ?_
    simp
  assoc := by
    intro f a b c r
    constructor
    · rintro ⟨w, h1, h2⟩
      rw [mergeFutureIncompatReport_ok_iff] at h1 h2
      have p0 := h1
      have q0 := h2
      obtain ⟨y0, s0, t0⟩ := (scalarLaw.opt.assoc f _ _ _ _).1 ⟨_, p0, q0⟩
      exact ⟨⟨y0⟩, mergeFutureIncompatReport_ok_iff.2 s0, mergeFutureIncompatReport_ok_iff.2 t0⟩
    · rintro ⟨w, h1, h2⟩
      rw [mergeFutureIncompatReport_ok_iff] at h1 h2
      have p0 := h1
      have q0 := h2
      obtain ⟨y0, s0, t0⟩ := (scalarLaw.opt.assoc f _ _ _ _).2 ⟨_, p0, q0⟩
      exact ⟨⟨y0⟩, mergeFutureIncompatReport_ok_iff.2 s0, mergeFutureIncompatReport_ok_iff.2 t0⟩

theorem mergeCargoNew_ok_iff {a b r : CargoNewConfig} {f : Bool} : mergeCargoNew a b f = .ok r ↔
    mergeOpt mergeScalar a.vcs b.vcs f = .ok r.vcs := by
  simp only [mergeCargoNew, Res.bind_eq_ok]
  constructor
  · rintro ⟨x0, h0, h⟩
    cases h
    exact h0
  · intro h0
    exact ⟨_, h0, by cases r; rfl⟩

theorem cargoNewLaw : MergeLaw mergeCargoNew where
  noPanic := by
    intro a b f
    unfold mergeCargoNew
    refine Res.bind_ne_panic (scalarLaw.opt.noPanic _ _ _) fun _ _ => ?_
    simp
  assoc := by
    intro f a b c r
    constructor
    · rintro ⟨w, h1, h2⟩
      rw [mergeCargoNew_ok_iff] at h1 h2
      have p0 := h1
      have q0 := h2
      obtain ⟨y0, s0, t0⟩ := (scalarLaw.opt.assoc f _ _ _ _).1 ⟨_, p0, q0⟩
      exact ⟨⟨y0⟩, mergeCargoNew_ok_iff.2 s0, mergeCargoNew_ok_iff.2 t0⟩
    · rintro ⟨w, h1, h2⟩
      rw [mergeCargoNew_ok_iff] at h1 h2
      have p0 := h1
      have q0 := h2
      obtain ⟨y0, s0, t0⟩ := (scalarLaw.opt.assoc f _ _ _ _).2 ⟨_, p0, q0⟩
      exact ⟨⟨y0⟩, mergeCargoNew_ok_iff.2 s0, mergeCargoNew_ok_iff.2 t0⟩

theorem mergeHttp_ok_iff {a b r : HttpConfig} {f : Bool} : mergeHttp a b f = .ok r ↔
    mergeOpt mergeScalar a.debug b.debug f = .ok r.debug ∧
    mergeOpt mergeScalar a.proxy b.proxy f = .ok r.proxy ∧
    mergeOpt mergeScalar a.timeout b.timeout f = .ok r.timeout ∧
    mergeOpt mergeScalar a.cainfo b.cainfo f = .ok r.cainfo ∧
    mergeOpt mergeScalar a.checkRevoke b.checkRevoke f = .ok r.checkRevoke ∧
    mergeOpt mergeScalar a.lowSpeedLimit b.lowSpeedLimit f = .ok r.lowSpeedLimit ∧
    mergeOpt mergeScalar a.multiplexing b.multiplexing f = .ok r.multiplexing ∧
    mergeOpt mergeScalar a.userAgent b.userAgent f = .ok r.userAgent := by
  simp only [mergeHttp, Res.bind_eq_ok]
  constructor
  · rintro ⟨x0, h0, x1, h1, x2, h2, x3, h3, x4, h4, x5, h5, x6, h6, x7, h7, h⟩
    cases h
    exact ⟨h0, h1, h2, h3, h4, h5, h6, h7⟩
  · rintro ⟨h0, h1, h2, h3, h4, h5, h6, h7⟩
    exact ⟨_, h0, _, h1, _, h2, _, h3, _, h4, _, h5, _, h6, _, h7, by cases r; simp_all⟩

theorem httpLaw : MergeLaw mergeHttp where
  noPanic := by
    intro a b f
    unfold mergeHttp
    refine Res.bind_ne_panic (scalarLaw.opt.noPanic _ _ _) fun _ _ => ?_
    refine Res.bind_ne_panic (scalarLaw.opt.noPanic _ _ _) fun _ _ => ?_
    refine Res.bind_ne_panic (scalarLaw.opt.noPanic _ _ _) fun _ _ => ?_
    refine Res.bind_ne_panic (scalarLaw.opt.noPanic _ _ _) fun _ _ => ?_
    refine Res.bind_ne_panic (scalarLaw.opt.noPanic _ _ _) fun _ _ => ?_
    refine Res.bind_ne_panic (scalarLaw.opt.noPanic _ _ _) fun _ _ => ?_
    refine Res.bind_ne_panic (scalarLaw.opt.noPanic _ _ _) fun _ _ => ?_
    refine Res.bind_ne_panic (scalarLaw.opt.noPanic _ _ _) fun _ _ => ?_
    simp
  assoc := by
    intro f a b c r
    constructor
    · rintro ⟨w, h1, h2⟩
      rw [mergeHttp_ok_iff] at h1 h2
      obtain ⟨p0, p1, p2, p3, p4, p5, p6, p7⟩ := h1
      obtain ⟨q0, q1, q2, q3, q4, q5, q6, q7⟩ := h2
      obtain ⟨y0, s0, t0⟩ := (scalarLaw.opt.assoc f _ _ _ _).1 ⟨_, p0, q0⟩
      obtain ⟨y1, s1, t1⟩ := (scalarLaw.opt.assoc f _ _ _ _).1 ⟨_, p1, q1⟩
      obtain ⟨y2, s2, t2⟩ := (scalarLaw.opt.assoc f _ _ _ _).1 ⟨_, p2, q2⟩
      obtain ⟨y3, s3, t3⟩ := (scalarLaw.opt.assoc f _ _ _ _).1 ⟨_, p3, q3⟩
      obtain ⟨y4, s4, t4⟩ := (scalarLaw.opt.assoc f _ _ _ _).1 ⟨_, p4, q4⟩
      obtain ⟨y5, s5, t5⟩ := (scalarLaw.opt.assoc f _ _ _ _).1 ⟨_, p5, q5⟩
      obtain ⟨y6, s6, t6⟩ := (scalarLaw.opt.assoc f _ _ _ _).1 ⟨_, p6, q6⟩
      obtain ⟨y7, s7, t7⟩ := (scalarLaw.opt.assoc f _ _ _ _).1 ⟨_, p7, q7⟩
      exact ⟨⟨y0, y1, y2, y3, y4, y5, y6, y7⟩, mergeHttp_ok_iff.2 ⟨s0, s1, s2, s3, s4, s5, s6, s7⟩, mergeHttp_ok_iff.2 ⟨t0, t1, t2, t3, t4, t5, t6, t7⟩⟩
    · rintro ⟨w, h1, h2⟩
      rw [mergeHttp_ok_iff] at h1 h2
      obtain ⟨p0, p1, p2, p3, p4, p5, p6, p7⟩ := h1
      obtain ⟨q0, q1, q2, q3, q4, q5, q6, q7⟩ := h2
      obtain ⟨y0, s0, t0⟩ := (scalarLaw.opt.assoc f _ _ _ _).2 ⟨_, p0, q0⟩
      obtain ⟨y1, s1, t1⟩ := (scalarLaw.opt.assoc f _ _ _ _).2 ⟨_, p1, q1⟩
      obtain ⟨y2, s2, t2⟩ := (scalarLaw.opt.assoc f _ _ _ _).2 ⟨_, p2, q2⟩
      obtain ⟨y3, s3, t3⟩ := (scalarLaw.opt.assoc f _ _ _ _).2 ⟨_, p3, q3⟩
      obtain ⟨y4, s4, t4⟩ := (scalarLaw.opt.assoc f _ _ _ _).2 ⟨_, p4, q4⟩
      obtain ⟨y5, s5, t5⟩ := (scalarLaw.opt.assoc f _ _ _ _).2 ⟨_, p5, q5⟩
      obtain ⟨y6, s6, t6⟩ := (scalarLaw.opt.assoc f _ _ _ _).2 ⟨_, p6, q6⟩
      obtain ⟨y7, s7, t7⟩ := (scalarLaw.opt.assoc f _ _ _ _).2 ⟨_, p7, q7⟩
      exact ⟨⟨y0, y1, y2, y3, y4, y5, y6, y7⟩, mergeHttp_ok_iff.2 ⟨s0, s1, s2, s3, s4, s5, s6, s7⟩, mergeHttp_ok_iff.2 ⟨t0, t1, t2, t3, t4, t5, t6, t7⟩⟩

theorem mergeNet_ok_iff {a b r : NetConfig} {f : Bool} : mergeNet a b f = .ok r ↔
    mergeOpt mergeScalar a.retry b.retry f = .ok r.retry ∧
    mergeOpt mergeScalar a.gitFetchWithCli b.gitFetchWithCli f = .ok r.gitFetchWithCli ∧
    mergeOpt mergeScalar a.offline b.offline f = .ok r.offline := by
  simp only [mergeNet, Res.bind_eq_ok]
  constructor
  · rintro ⟨x0, h0, x1, h1, x2, h2, h⟩
    cases h
    exact ⟨h0, h1, h2⟩
  · rintro ⟨h0, h1, h2⟩
    exact ⟨_, h0, _, h1, _, h2, by cases r; simp_all⟩

theorem netLaw : MergeLaw mergeNet where
  noPanic := by
    intro a b f
    unfold mergeNet
    refine Res.bind_ne_panic (scalarLaw.opt.noPanic _ _ _) fun _ _ => ?_
    refine Res.bind_ne_panic (scalarLaw.opt.noPanic _ _ _) fun _ _ => ?_
    refine Res.bind_ne_panic (scalarLaw.opt.noPanic _ _ _) fun _ _ => ?_
    simp
  assoc := by
    intro f a b c r
    constructor
    · rintro ⟨w, h1, h2⟩
      rw [mergeNet_ok_iff] at h1 h2
      obtain ⟨p0, p1, p2⟩ := h1
      obtain ⟨q0, q1, q2⟩ := h2
      obtain ⟨y0, s0, t0⟩ := (scalarLaw.opt.assoc f _ _ _ _).1 ⟨_, p0, q0⟩
      obtain ⟨y1, s1, t1⟩ := (scalarLaw.opt.assoc f _ _ _ _).1 ⟨_, p1, q1⟩
      obtain ⟨y2, s2, t2⟩ := (scalarLaw.opt.assoc f _ _ _ _).1 ⟨_, p2, q2⟩
      exact ⟨⟨y0, y1, y2⟩, mergeNet_ok_iff.2 ⟨s0, s1, s2⟩, mergeNet_ok_iff.2 ⟨t0, t1, t2⟩⟩
    · rintro ⟨w, h1, h2⟩
      rw [mergeNet_ok_iff] at h1 h2
      obtain ⟨p0, p1, p2⟩ := h1
      obtain ⟨q0, q1, q2⟩ := h2
      obtain ⟨y0, s0, t0⟩ := (scalarLaw.opt.assoc f _ _ _ _).2 ⟨_, p0, q0⟩
      obtain ⟨y1, s1, t1⟩ := (scalarLaw.opt.assoc f _ _ _ _).2 ⟨_, p1, q1⟩
      obtain ⟨y2, s2, t2⟩ := (scalarLaw.opt.assoc f _ _ _ _).2 ⟨_, p2, q2⟩
      exact ⟨⟨y0, y1, y2⟩, mergeNet_ok_iff.2 ⟨s0, s1, s2⟩, mergeNet_ok_iff.2 ⟨t0, t1, t2⟩⟩

theorem mergeRegistries_ok_iff {a b r : RegistriesConfigValue} {f : Bool} : mergeRegistries a b f = .ok r ↔
    mergeOpt mergeScalar a.index b.index f = .ok r.index ∧
    mergeOpt mergeScalar a.token b.token f = .ok r.token ∧
    mergeOpt mergeScalar a.protocol b.protocol f = .ok r.protocol := by
  simp only [mergeRegistries, Res.bind_eq_ok]
  constructor
  · rintro ⟨x0, h0, x1, h1, x2, h2, h⟩
    cases h
    exact ⟨h0, h1, h2⟩
  · rintro ⟨h0, h1, h2⟩
    exact ⟨_, h0, _, h1, _, h2, by cases r; simp_all⟩

theorem registriesLaw : MergeLaw mergeRegistries where
  noPanic := by
    intro a b f
    unfold mergeRegistries
    refine Res.bind_ne_panic (scalarLaw.opt.noPanic _ _ _) fun _ _ => ?_
    refine Res.bind_ne_panic (scalarLaw.opt.noPanic _ _ _) fun _ _ => ?_
    refine Res.bind_ne_panic (scalarLaw.opt.noPanic _ _ _) fun _ _ => ?_
    simp
  assoc := by
    intro f a b c r
    constructor
    · rintro ⟨w, h1, h2⟩
      rw [mergeRegistries_ok_iff] at h1 h2
      obtain ⟨p0, p1, p2⟩ := h1
      obtain ⟨q0, q1, q2⟩ := h2
      obtain ⟨y0, s0, t0⟩ := (scalarLaw.opt.assoc f _ _ _ _).1 ⟨_, p0, q0⟩
      obtain ⟨y1, s1, t1⟩ := (scalarLaw.opt.assoc f _ _ _ _).1 ⟨_, p1, q1⟩
      obtain ⟨y2, s2, t2⟩ := (scalarLaw.opt.assoc f _ _ _ _).1 ⟨_, p2, q2⟩
      exact ⟨⟨y0, y1, y2⟩, mergeRegistries_ok_iff.2 ⟨s0, s1, s2⟩, mergeRegistries_ok_iff.2 ⟨t0, t1, t2⟩⟩
    · rintro ⟨w, h1, h2⟩
      rw [mergeRegistries_ok_iff] at h1 h2
      obtain ⟨p0, p1, p2⟩ := h1
      obtain ⟨q0, q1, q2⟩ := h2
      obtain ⟨y0, s0, t0⟩ := (scalarLaw.opt.assoc f _ _ _ _).2 ⟨_, p0, q0⟩
      obtain ⟨y1, s1, t1⟩ := (scalarLaw.opt.assoc f _ _ _ _).2 ⟨_, p1, q1⟩
      obtain ⟨y2, s2, t2⟩ := (scalarLaw.opt.assoc f _ _ _ _).2 ⟨_, p2, q2⟩
      exact ⟨⟨y0, y1, y2⟩, mergeRegistries_ok_iff.2 ⟨s0, s1, s2⟩, mergeRegistries_ok_iff.2 ⟨t0, t1, t2⟩⟩

theorem mergeRegistry_ok_iff {a b r : RegistryConfig} {f : Bool} : mergeRegistry a b f = .ok r ↔
    mergeOpt mergeScalar a.default b.default f = .ok r.default ∧
    mergeOpt mergeScalar a.token b.token f = .ok r.token := by
  simp only [mergeRegistry, Res.bind_eq_ok]
  constructor
  · rintro ⟨x0, h0, x1, h1, h⟩
    cases h
    exact ⟨h0, h1⟩
  · rintro ⟨h0, h1⟩
    exact ⟨_, h0, _, h1, by cases r; simp_all⟩

theorem registryLaw : MergeLaw mergeRegistry where
  noPanic := by
    intro a b f
    unfold mergeRegistry
    refine Res.bind_ne_panic (scalarLaw.opt.noPanic _ _ _) fun _ _ => ?_
    refine Res.bind_ne_panic (scalarLaw.opt.noPanic _ _ _) fun _ _ => ?_
    simp
  assoc := by
    intro f a b c r
    constructor
    · rintro ⟨w, h1, h2⟩
      rw [mergeRegistry_ok_iff] at h1 h2
      obtain ⟨p0, p1⟩ := h1
      obtain ⟨q0, q1⟩ := h2
      obtain ⟨y0, s0, t0⟩ := (scalarLaw.opt.assoc f _ _ _ _).1 ⟨_, p0, q0⟩
      obtain ⟨y1, s1, t1⟩ := (scalarLaw.opt.assoc f _ _ _ _).1 ⟨_, p1, q1⟩
      exact ⟨⟨y0, y1⟩, mergeRegistry_ok_iff.2 ⟨s0, s1⟩, mergeRegistry_ok_iff.2 ⟨t0, t1⟩⟩
    · rintro ⟨w, h1, h2⟩
      rw [mergeRegistry_ok_iff] at h1 h2
      obtain ⟨p0, p1⟩ := h1
      obtain ⟨q0, q1⟩ := h2
      obtain ⟨y0, s0, t0⟩ := (scalarLaw.opt.assoc f _ _ _ _).2 ⟨_, p0, q0⟩
      obtain ⟨y1, s1, t1⟩ := (scalarLaw.opt.assoc f _ _ _ _).2 ⟨_, p1, q1⟩
      exact ⟨⟨y0, y1⟩, mergeRegistry_ok_iff.2 ⟨s0, s1⟩, mergeRegistry_ok_iff.2 ⟨t0, t1⟩⟩

theorem mergeTermProgress_ok_iff {a b r : TermProgress} {f : Bool} : mergeTermProgress a b f = .ok r ↔
    mergeOpt mergeScalar a.when b.when f = .ok r.when ∧
    mergeOpt mergeScalar a.width b.width f = .ok r.width := by
  simp only [mergeTermProgress, Res.bind_eq_ok]
  constructor
  · rintro ⟨x0, h0, x1, h1, h⟩
    cases h
    exact ⟨h0, h1⟩
  · rintro ⟨h0, h1⟩
    exact ⟨_, h0, _, h1, by cases r; simp_all⟩

theorem termProgressLaw : MergeLaw mergeTermProgress where
  noPanic := by
    intro a b f
    unfold mergeTermProgress
    refine Res.bind_ne_panic (scalarLaw.opt.noPanic _ _ _) fun _ _ => ?_
    refine Res.bind_ne_panic (scalarLaw.opt.noPanic _ _ _) fun _ _ => ?_
    simp
  assoc := by
    intro f a b c r
    constructor
    · rintro ⟨w, h1, h2⟩
      rw [mergeTermProgress_ok_iff] at h1 h2
      obtain ⟨p0, p1⟩ := h1
      obtain ⟨q0, q1⟩ := h2
      obtain ⟨y0, s0, t0⟩ := (scalarLaw.opt.assoc f _ _ _ _).1 ⟨_, p0, q0⟩
      obtain ⟨y1, s1, t1⟩ := (scalarLaw.opt.assoc f _ _ _ _).1 ⟨_, p1, q1⟩
      exact ⟨⟨y0, y1⟩, mergeTermProgress_ok_iff.2 ⟨s0, s1⟩, mergeTermProgress_ok_iff.2 ⟨t0, t1⟩⟩
    · rintro ⟨w, h1, h2⟩
      rw [mergeTermProgress_ok_iff] at h1 h2
      obtain ⟨p0, p1⟩ := h1
      obtain ⟨q0, q1⟩ := h2
      obtain ⟨y0, s0, t0⟩ := (scalarLaw.opt.assoc f _ _ _ _).2 ⟨_, p0, q0⟩
      obtain ⟨y1, s1, t1⟩ := (scalarLaw.opt.assoc f _ _ _ _).2 ⟨_, p1, q1⟩
      exact ⟨⟨y0, y1⟩, mergeTermProgress_ok_iff.2 ⟨s0, s1⟩, mergeTermProgress_ok_iff.2 ⟨t0, t1⟩⟩

theorem mergeTerm_ok_iff {a b r : TermConfig} {f : Bool} : mergeTerm a b f = .ok r ↔
    mergeOpt mergeScalar a.quiet b.quiet f = .ok r.quiet ∧
    mergeOpt mergeScalar a.verbose b.verbose f = .ok r.verbose ∧
    mergeOpt mergeScalar a.color b.color f = .ok r.color ∧
    mergeTermProgress a.progress b.progress f = .ok r.progress := by
  simp only [mergeTerm, Res.bind_eq_ok]
  constructor
  · rintro ⟨x0, h0, x1, h1, x2, h2, x3, h3, h⟩
    cases h
    exact ⟨h0, h1, h2, h3⟩
  · rintro ⟨h0, h1, h2, h3⟩
    exact ⟨_, h0, _, h1, _, h2, _, h3, by cases r; simp_all⟩

theorem termLaw : MergeLaw mergeTerm where
  noPanic := by
    intro a b f
    unfold mergeTerm
    refine Res.bind_ne_panic (scalarLaw.opt.noPanic _ _ _) fun _ _ => ?_
    refine Res.bind_ne_panic (scalarLaw.opt.noPanic _ _ _) fun _ _ => ?_
    refine Res.bind_ne_panic (scalarLaw.opt.noPanic _ _ _) fun _ _ => ?_
    refine Res.bind_ne_panic (termProgressLaw.noPanic _ _ _) fun _ _ => ?_
    simp
  assoc := by
    intro f a b c r
    constructor
    · rintro ⟨w, h1, h2⟩
      rw [mergeTerm_ok_iff] at h1 h2
      obtain ⟨p0, p1, p2, p3⟩ := h1
      obtain ⟨q0, q1, q2, q3⟩ := h2
      obtain ⟨y0, s0, t0⟩ := (scalarLaw.opt.assoc f _ _ _ _).1 ⟨_, p0, q0⟩
      obtain ⟨y1, s1, t1⟩ := (scalarLaw.opt.assoc f _ _ _ _).1 ⟨_, p1, q1⟩
      obtain ⟨y2, s2, t2⟩ := (scalarLaw.opt.assoc f _ _ _ _).1 ⟨_, p2, q2⟩
      obtain ⟨y3, s3, t3⟩ := (termProgressLaw.assoc f _ _ _ _).1 ⟨_, p3, q3⟩
      exact ⟨⟨y0, y1, y2, y3⟩, mergeTerm_ok_iff.2 ⟨s0, s1, s2, s3⟩, mergeTerm_ok_iff.2 ⟨t0, t1, t2, t3⟩⟩
    · rintro ⟨w, h1, h2⟩
      rw [mergeTerm_ok_iff] at h1 h2
      obtain ⟨p0, p1, p2, p3⟩ := h1
      obtain ⟨q0, q1, q2, q3⟩ := h2
      obtain ⟨y0, s0, t0⟩ := (scalarLaw.opt.assoc f _ _ _ _).2 ⟨_, p0, q0⟩
      obtain ⟨y1, s1, t1⟩ := (scalarLaw.opt.assoc f _ _ _ _).2 ⟨_, p1, q1⟩
      obtain ⟨y2, s2, t2⟩ := (scalarLaw.opt.assoc f _ _ _ _).2 ⟨_, p2, q2⟩
      obtain ⟨y3, s3, t3⟩ := (termProgressLaw.assoc f _ _ _ _).2 ⟨_, p3, q3⟩
      exact ⟨⟨y0, y1, y2, y3⟩, mergeTerm_ok_iff.2 ⟨s0, s1, s2, s3⟩, mergeTerm_ok_iff.2 ⟨t0, t1, t2, t3⟩⟩

end CC
