import Verif.Spec.Defaults
import Verif.Props.AllQueries
import Verif.Props.Home
import Verif.Props.Cargo
/-
Options that say what is the default anyway change nothing, and the order in which options are given does not matter: C95.
-/
namespace CC

variable {p : ProcEnv} {fs : Fs} {parse : Str → Res Config} {cwd : Path} {o : Options} {w : World} {s s0 : Cells} {c : EConfig}

/-! ### What loading makes of the options -/

/-- The directory used as `CARGO_HOME`. -/
def Options.homeIn (o : Options) (p : ProcEnv) (cwd : Path) : Option Path := o.cargoHome.getD (p.cargoHomeWithCwd cwd)

theorem load_of_options (p : ProcEnv) (fs : Fs) (parse : Str → Res Config) (cwd : Path) (o : Options) :
    EConfig.loadWithOptions p fs parse cwd o =
      (loadConfig fs parse (o.intoContext p cwd).1.currentDir (o.homeIn p cwd) >>= fun de =>
        EConfig.fromUnresolved de (o.intoContext p cwd).1 >>= fun c =>
          .ok (c, { rustc := o.rustc, cargoHome := some (o.homeIn p cwd), hostTriple := o.hostTriple })) := by
  unfold EConfig.loadWithOptions Options.homeIn
  have h : ((o.intoContext p cwd).2) = { rustc := o.rustc, cargoHome := o.cargoHome, hostTriple := o.hostTriple } := by
    unfold Options.intoContext Options.withEnv
    dsimp only
    split <;> rfl
  generalize hx : o.intoContext p cwd = x at h
  obtain ⟨cx, s⟩ := x
  dsimp only at h
  subst h
  dsimp only
  unfold Cells.cargoHomeOf
  cases hc : o.cargoHome <;> rfl

theorem intoContext_congr {o o' : Options} (h1 : (if o.env.isNone then some (optEnv p.vars) else o.env) =
      (if o'.env.isNone then some (optEnv p.vars) else o'.env)) (h2 : (o.intoContext p cwd).1.cargo = (o'.intoContext p cwd).1.cargo) :
    (o.intoContext p cwd).1 = (o'.intoContext p cwd).1 := by
  have henv : ∀ o : Options, (o.intoContext p cwd).1.env = (if o.env.isNone then some (optEnv p.vars) else o.env).getD [] := by
    intro o
    unfold Options.intoContext Options.withEnv
    dsimp only
    split <;> rfl
  have hdir : ∀ o : Options, (o.intoContext p cwd).1.currentDir = cwd := fun _ => rfl
  have hx : ∀ a b : Ctx, a.env = b.env → a.cargo = b.cargo → a.currentDir = b.currentDir → a = b := by
    rintro ⟨_, _, _⟩ ⟨_, _, _⟩ rfl rfl rfl
    rfl
  exact hx _ _ (by rw [henv, henv, h1]) h2 rfl

/-! ### The order of options -/

theorem lastCall_snoc (calls : List OptionCall) (y x : OptionCall) :
    LastCall (calls ++ [y]) x ↔ x = y ∨ (¬ x.Alike y ∧ LastCall calls x) := by
  constructor
  · rintro ⟨before, after, h1, h2⟩
    rcases List.eq_nil_or_concat after with rfl | ⟨as, a, rfl⟩
    · have := List.append_inj' h1 rfl
      exact Or.inl (List.cons.inj this.2).1.symm
    · rw [List.concat_eq_append, ← List.cons_append, ← List.append_assoc] at h1
      obtain ⟨e1, e2⟩ := List.append_inj' h1 rfl
      cases e2
      refine Or.inr ⟨h2 _ (by simp), before, as, e1, fun z hz => h2 z (by simp [hz])⟩
  · rintro (rfl | ⟨h1, before, after, rfl, h2⟩)
    · exact ⟨calls, [], rfl, fun _ h => (by cases h)⟩
    · refine ⟨before, after ++ [y], by simp, fun z hz => ?_⟩
      rcases List.mem_append.1 hz with hz | hz
      · exact h2 z hz
      · rw [List.mem_singleton.1 hz]; exact h1

theorem options_last : ∀ (n : Nat) (calls : List OptionCall), calls.length = n →
    (∀ x, (calls.foldl OptionCall.run {}).rustc = some x ↔ LastCall calls (.rustc x)) ∧
    (∀ x, (calls.foldl OptionCall.run {}).cargo = some x ↔ LastCall calls (.cargo x)) ∧
    (∀ x, (calls.foldl OptionCall.run {}).cargoHome = some x ↔ LastCall calls (.cargoHome x)) ∧
    (∀ x, (calls.foldl OptionCall.run {}).hostTriple = some x ↔ LastCall calls (.hostTriple x)) ∧
    (∀ x, (calls.foldl OptionCall.run {}).env = some x ↔ ∃ vars, LastCall calls (.env vars) ∧ optEnv vars = x) := by
  intro n
  induction n with
  | zero =>
    intro calls h
    have : ∀ x, ¬ LastCall [] x := by
      rintro x ⟨before, after, h, -⟩
      cases before <;> cases h
    cases calls with
    | cons _ _ => cases h
    | nil => simp [this]
  | succ n ih =>
    intro calls h
    rcases List.eq_nil_or_concat calls with rfl | ⟨cs, y, rfl⟩
    · cases h
    · rw [List.concat_eq_append] at h ⊢
      obtain ⟨i1, i2, i3, i4, i5⟩ := ih cs (by simpa using h)
      simp only [List.foldl_append, List.foldl_cons, List.foldl_nil, lastCall_snoc]
      cases y <;>
        simp [OptionCall.run, OptionCall.Alike, Options.withRustc, Options.withCargo, Options.withCargoHome, Options.withHostTriple,
          Options.withEnv, i1, i2, i3, i4, i5, eq_comm]

/-- C95: what is given last for each option counts; neither the order of the options nor earlier calls matter. -/
theorem C95_order (calls calls' : List OptionCall) (h : ∀ x, LastCall calls x ↔ LastCall calls' x) :
    calls.foldl OptionCall.run {} = calls'.foldl OptionCall.run {} := by
  have a := options_last calls.length calls rfl
  have b := options_last calls'.length calls' rfl
  generalize calls.foldl OptionCall.run {} = o at a
  generalize calls'.foldl OptionCall.run {} = o' at b
  have ext : ∀ {α : Type} {x y : Option α}, (∀ z, x = some z ↔ y = some z) → x = y := by
    intro α x y hxy
    cases x with
    | some v => exact ((hxy v).1 rfl).symm
    | none =>
      cases y with
      | none => rfl
      | some v => exact absurd ((hxy v).2 rfl) (by intro h; cases h)
  have h1 : o.rustc = o'.rustc := ext fun z => by rw [a.1, b.1, h]
  have h2 : o.cargo = o'.cargo := ext fun z => by rw [a.2.1, b.2.1, h]
  have h3 : o.cargoHome = o'.cargoHome := ext fun z => by rw [a.2.2.1, b.2.2.1, h]
  have h4 : o.hostTriple = o'.hostTriple := ext fun z => by rw [a.2.2.2.1, b.2.2.2.1, h]
  have h5 : o.env = o'.env := ext fun z => by
    rw [a.2.2.2.2, b.2.2.2.2]
    simp only [h]
  obtain ⟨_, _, _, _, _⟩ := o
  obtain ⟨_, _, _, _, _⟩ := o'
  cases h1; cases h2; cases h3; cases h4; cases h5
  rfl

/-- A setter called twice, and the same setters in another order. -/
example : [OptionCall.cargo (.unicode "a".toList), .rustc ⟨"r".toList, []⟩, .cargo (.unicode "b".toList)].foldl OptionCall.run {} =
    [OptionCall.cargo (.unicode "b".toList), .rustc ⟨"r".toList, []⟩].foldl OptionCall.run {} := by
  refine C95_order _ _ fun x => ?_
  have h1 := fun y x => lastCall_snoc [] y x
  have h2 := fun a y x => lastCall_snoc [a] y x
  have h3 := fun a b y x => lastCall_snoc [a, b] y x
  have h0 : ∀ x, ¬ LastCall [] x := by
    rintro x ⟨before, after, h, -⟩
    cases before <;> cases h
  simp only [List.nil_append, List.cons_append] at h1 h2 h3
  rw [h3, h2, h2, h1, h1]
  cases x <;> simp [OptionCall.Alike, h0]

/-! ### Defaults -/

/-- C95: giving the environment of the process changes nothing. -/
theorem C95_env (ho : o.env = none) :
    EConfig.loadWithOptions p fs parse cwd (o.withEnv p.vars) = EConfig.loadWithOptions p fs parse cwd o := by
  have hc : ((o.withEnv p.vars).intoContext p cwd).1 = (o.intoContext p cwd).1 := by
    unfold Options.intoContext
    rw [ho]
    rfl
  rw [load_of_options, load_of_options, hc]
  rfl

/-- C95: giving the cargo that the environment names, or else `cargo`, changes nothing. -/
theorem C95_cargo {look : Str → Option OsStr} (he : EnvOf p o look) (ho : o.cargo = none) {x : OsStr}
    (hx : look "CARGO".toList = some x ∨ (look "CARGO".toList = none ∧ x = .unicode "cargo".toList)) :
    EConfig.loadWithOptions p fs parse cwd (o.withCargo x) = EConfig.loadWithOptions p fs parse cwd o := by
  have hlook := congrFun (env_unique (cwd := cwd) he rfl) "CARGO".toList
  have hd : (o.intoContext p cwd).1.cargo =
      o.cargo.getD ((Env.get (o.intoContext p cwd).1.env "CARGO".toList).getD (.unicode "cargo".toList)) := by
    unfold Options.intoContext Options.withEnv
    cases he : o.env <;> cases hc : o.cargo <;> simp [he, hc]
  have hw : ((o.withCargo x).intoContext p cwd).1.cargo = x := by
    unfold Options.intoContext Options.withEnv Options.withCargo
    cases he : o.env <;> simp [he]
  have hc : ((o.withCargo x).intoContext p cwd).1 = (o.intoContext p cwd).1 := by
    refine intoContext_congr rfl ?_
    rw [hw, hd, hlook, ho]
    rcases hx with h | ⟨h, rfl⟩ <;> rw [h] <;> rfl
  rw [load_of_options, load_of_options, hc]
  rfl

/-- C95: giving the `CARGO_HOME` of the process changes nothing. -/
theorem C95_home (ho : o.cargoHome = none) {home : Option Path}
    (hh : HomeRule cwd ((firstValue p.vars "CARGO_HOME".toList).map OsStr.path) p.home home) :
    EConfig.loadWithOptions p fs parse cwd (o.withCargoHome home) = EConfig.loadWithOptions p fs parse cwd o := by
  have e := cargoHome_of_rule hh
  have h1 : (o.withCargoHome home).homeIn p cwd = o.homeIn p cwd := by
    unfold Options.homeIn
    rw [ho, e]
    rfl
  have hc : ((o.withCargoHome home).intoContext p cwd).1 = (o.intoContext p cwd).1 := by
    obtain ⟨env, _, _, _, _⟩ := o
    cases env <;> rfl
  rw [load_of_options, load_of_options, h1, hc]
  rfl

theorem load_with_rustc (hl : EConfig.loadWithOptions p fs parse cwd o = .ok (c, s0)) (r : EPathAndArgs) :
    EConfig.loadWithOptions p fs parse cwd (o.withRustc r) = .ok (c, { s0 with rustc := some r }) := by
  have hc : ((o.withRustc r).intoContext p cwd).1 = (o.intoContext p cwd).1 := by
    obtain ⟨env, _, _, _, _⟩ := o
    cases env <;> rfl
  rw [load_of_options] at hl ⊢
  rw [hc]
  simp only [Res.bind_eq_ok] at hl ⊢
  obtain ⟨de, h1, c', h2, h3⟩ := hl
  obtain ⟨rfl, rfl⟩ := Prod.mk.inj (Res.ok.inj h3)
  exact ⟨de, h1, c', h2, rfl⟩

theorem load_with_host (hl : EConfig.loadWithOptions p fs parse cwd o = .ok (c, s0)) (h : Str) :
    EConfig.loadWithOptions p fs parse cwd (o.withHostTriple h) = .ok (c, { s0 with hostTriple := some h }) := by
  have hc : ((o.withHostTriple h).intoContext p cwd).1 = (o.intoContext p cwd).1 := by
    obtain ⟨env, _, _, _, _⟩ := o
    cases env <;> rfl
  rw [load_of_options] at hl ⊢
  rw [hc]
  simp only [Res.bind_eq_ok] at hl ⊢
  obtain ⟨de, h1, c', h2, h3⟩ := hl
  obtain ⟨rfl, rfl⟩ := Prod.mk.inj (Res.ok.inj h3)
  exact ⟨de, h1, c', h2, rfl⟩

theorem settled_rustc (hw : Steady w) (h0 : Untouched s0) {r : EPathAndArgs} (hr : (c.rustc w s0).1 = .ok r) :
    Settled c w s0 { s0 with rustc := some r } := by
  have hr : rustcAnswer c.cx c.build (w.exist 0) s0.rustc = r := by
    have := queryRustc_eq c.cx c.build w s0
    rw [(hw s0.clock 0).2] at this
    exact Res.ok.inj (this.symm.trans hr)
  have h := Settled.start (c := c) (w := w) h0
  exact ⟨⟨hr.symm ▸ rfl, h.tables.cfg, h.tables.target⟩, h.tools.same rfl rfl rfl⟩

theorem settled_host (hw : Steady w) (h0 : Untouched s0) {h : Str} (hh : (c.hostTriple w s0).1 = .ok h) :
    Settled c w s0 { s0 with hostTriple := some h } := by
  have hs := Settled.start (c := c) (w := w) h0
  have hk : knownHost c w s0 = .ok h := by
    rcases (host_steady hw hs.tools).1 with e | e
    · exact absurd (e.symm.trans hh) (by intro h; cases h)
    · exact e.symm.trans hh
  exact ⟨⟨hs.tables.rustc, hs.tables.cfg, hs.tables.target⟩,
    fun y hy => (by cases hy; exact hk), fun hy => (by cases hy), hs.tools.cargo, hs.tools.rustc⟩

/-- C95: giving the compiler that is reported without (`Config::rustc`) changes no answer, whatever is asked of the config and its
clones. -/
theorem C95_rustc (hw : Steady w) (hc : w.checks = false ∨ HostLines w)
    (hl : EConfig.loadWithOptions p fs parse cwd o = .ok (c, s0)) {r : EPathAndArgs} (hr : (c.rustc w s0).1 = .ok r) :
    ∃ s1, EConfig.loadWithOptions p fs parse cwd (o.withRustc r) = .ok (c, s1) ∧
      ∀ steps, (∀ x ∈ steps, x.Proper) → ∀ s ∈ afterProgram c w steps s1, ∀ q : Query, q.Proper →
        (c.ask q w s).1 = (c.ask q w s0).1 := by
  have h0 := C91_loaded hl
  refine ⟨_, load_with_rustc hl r, fun steps hp s hs q hq => ?_⟩
  obtain ⟨h1, h2⟩ := settled_pool hw h0 steps [_] hp (fun u hu => by
    rw [List.mem_singleton.1 hu]
    exact ⟨settled_rustc hw h0 hr, fun _ _ => ⟨h0.cargo, h0.rustc⟩⟩) s hs
  refine (h1.answer hw h0 hq).resolve_right fun h => ?_
  rcases hc with hc | hc
  · exact host_no_panic (Or.inl hc) h.2
  · exact (host_safe hw hc (h2 hc)).1 h.2

/-- C95: giving the host triple that is reported without (`Config::host_triple`) changes no answer, whatever is asked of the config and
its clones; in addition nothing can panic any more because of what was asked before. -/
theorem C95_host (hw : Steady w) (hl : EConfig.loadWithOptions p fs parse cwd o = .ok (c, s0)) {h : Str}
    (hh : (c.hostTriple w s0).1 = .ok h) :
    ∃ s1, EConfig.loadWithOptions p fs parse cwd (o.withHostTriple h) = .ok (c, s1) ∧
      ∀ steps, (∀ x ∈ steps, x.Proper) → ∀ s ∈ afterProgram c w steps s1, ∀ q : Query, q.Proper →
        (c.ask q w s).1 = (c.ask q w s0).1 := by
  have h0 := C91_loaded hl
  have hs1 := load_with_host hl h
  refine ⟨_, hs1, fun steps hp s hs q hq => ?_⟩
  have h1 := (settled_pool hw h0 steps [_] hp (fun u hu => by
    rw [List.mem_singleton.1 hu]
    exact ⟨settled_host hw h0 hh, fun _ _ => ⟨h0.cargo, h0.rustc⟩⟩) s hs).1
  have h2 := (settled_program hw (C91_loaded hs1) steps hp hs).1
  refine (h1.answer hw h0 hq).resolve_right fun hx => ?_
  cases hy : s.hostTriple with
  | none => exact absurd (h2.tools.unset hy) (by intro h; cases h)
  | some y =>
    have := hx.2
    rw [queryHostTriple_set hy] at this
    cases this

/-- A wrapper and a cfg table in the only config file; tools that print a version, a host and `unix`. -/
def defaultsLoad (p : ProcEnv) (o : Options) : Res (EConfig × Cells) :=
  EConfig.loadWithOptions p
    ⟨fun f => decide (f = "/w/.cargo/config".toList), fun f => if f = "/w/.cargo/config".toList then .ok [] else .err (.io [])⟩
    (fun _ => .ok { build := { rustcWrapper := some ⟨"wrap".toList, none⟩ }
                    target := [("cfg(unix)".toList, { rustflags := some ⟨[⟨"-g".toList, none⟩], .array⟩ })] })
    "/w".toList o
def defaultsWorld : World :=
  { checks := true
    run := fun _ x => if x.args.contains "--print".toList then .succeeded (.unicode "unix\n".toList)
      else .succeeded (.unicode "release: 1.84.0\nhost: x\n".toList)
    exist := fun _ _ => false }
def defaultsAnswers (r : Res (EConfig × Cells)) : Option (List (Option Answer)) :=
  r.toOption.map fun (c, s) => [Query.rustc, .hostTriple, .rustcVersion, .cargoVersion, .rustflags ⟨"x".toList, none⟩].map
    fun q => (c.ask q defaultsWorld s).1.toOption

theorem sample_defaults_steady : Steady defaultsWorld := fun _ _ => ⟨rfl, rfl⟩
/-- The answers without any option, and with the compiler and the host triple that are reported. -/
theorem sample_defaults_answers : ∀ o ∈ [{}, Options.withRustc {} ⟨"wrap".toList, ["rustc".toList]⟩, Options.withHostTriple {} "x".toList],
    defaultsAnswers (defaultsLoad {} o) =
      some [some (.rustc ⟨"wrap".toList, ["rustc".toList]⟩), some (.host "x".toList), some (.rustcVersion ⟨1, 84, some 0, false⟩),
        some (.cargoVersion ⟨1, 84, 0, false⟩), some (.flags (some ⟨["-g".toList]⟩))] := by decide +kernel
example : ∀ o ∈ [{}, Options.withRustc {} ⟨"wrap".toList, ["rustc".toList]⟩, Options.withHostTriple {} "x".toList],
    defaultsAnswers (defaultsLoad {} o) = defaultsAnswers (defaultsLoad {} {}) := by
  intro o ho
  rw [sample_defaults_answers o ho, sample_defaults_answers {} (by simp)]
/-- Another compiler than the one reported does change the answers. -/
example : defaultsAnswers (defaultsLoad {} (Options.withRustc {} ⟨"rustc".toList, []⟩)) ≠ defaultsAnswers (defaultsLoad {} {}) := by
  decide +kernel
/-- The hypotheses of `C95_cargo`, `C95_home` and `C95_env`: a process with `CARGO` and a relative `CARGO_HOME`. -/
def defaultsProc : ProcEnv :=
  { vars := [(.unicode "CARGO_HOME".toList, .unicode "h".toList), (.unicode "CARGO".toList, .unicode "/bin/cargo".toList)], home := none }
example : defaultsLoad defaultsProc (Options.withCargo {} (.unicode "/bin/cargo".toList)) = defaultsLoad defaultsProc {} := by
  have he : EnvOf defaultsProc {} (Env.get (optEnv defaultsProc.vars)) := by
    refine fun n => ⟨fun hn => C18_lookup _ hn, fun hn => ?_⟩
    unfold optEnv
    rw [optEnvLoop_get, if_neg fun h => hn ((envRelevant_iff n).1 h)]
    rfl
  exact C95_cargo he rfl (.inl rfl)
example : defaultsLoad defaultsProc (Options.withCargoHome {} (some "/w/h".toList)) = defaultsLoad defaultsProc {} :=
  C95_home rfl (.relative "h".toList none (by decide) (by rintro ⟨r, h⟩; cases h))
example : defaultsLoad defaultsProc (Options.withEnv {} defaultsProc.vars) = defaultsLoad defaultsProc {} := C95_env rfl
/-- The hypotheses of `C95_rustc` and `C95_host` together with what they give. -/
example : ∃ c s0 s1 s2, defaultsLoad {} {} = .ok (c, s0) ∧ (c.rustc defaultsWorld s0).1 = .ok ⟨"wrap".toList, ["rustc".toList]⟩ ∧
    (c.hostTriple defaultsWorld s0).1 = .ok "x".toList ∧
    defaultsLoad {} (Options.withRustc {} ⟨"wrap".toList, ["rustc".toList]⟩) = .ok (c, s1) ∧
    defaultsLoad {} (Options.withHostTriple {} "x".toList) = .ok (c, s2) := by
  have h0 : (defaultsLoad {} {}).toOption.map (fun (c, s) => ((c.rustc defaultsWorld s).1.toOption, (c.hostTriple defaultsWorld s).1.toOption)) =
      some (some ⟨"wrap".toList, ["rustc".toList]⟩, some "x".toList) := by decide +kernel
  have ok : ∀ {α : Type} {r : Res α} {x : α}, r.toOption = some x → r = .ok x := by
    intro α r x h
    cases r <;> cases h
    rfl
  cases hl : defaultsLoad {} {} with
  | panic => rw [hl] at h0; cases h0
  | err e => rw [hl] at h0; cases h0
  | ok a =>
    obtain ⟨c, s0⟩ := a
    rw [hl] at h0
    have h1 := Prod.mk.inj (Option.some.inj h0)
    exact ⟨c, s0, _, _, rfl, ok h1.1, ok h1.2, load_with_rustc hl _, load_with_host hl _⟩

end CC
