import Verif.Spec.ListSpelling
import Verif.Props.Settings
/-
How a list is spelled does not matter: lemmas for C96.
-/
namespace CC

variable {p p' : ProcEnv} {fs fs' : Fs} {toml toml' : Str → Res Toml} {cwd cwd' : Path} {o o' : Options} {c c' : EConfig} {s s' : Cells}
  {look look' : Str → Option OsStr} {home home' : Option Path} {docs docs' : List (Path × Toml)}

/-- What one document says about a list. -/
theorem listsIn_one {split : Bool} {path : List Str} {f : Path} {a : Toml} (e : saidAt path docs = [(f, a)])
    {xs : List (Repr' × List (Val Str))} (h : ListsIn split path docs xs) {r : Repr'} {ws : List Str} (ht : TomlList split a r ws) :
    ∃ r', xs = [(r', ws.map fun w => ⟨w, some (.path f)⟩)] := by
  rw [listsIn_iff, e] at h
  cases h with
  | @cons _ x _ _ h1 h2 =>
    cases h2
    obtain ⟨ws', h3, h4⟩ := h1
    obtain ⟨r', l⟩ := x
    dsimp only at h3 h4
    rw [h4, (tomlList_unique ht h3).2]
    exact ⟨r', rfl⟩

theorem joinedList_single {r : Repr'} {l : List (Val Str)} {y : Option (Repr' × List (Val Str))} (h : JoinedList [(r, l)] y) :
    y.map Prod.snd = some l := by
  generalize hx : [(r, l)] = xs at h
  cases h with
  | unset => cases hx
  | array _ _ => subst hx; simp
  | string _ => cases hx; rfl

theorem joinedProg_single {r : Repr'} {l : List (Val Str)} {y : Option (Repr' × List (Val Str))} (h : JoinedProg [(r, l)] y) :
    y.map Prod.snd = some l := by
  generalize hx : [(r, l)] = xs at h
  cases h with
  | unset => cases hx
  | array _ _ => subst hx; simp
  | string _ => cases hx; rfl

theorem listSource_alike (k : ListKey) (hv : ∀ n ∈ k.sources.map Prod.fst, look n = look' n)
    (hd : SaidAlike k.splits (saidAt k.path docs) (saidAt k.path docs')) {y y' : Option (Repr' × List (Val Str))}
    (h : k.Source look docs y) (h' : k.Source look' docs' y') : y.map Prod.snd = y'.map Prod.snd := by
  rcases hd with hd | ⟨f, a, b, e1, e2, r, r', ws, t1, t2⟩
  · rw [listSource_unique (listSource_agree k hv hd h) h']
  · unfold ListKey.Source at h h'
    rw [readEnv_agree hv] at h
    generalize readEnv look' k.sources = x at h h'
    have key : (∃ xs, ListsIn k.splits k.path docs xs ∧ JoinedList xs y) → (∃ xs, ListsIn k.splits k.path docs' xs ∧ JoinedList xs y') →
        y.map Prod.snd = y'.map Prod.snd := by
      rintro ⟨xs, h1, h2⟩ ⟨xs', h3, h4⟩
      obtain ⟨r1, rfl⟩ := listsIn_one e1 h1 t1
      obtain ⟨r2, rfl⟩ := listsIn_one e2 h3 t2
      rw [joinedList_single h2, joinedList_single h4]
    match x, h, h' with
    | some (some (n, x)), h, h' => rw [h, h']
    | some none, h, h' => exact key h h'
    | none, h, h' => exact key h h'

theorem progSource_alike (k : ProgKey) (hv : ∀ n ∈ k.sources.map Prod.fst, look n = look' n)
    (hd : SaidAlike true (saidAt k.path docs) (saidAt k.path docs')) {y y' : Option (Repr' × List (Val Str))}
    (h : k.Source look docs y) (h' : k.Source look' docs' y') : y.map Prod.snd = y'.map Prod.snd := by
  rcases hd with hd | ⟨f, a, b, e1, e2, r, r', ws, t1, t2⟩
  · rw [progSource_unique (progSource_agree k hv hd h) h']
  · obtain ⟨xs, h1, h2, -⟩ := h
    obtain ⟨xs', h3, h4, -⟩ := h'
    obtain ⟨r1, rfl⟩ := listsIn_one e1 h1 t1
    obtain ⟨r2, rfl⟩ := listsIn_one e2 h3 t2
    rw [joinedProg_single (h2 (by simp)), joinedProg_single (h4 (by simp))]

/-! ### forgetting how lists are spelled -/

/-- The same flags, written as an array. -/
def Flags.plainly (f : Flags) : Flags := { f with repr := .array }
/-- The same command, written as an array. -/
def PathAndArgs.plainly (x : PathAndArgs) : PathAndArgs := { x with repr := .array }
/-- The same table with all lists written as arrays. -/
def TargetConfig.plainly (t : TargetConfig) : TargetConfig :=
  { t with runner := t.runner.map PathAndArgs.plainly, rustflags := t.rustflags.map Flags.plainly,
           rustdocflags := t.rustdocflags.map Flags.plainly }
/-- Likewise for the values collected for a target. -/
def TargetAcc.plainly (a : TargetAcc) : TargetAcc :=
  { a with runner := a.runner.map PathAndArgs.plainly, rustflags := a.rustflags.map Flags.plainly,
           rustdocflags := a.rustdocflags.map Flags.plainly }
/-- Likewise for `[build]`. -/
def EBuild.plainly (b : EBuild) : EBuild :=
  { b with deRustflags := b.deRustflags.map Flags.plainly, deRustdocflags := b.deRustdocflags.map Flags.plainly }
/-- Likewise for what the queries use of a config. -/
def EConfig.plainly (c : EConfig) : EConfig :=
  { c with build := c.build.plainly, deTarget := c.deTarget.mapVals TargetConfig.plainly }

theorem flags_plainly {x y : Option Flags}
    (h : (x.map fun l => (l.repr, l.flags)).map Prod.snd = (y.map fun l => (l.repr, l.flags)).map Prod.snd) :
    x.map Flags.plainly = y.map Flags.plainly := by
  cases x <;> cases y <;> simp_all [Flags.plainly]

theorem prog_plainly {x y : Option PathAndArgs}
    (h : (x.map fun l => (l.repr, l.path :: l.args)).map Prod.snd = (y.map fun l => (l.repr, l.path :: l.args)).map Prod.snd) :
    x.map PathAndArgs.plainly = y.map PathAndArgs.plainly := by
  cases x <;> cases y <;> simp_all [PathAndArgs.plainly]

theorem resolved_plainly (cwd : Path) (a : TargetConfig) : ETarget.fromUnresolved cwd a.plainly = ETarget.fromUnresolved cwd a := by
  obtain ⟨l, r, f, g⟩ := a
  unfold ETarget.fromUnresolved TargetConfig.plainly
  cases r <;> cases f <;> cases g <;> rfl

theorem extendFlags_plainly (o : Option Flags) (x : Flags) :
    extendFlags (o.map Flags.plainly) x.plainly = (extendFlags o x).map Flags.plainly := by
  cases o <;> rfl

theorem extendFlags_plainly' (o : Option Flags) (x : Flags) :
    (extendFlags (o.map Flags.plainly) x).map Flags.plainly = (extendFlags o x).map Flags.plainly := by
  cases o <;> rfl

theorem plainly_start (tc : Option TargetConfig) : TargetAcc.start (tc.map TargetConfig.plainly) = (TargetAcc.start tc).plainly := by
  cases tc <;> rfl

theorem plainly_twice (a : TargetAcc) : a.plainly.plainly = a.plainly := by
  obtain ⟨l, r, f, g⟩ := a
  cases r <;> cases f <;> cases g <;> rfl

theorem addCfg_plainly (a : TargetAcc) (v : TargetConfig) : (a.plainly.addCfg v.plainly).plainly = (a.addCfg v).plainly := by
  obtain ⟨l, r, f, g⟩ := a
  obtain ⟨l', r', f', g'⟩ := v
  cases l <;> cases r <;> cases f <;> cases g <;> cases l' <;> cases r' <;> cases f' <;> rfl

theorem addCfg_alike {a a' : TargetAcc} (h : a.plainly = a'.plainly) (v : TargetConfig) :
    (a.addCfg v.plainly).plainly = (a'.addCfg v).plainly := by
  have key : ∀ (a : TargetAcc) (v : TargetConfig), (a.addCfg v).plainly = (a.plainly.addCfg v.plainly).plainly :=
    fun a v => (addCfg_plainly a v).symm
  have hv : v.plainly.plainly = v.plainly := by
    obtain ⟨l, r, f, g⟩ := v
    cases r <;> cases f <;> cases g <;> rfl
  rw [key a, key a', hv, h]

/-- `applyEnv` on values that differ in spelling only. -/
theorem applyEnv_alike (env : Env) (triple : Str) (a : TargetAcc) :
    (a.plainly.applyEnv env triple >>= fun x => Res.ok x.plainly) = (a.applyEnv env triple >>= fun x => Res.ok x.plainly) := by
  obtain ⟨l, r, f, g⟩ := a
  unfold TargetAcc.applyEnv
  cases env.var (targetVar triple "LINKER".toList) with
  | ok x1 =>
    cases env.var (targetVar triple "RUNNER".toList) with
    | ok x2 =>
      have : ∀ r : Option PathAndArgs, envRunner (r.map PathAndArgs.plainly) x2 = (envRunner r x2) ∨
          (x2 = none ∧ envRunner (r.map PathAndArgs.plainly) x2 = .ok (r.map PathAndArgs.plainly) ∧ envRunner r x2 = .ok r) := by
        intro r
        cases x2 with
        | none => exact .inr ⟨rfl, rfl, rfl⟩
        | some v => exact .inl rfl
      have hf : ∀ (o : Option Flags) x, (envFlags (o.map Flags.plainly) x).map Flags.plainly = (envFlags o x).map Flags.plainly := by
        intro o x
        cases x <;> cases o <;> rfl
      have hp : (r.map PathAndArgs.plainly).map PathAndArgs.plainly = r.map PathAndArgs.plainly := by cases r <;> rfl
      simp only [TargetAcc.plainly, Res.ok_bind]
      rcases this r with e | ⟨-, e1, e2⟩
      · rw [e]
        cases envRunner r x2 with
        | ok y =>
          simp only [Res.ok_bind]
          cases env.var (targetVar triple "RUSTFLAGS".toList) with
          | ok x3 =>
            simp only [Res.ok_bind]
            cases env.var (targetVar triple "RUSTDOCFLAGS".toList) with
            | ok x4 => simp only [Res.ok_bind, Res.pure_eq, hf]
            | err e => rfl
            | panic => rfl
          | err e => rfl
          | panic => rfl
        | err e => rfl
        | panic => rfl
      · rw [e1, e2]
        simp only [Res.ok_bind]
        cases env.var (targetVar triple "RUSTFLAGS".toList) with
        | ok x3 =>
          simp only [Res.ok_bind]
          cases env.var (targetVar triple "RUSTDOCFLAGS".toList) with
          | ok x4 => simp only [Res.ok_bind, Res.pure_eq, hf, hp]
          | err e => rfl
          | panic => rfl
        | err e => rfl
        | panic => rfl
    | err e => rfl
    | panic => rfl
  | err e => rfl
  | panic => rfl

theorem evalCfg_plainly (cx : Ctx) (b : EBuild) (k : Str) (t : TargetTriple) : evalCfg cx b.plainly k t = evalCfg cx b k t := rfl

/-- The loop over the tables, on values that differ in spelling only. -/
theorem cfgTables_alike (cx : Ctx) (b : EBuild) (t : TargetTriple) (m : BMap TargetConfig) {a a' : TargetAcc} (h : a.plainly = a'.plainly)
    (w : World) (s : Cells) :
    Act.map TargetAcc.plainly (cfgTables cx b.plainly t (m.mapVals TargetConfig.plainly) a) w s =
      Act.map TargetAcc.plainly (cfgTables cx b t m a') w s := by
  induction m generalizing a a' s with
  | nil => simp only [BMap.mapVals, List.map_nil, cfgTables, Act.map, pure, h]
  | cons e m ih =>
    obtain ⟨k, v⟩ := e
    simp only [BMap.mapVals, List.map_cons, cfgTables] at ih ⊢
    split
    · exact ih h s
    · rw [evalCfg_plainly]
      simp only [Act.map, bind, Act.bind]
      cases evalCfg cx b k t w s with
      | mk r s1 =>
        cases r with
        | ok holds =>
          dsimp only
          refine ih ?_ s1
          cases holds
          · exact h
          · exact addCfg_alike h v
        | err e => rfl
        | panic => rfl

theorem finish_alike {a a' : TargetAcc} (h : a.plainly = a'.plainly) (x y : Bool) (f g : Option Flags) :
    (a.finish x (f.map Flags.plainly) y (g.map Flags.plainly)).map TargetConfig.plainly =
      (a'.finish x f y g).map TargetConfig.plainly := by
  have key : ∀ a : TargetAcc, ∀ f g : Option Flags, (a.finish x f y g).map TargetConfig.plainly =
      (a.plainly.finish x (f.map Flags.plainly) y (g.map Flags.plainly)).map TargetConfig.plainly := by
    intro a f g
    obtain ⟨l, r, u, v⟩ := a
    cases x <;> cases y <;> cases r <;> cases u <;> cases v <;> cases f <;> cases g <;> rfl
  have hi : ∀ o : Option Flags, (o.map Flags.plainly).map Flags.plainly = o.map Flags.plainly := by
    intro o
    cases o <;> rfl
  rw [key a, key a' f g, h, hi, hi]

/-- Resolving a target, for tables that differ in spelling only. -/
theorem resolve_alike (c : EConfig) (t : TargetTriple) (w : World) (s : Cells) :
    Act.map (fun o : Option TargetConfig => o.map TargetConfig.plainly) (resolveTarget c.cx c.plainly.deTarget
        c.build.overrideTargetRustflags c.plainly.build.deRustflags c.build.overrideTargetRustdocflags c.plainly.build.deRustdocflags t
        c.plainly.build) w s =
      Act.map (fun o : Option TargetConfig => o.map TargetConfig.plainly) (resolveTarget c.cx c.deTarget
        c.build.overrideTargetRustflags c.build.deRustflags c.build.overrideTargetRustdocflags c.build.deRustdocflags t c.build) w s := by
  unfold resolveTarget
  split
  · rfl
  · have he := applyEnv_alike c.cx.env t.triple (TargetAcc.start (c.deTarget.get t.triple))
    simp only [EConfig.plainly, BMap.get_mapVals, plainly_start, Act.map, bind, Act.bind, Act.lift]
    generalize (TargetAcc.start (c.deTarget.get t.triple)).plainly.applyEnv c.cx.env t.triple = u at he
    generalize (TargetAcc.start (c.deTarget.get t.triple)).applyEnv c.cx.env t.triple = v at he
    cases u with
    | ok a => cases v with
      | ok a' =>
        have hl := cfgTables_alike c.cx c.build t c.deTarget (a := a) (a' := a') (Res.ok.inj he) w s
        simp only [Act.map] at hl
        dsimp only
        generalize cfgTables c.cx c.build.plainly t (c.deTarget.mapVals TargetConfig.plainly) a w s = x at hl
        generalize cfgTables c.cx c.build t c.deTarget a' w s = y at hl
        obtain ⟨x, sx⟩ := x
        obtain ⟨y, sy⟩ := y
        cases x with
        | ok x => cases y with
          | ok y =>
            obtain ⟨h1, h2⟩ := Prod.mk.inj hl
            simp only [pure]
            rw [show c.build.plainly.deRustflags = c.build.deRustflags.map Flags.plainly from rfl,
              show c.build.plainly.deRustdocflags = c.build.deRustdocflags.map Flags.plainly from rfl,
              finish_alike (Res.ok.inj h1), h2]
          | err e => cases (Prod.mk.inj hl).1
          | panic => cases (Prod.mk.inj hl).1
        | err e => cases y with
          | ok y => cases (Prod.mk.inj hl).1
          | err e' => 
            dsimp only
            rw [Res.err.inj (Prod.mk.inj hl).1, (Prod.mk.inj hl).2]
          | panic => cases (Prod.mk.inj hl).1
        | panic => cases y with
          | ok y => cases (Prod.mk.inj hl).1
          | err e => cases (Prod.mk.inj hl).1
          | panic => 
            dsimp only
            rw [(Prod.mk.inj hl).2]
      | err e => cases he
      | panic => cases he
    | err e => cases v with
      | ok a => cases he
      | err e' => rw [Res.err.inj he]
      | panic => cases he
    | panic => cases v with
      | ok a => cases he
      | err e => cases he
      | panic => rfl

theorem initTarget_plainly (c : EConfig) (t : TargetTriple) : c.plainly.initTarget t = c.initTarget t := by
  funext w s
  have hr := resolve_alike c t w s
  unfold EConfig.initTarget
  simp only [bind, Act.bind, Act.cells]
  cases hs : s.target.get t.cliTarget with
  | some x => rfl
  | none =>
    have key : ∀ (x y : Act (Option TargetConfig)), Act.map (fun o : Option TargetConfig => o.map TargetConfig.plainly) x w s =
        Act.map (fun o : Option TargetConfig => o.map TargetConfig.plainly) y w s →
        ∀ g : ETarget → Act Unit,
        (Act.bind x fun tc => Act.bind (Act.lift (ETarget.fromUnresolved c.cx.currentDir (tc.getD {}))) g) w s =
        (Act.bind y fun tc => Act.bind (Act.lift (ETarget.fromUnresolved c.cx.currentDir (tc.getD {}))) g) w s := by
      intro x y h g
      simp only [Act.map] at h
      simp only [Act.bind, Act.lift]
      generalize x w s = x at h
      generalize y w s = y at h
      obtain ⟨x, sx⟩ := x
      obtain ⟨y, sy⟩ := y
      have hp : ∀ o : Option TargetConfig, ETarget.fromUnresolved c.cx.currentDir (o.getD {}) =
          ETarget.fromUnresolved c.cx.currentDir ((o.map TargetConfig.plainly).getD {}) := by
        intro o
        cases o with
        | none => rfl
        | some o => exact (resolved_plainly _ o).symm
      have h2 : sx = sy := by cases x <;> cases y <;> exact (Prod.mk.inj h).2
      subst h2
      cases x with
      | ok a => cases y with
        | ok b =>
          have h1 : a.map TargetConfig.plainly = b.map TargetConfig.plainly := Res.ok.inj (Prod.mk.inj h).1
          dsimp only
          rw [hp a, hp b, h1]
        | err e => cases (Prod.mk.inj h).1
        | panic => cases (Prod.mk.inj h).1
      | err e => cases y with
        | ok b => cases (Prod.mk.inj h).1
        | err e' => rw [Res.err.inj (Prod.mk.inj h).1]
        | panic => cases (Prod.mk.inj h).1
      | panic => cases y with
        | ok b => cases (Prod.mk.inj h).1
        | err e => cases (Prod.mk.inj h).1
        | panic => rfl
    exact key _ _ hr _

/-- No query depends on how the lists are spelled. -/
theorem ask_plainly (c : EConfig) (q : Query) : c.plainly.ask q = c.ask q := by
  have key : ∀ t, c.plainly.targetEntry t = c.targetEntry t := fun t => by
    unfold EConfig.targetEntry
    rw [initTarget_plainly]
  cases q <;> first
    | rfl
    | simp only [EConfig.ask, EConfig.target, EConfig.linker, EConfig.runner, EConfig.rustflags, EConfig.rustdocflags, key]

end CC
