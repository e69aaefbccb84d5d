import Verif.Props.Small
import Verif.Props.TargetQuery
import Verif.Lemmas.EnvLoad
/-
C32 in terms of queries: which variables a query for a target looks at.
-/
namespace CC

variable {w : World} {s s' : Cells} {c c' : EConfig} {t : TargetTriple} {u : Str}

/-- The variable `CARGO_TARGET_<u>_<key>`. -/
def varOf (u : Str) (key : String) : Str := "CARGO_TARGET_".toList ++ u ++ "_".toList ++ key.toList

theorem envNameOf_unique {t u : Str} (h : EnvNameOf t u) : u = t.map envChar := by
  unfold EnvNameOf at h
  induction h with
  | nil => rfl
  | @cons a b as bs hc _ ih =>
    rw [List.map_cons, ← ih]
    congr 1
    unfold envChar
    rcases hc with ⟨hd, hu⟩ | ⟨h1, h2, h3⟩ | ⟨h1, h2, h3, hu⟩
    · rw [if_pos hd, hu]
    · have hn : ¬ (a = '-' ∨ a = '.') := by
        rintro (rfl | rfl) <;> revert h1 <;> decide
      rw [if_neg hn, if_pos ⟨h1, h2⟩]
      apply char_eq_of_toNat
      have hv : (a.toNat - 32).isValidChar := by left; omega
      rw [Char.ofNat, dif_pos hv]
      show _ = a.toNat - 32
      omega
    · rw [if_neg (fun h => h.elim h1 h2), if_neg h3, hu]

theorem varOf_eq (hu : EnvNameOf t.triple u) (key : String) : varOf u key = targetEnvName t.triple key := by
  unfold varOf targetEnvName
  rw [envNameOf_unique hu]
  rfl

/-- C32: the linker variable of the triple is honoured. -/
theorem C32_linker (hu : EnvNameOf t.triple u) {e : ETarget} (hs : s.target.get t.cliTarget = none)
    (h : c.target t w s = (.ok e, s')) (text : Str) (he : c.cx.env.get (varOf u "LINKER") = some (.unicode text)) :
    ∃ x, e.linker = some x ∧ ProgramPath c.cx.currentDir ⟨text, some (.environment (varOf u "LINKER"))⟩ x := by
  obtain ⟨holds, -, hr⟩ := C27_linker hs h
  rw [varOf_eq hu] at he ⊢
  unfold theLinker envText at hr
  rw [he] at hr
  simp only [Option.map_some, firstSome] at hr
  cases hx : e.linker with
  | none => rw [hx] at hr; cases hr
  | some x =>
    rw [hx] at hr
    cases hr with
    | some hr => exact ⟨x, rfl, hr⟩

/-- C32: the runner variable of the triple is honoured. -/
theorem C32_runner (hu : EnvNameOf t.triple u) {e : ETarget} (hs : s.target.get t.cliTarget = none)
    (h : c.target t w s = (.ok e, s')) (text : Str) (he : c.cx.env.get (varOf u "RUNNER") = some (.unicode text)) :
    ∃ p args y, wordsIn text = p :: args ∧ e.runner = some y ∧ y.args = args ∧
      ProgramPath c.cx.currentDir ⟨p, some (.environment (varOf u "RUNNER"))⟩ y.path := by
  obtain ⟨holds, -, hr⟩ := C28_runner hs h
  rw [varOf_eq hu] at he ⊢
  unfold theRunner envText at hr
  rw [he] at hr
  simp only [Option.map_some, firstSome] at hr
  cases hx : e.runner with
  | none => rw [hx] at hr; cases hr
  | some x =>
    rw [hx] at hr
    cases hr with
    | some hr =>
      obtain ⟨p, args, e1, e2, e3⟩ := hr
      cases hw : wordsIn text with
      | nil => rw [hw] at e1; cases e1
      | cons a l =>
        rw [hw, List.map_cons] at e1
        obtain ⟨e4, e5⟩ := List.cons.inj e1
        subst e4 e5
        refine ⟨a, l, x, rfl, rfl, ?_, e2⟩
        rw [e3, List.map_map]
        exact (List.map_congr_left fun _ _ => rfl).trans (List.map_id l)

theorem mem_joined {α : Type} {l : List (Option (List α))} {x : List α} (h : some x ∈ l) : ∃ y, joined l = some y ∧ x <:+: y := by
  unfold joined
  rw [if_neg]
  · refine ⟨_, rfl, ?_⟩
    induction l with
    | nil => cases h
    | cons a l ih =>
      rw [List.flatMap_cons]
      rcases List.mem_cons.1 h with rfl | h
      · exact ⟨[], l.flatMap fun x => x.getD [], by simp⟩
      · obtain ⟨p, q, e⟩ := ih h
        exact ⟨a.getD [] ++ p, q, by rw [← e]; simp⟩
  · intro ha
    exact absurd (List.all_eq_true.1 ha _ h) (by simp)

/-- C32: the variables of the triple for flags are honoured, unless the flags are overridden by `CARGO_ENCODED_RUSTFLAGS` and the like. -/
theorem C32_flags {de : Config} {cx : Ctx} (hd : DistinctKeys cx.env) (hl : EConfig.fromUnresolved de cx = .ok c)
    (hu : EnvNameOf t.triple u) {e : ETarget} (hs : s.target.get t.cliTarget = none) (h : c.target t w s = (.ok e, s')) (text : Str) :
    (cx.env.get "CARGO_ENCODED_RUSTFLAGS".toList = none → cx.env.get "RUSTFLAGS".toList = none →
      cx.env.get (varOf u "RUSTFLAGS") = some (.unicode text) → ∃ f, e.rustflags = some f ∧ wordsIn text <:+: f.flags) ∧
    (cx.env.get "CARGO_ENCODED_RUSTDOCFLAGS".toList = none → cx.env.get "RUSTDOCFLAGS".toList = none →
      cx.env.get (varOf u "RUSTDOCFLAGS") = some (.unicode text) → ∃ f, e.rustdocflags = some f ∧ wordsIn text <:+: f.flags) := by
  rw [varOf_eq hu, varOf_eq hu]
  constructor
  · intro h1 h2 he
    obtain ⟨holds, -, hr⟩ := C29_rustflags hd hl hs h
    rw [if_neg (by rw [h1, h2]; simp)] at hr
    obtain ⟨y, hy, hi⟩ := mem_joined (l := rustflagsSources cx.env de.target holds t.triple) (x := wordsIn text) (by
      unfold rustflagsSources envText
      rw [he]
      simp)
    rw [hy] at hr
    obtain ⟨f, hf, e⟩ := Option.map_eq_some_iff.1 hr
    exact ⟨f, hf, by rw [e]; exact hi⟩
  · intro h1 h2 he
    have hr := C30_rustdocflags hd hl hs h
    rw [if_neg (by rw [h1, h2]; simp)] at hr
    obtain ⟨y, hy, hi⟩ := mem_joined (l := rustdocflagsSources cx.env de.target t.triple) (x := wordsIn text) (by
      unfold rustdocflagsSources envText
      rw [he]
      simp)
    rw [hy] at hr
    obtain ⟨f, hf, e⟩ := Option.map_eq_some_iff.1 hr
    exact ⟨f, hf, by rw [e]; exact hi⟩

/-- C32: a query for a target looks at no other variables: configs that are equal but for the environment, where these four variables
are the same, answer alike, in every world and state. -/
theorem C32_only (hu : EnvNameOf t.triple u)
    (hf : { c with cx := { c.cx with env := [] } } = { c' with cx := { c'.cx with env := [] } })
    (he : ∀ key ∈ ["LINKER", "RUNNER", "RUSTFLAGS", "RUSTDOCFLAGS"], c.cx.env.get (varOf u key) = c'.cx.env.get (varOf u key)) :
    c.target t w s = c'.target t w s := by
  obtain ⟨h1, h2, h3, h4, h5, h6, h7, h8, h9, h10, h11, h12, h13⟩ := EConfig.mk.inj hf
  dsimp only at h2 h11 h13
  have hcwd : c.cx.currentDir = c'.cx.currentDir := (Ctx.mk.inj h13).2.2
  have v : ∀ key ∈ ["LINKER", "RUNNER", "RUSTFLAGS", "RUSTDOCFLAGS"],
      c.cx.env.var (targetVar t.triple key.toList) = c'.cx.env.var (targetVar t.triple key.toList) := by
    intro key hk
    rw [targetVar_eq, ← varOf_eq hu]
    exact var_congr (he key hk)
  have ha : ∀ a : TargetAcc, a.applyEnv c.cx.env t.triple = a.applyEnv c'.cx.env t.triple := by
    intro a
    unfold TargetAcc.applyEnv
    rw [v "LINKER" (by simp), v "RUNNER" (by simp), v "RUSTFLAGS" (by simp), v "RUSTDOCFLAGS" (by simp)]
  have ht : ∀ b ts a, cfgTables c.cx b t ts a = cfgTables c'.cx b t ts a := by
    intro b ts a
    rw [← cfgTables_env c.cx [] b, ← cfgTables_env c'.cx [] b, h13]
  have hi : c.initTarget t = c'.initTarget t := by
    unfold EConfig.initTarget resolveTarget
    rw [h2, h11, hcwd]
    simp only [ha, ht]
  unfold EConfig.target EConfig.targetEntry
  rw [hi]

/-! ### the single queries -/

theorem view_ok {α : Type} {f : ETarget → α} {x : α} (h : (do return f (← c.targetEntry t) : Act α) w s = (.ok x, s')) :
    ∃ e, c.target t w s = (.ok e, s') ∧ x = f e := by
  have h' := h
  rw [Act.bind_def] at h'
  unfold EConfig.target
  cases he : c.targetEntry t w s with
  | mk r s1 =>
    rw [he] at h'
    cases r with
    | ok e =>
      cases h'
      exact ⟨e, rfl, rfl⟩
    | err e => cases h'
    | panic => cases h'

/-- C27 for the query `linker`. -/
theorem C27_query {x : Option Path} (hs : s.target.get t.cliTarget = none) (h : c.linker t w s = (.ok x, s')) :
    ∃ holds, Evaluated w.checks c.deTarget (s'.cfg.get t.cliTarget) holds ∧
      OptionRel (ProgramPath c.cx.currentDir) (theLinker c.cx.env c.deTarget holds t.triple) x := by
  obtain ⟨e, he, rfl⟩ := view_ok h
  exact C27_linker hs he

/-- C28 for the query `runner`. -/
theorem C28_query {x : Option EPathAndArgs} (hs : s.target.get t.cliTarget = none) (h : c.runner t w s = (.ok x, s')) :
    ∃ holds, Evaluated w.checks c.deTarget (s'.cfg.get t.cliTarget) holds ∧
      OptionRel (fun ws y => ∃ p args, ws = p :: args ∧ ProgramPath c.cx.currentDir p y.path ∧ y.args = args.map Val.val)
        (theRunner c.cx.env c.deTarget holds t.triple) x := by
  obtain ⟨e, he, rfl⟩ := view_ok h
  exact C28_runner hs he

/-- C29 for the query `rustflags`. -/
theorem C29_query {de : Config} {cx : Ctx} (hd : DistinctKeys cx.env) (hl : EConfig.fromUnresolved de cx = .ok c)
    {x : Option EFlags} (hs : s.target.get t.cliTarget = none) (h : c.rustflags t w s = (.ok x, s')) :
    ∃ holds, Evaluated w.checks de.target (s'.cfg.get t.cliTarget) holds ∧
      x.map (·.flags) =
        if cx.env.get "CARGO_ENCODED_RUSTFLAGS".toList ≠ none ∨ cx.env.get "RUSTFLAGS".toList ≠ none then buildRustflags cx.env de
        else (joined (rustflagsSources cx.env de.target holds t.triple)).or (buildRustflags cx.env de) := by
  obtain ⟨e, he, rfl⟩ := view_ok h
  exact C29_rustflags hd hl hs he

/-- C30 for the query `rustdocflags`. -/
theorem C30_query {de : Config} {cx : Ctx} (hd : DistinctKeys cx.env) (hl : EConfig.fromUnresolved de cx = .ok c)
    {x : Option EFlags} (hs : s.target.get t.cliTarget = none) (h : c.rustdocflags t w s = (.ok x, s')) :
    x.map (·.flags) =
      if cx.env.get "CARGO_ENCODED_RUSTDOCFLAGS".toList ≠ none ∨ cx.env.get "RUSTDOCFLAGS".toList ≠ none then
        buildRustdocflags cx.env de
      else (joined (rustdocflagsSources cx.env de.target t.triple)).or (buildRustdocflags cx.env de) := by
  obtain ⟨e, he, rfl⟩ := view_ok h
  exact C30_rustdocflags hd hl hs he

example : (sampleEasy.rustdocflags sampleTriple sampleWorld {}).1.toOption = some (some ⟨["-Cd".toList]⟩) ∧
    (sampleEasy.linker sampleTriple sampleWorld {}).1.toOption = some (some "/w/bin/ld".toList) := by decide +kernel

/-- The sample of C27: the name of `x-y` in variables. -/
example : EnvNameOf sampleTriple.triple "X_Y".toList ∧ ¬ EnvNameOf sampleTriple.triple "x_y".toList := by
  constructor
  · have : "X_Y".toList = targetUUpper sampleTriple.triple := by decide
    rw [this]
    exact C32_env_name _
  · intro h
    exact absurd (envNameOf_unique h) (by decide)
example : sampleEasy.cx.env.get (varOf "X_Y".toList "RUSTFLAGS") = some (.unicode "-Ce -Cf".toList) := by decide +kernel
/-- Variables of other triples make no difference. -/
example : ∀ key ∈ ["LINKER", "RUNNER", "RUSTFLAGS", "RUSTDOCFLAGS"],
    Env.get sampleTargetEnv (varOf "X_Y".toList key) =
      Env.get (("CARGO_TARGET_XY_LINKER".toList, .unicode "ld".toList) :: sampleTargetEnv) (varOf "X_Y".toList key) := by
  decide +kernel

end CC
