import Verif.Lemmas.TargetFirst
import Verif.Props.QueryCause
import Verif.Props.TargetOutcome
/-
C85: which variable of a target the error of a query is about.
-/
namespace CC

variable {p : ProcEnv} {fs : Fs} {toml : Str → Res Toml} {cwd : Path} {o : Options} {c : EConfig} {w : World} {s s0 : Cells}
  {look : Str → Option OsStr} {home : Option Path} {docs : List (Path × Toml)} {t : TargetTriple}

/-- The queries about a target. -/
def targetQueries (t : TargetTriple) : List Query := [.target t, .linker t, .runner t, .rustflags t, .rustdocflags t]

/-- An error of the query for a target is that of all queries about it. -/
theorem ask_err {q : Query} (hq : q ∈ targetQueries t) {e : Err} {s' : Cells} (h : c.target t w s = (.err e, s')) :
    c.ask q w s = (.err e, s') := by
  have h' : c.targetEntry t w s = (.err e, s') := h
  have hb : ∀ {α β : Type} (f : ETarget → α) (g : α → β), Act.map g (do return f (← c.targetEntry t)) w s = (.err e, s') := by
    intro α β f g
    unfold Act.map
    rw [Act.bind_def, h']
  simp only [targetQueries, List.mem_cons, List.not_mem_nil, or_false] at hq
  rcases hq with rfl | rfl | rfl | rfl | rfl
  · unfold EConfig.ask Act.map
    dsimp only
    rw [h]
  · exact hb _ _
  · exact hb _ _
  · exact hb _ _
  · exact hb _ _

/-- C85: a query about a target that is not known yet is about the first malformed variable of the target: whatever the files say and
whatever the tools would answer, without running any, and without a trace in the state. -/
theorem C85_first (h : Loads p fs toml cwd o look home docs c s0) (hk : isCfgKey t.triple = false)
    (hs : s.target.get t.cliTarget = none) {d : TargetDefect} (hd : firstTargetDefect look t.triple = some d) {q : Query}
    (hq : q ∈ targetQueries t) : ∃ e, c.ask q w s = (.err e, s) ∧ (∀ sh, e.display sh = d.message) ∧ e.source = d.cause := by
  have ha := applyEnv_first (loads_cx h).2 (TargetAcc.start (c.deTarget.get t.triple)) t.triple
  rw [hd] at ha
  refine ⟨d.err, ask_err hq ?_, d.err_display, d.err_source⟩
  rw [target_fresh hs]
  unfold resolveTarget
  rw [startsWith_cfg, hk, if_neg (by decide), Act.lift_bind]
  dsimp only at ha
  rw [ha]

/-- C85: a target whose name begins like a cfg expression is refused before that, for any configuration. -/
theorem C85_triple (hk : isCfgKey t.triple = true) (hs : s.target.get t.cliTarget = none) {q : Query} (hq : q ∈ targetQueries t) :
    ∃ e, c.ask q w s = (.err e, s) ∧ (∀ sh, e.display sh = '\'' :: (t.triple ++ "' is not valid target triple".toList)) ∧
      e.source = none := by
  refine ⟨.other "'{}' is not valid target triple".toList [t.triple], ask_err hq ?_, fun sh => ?_, rfl⟩
  · rw [target_fresh hs]
    unfold resolveTarget
    rw [startsWith_cfg, hk, if_pos rfl]
    rfl
  · rw [display_other, fill_triple]

theorem firstSome_none {α : Type} {l : List (Option α)} : firstSome l = none ↔ ∀ x ∈ l, x = none := by
  induction l with
  | nil => simp [firstSome]
  | cons x l ih => cases x <;> simp [firstSome, ih]

/-- C85: no variable is malformed exactly if they are usable (then `C70_first_error` tells the error). -/
theorem C85_none : firstTargetDefect look t.triple = none ↔ TargetVars look t.triple := by
  unfold firstTargetDefect
  rw [firstSome_none, List.forall_mem_map]
  constructor
  · intro h
    refine ⟨fun what hw bs hb => ?_, fun text ht hb => ?_⟩
    · have := h what hw
      unfold targetDefect at this
      rw [hb] at this
      cases this
    · have := h "RUNNER" (by simp)
      unfold targetDefect at this
      rw [ht] at this
      dsimp only at this
      rw [if_pos ⟨rfl, by rw [wordsIn_eq]; exact (split_nil_iff text).2 hb⟩] at this
      cases this
  · intro h what hw
    unfold targetDefect
    cases hv : look (targetEnvName t.triple what) with
    | none => rfl
    | some v =>
      cases v with
      | invalid bs => exact absurd hv (h.1 what hw bs)
      | unicode text =>
        dsimp only
        refine if_neg fun hb => ?_
        obtain ⟨rfl, hb⟩ := hb
        exact h.2 text hv (wordsIn_nil hb)

/-! ### samples -/

section sample

/-- The linker is in order, the runner is blank and the flags are not text: the runner decides, though the compiler would fail and the
file has a malformed key. -/
example : targetErr [(.unicode "CARGO_TARGET_X_Y_RUSTFLAGS".toList, .invalid [254]), (.unicode "CARGO_TARGET_X_Y_LINKER".toList, .unicode "ld".toList),
      (.unicode "CARGO_TARGET_X_Y_RUNNER".toList, .unicode " ".toList)] "cfg(any(unix)" failingWorld =
    some "invalid length 0, expected at least one element".toList := by decide +kernel

/-- With a linker that is not text, the linker decides. -/
example : targetErr [(.unicode "CARGO_TARGET_X_Y_RUSTFLAGS".toList, .invalid [254]), (.unicode "CARGO_TARGET_X_Y_LINKER".toList, .invalid [255]),
      (.unicode "CARGO_TARGET_X_Y_RUNNER".toList, .unicode " ".toList)] "cfg(any(unix)" failingWorld =
    some "failed to parse environment variable `CARGO_TARGET_X_Y_LINKER`".toList := by decide +kernel

/-- Two sets of variables, as the specification sees them. -/
example : firstTargetDefect (Env.get [("CARGO_TARGET_X_Y_RUSTDOCFLAGS".toList, .invalid [253]),
      ("CARGO_TARGET_X_Y_RUSTFLAGS".toList, .invalid [254]), ("CARGO_TARGET_X_Y_RUNNER".toList, .unicode "qemu".toList)]) "x-y".toList =
    some (.notText "CARGO_TARGET_X_Y_RUSTFLAGS".toList [254]) := by decide +kernel
example : firstTargetDefect (Env.get [("CARGO_TARGET_X_Y_RUSTFLAGS".toList, .unicode " ".toList),
      ("CARGO_TARGET_X_Y_RUNNER".toList, .unicode "qemu".toList)]) "x-y".toList = none := by decide +kernel

/-- The variables of a sample: the runner is blank and the flags are not text. -/
def badTargetVars : Env :=
  [("CARGO_TARGET_X_Y_RUSTFLAGS".toList, .invalid [254]), ("CARGO_TARGET_X_Y_RUNNER".toList, .unicode " ".toList)]

/-- What `C85_first` says of them. -/
example (w : World) (s : Cells) (hs : s.target.get sampleTriple.cliTarget = none) :
    ∃ c s0 e, EConfig.loadWithOptions {} emptyFs (fun _ => .panic) "/w".toList { env := some badTargetVars } = .ok (c, s0) ∧
      c.ask (.runner sampleTriple) w s = (.err e, s) ∧
      (∀ sh, e.display sh = "invalid length 0, expected at least one element".toList) ∧ e.source = none := by
  have hok : (EConfig.loadWithOptions {} emptyFs (fun _ => .panic) "/w".toList { env := some badTargetVars }).isOk = true := by
    decide +kernel
  generalize hr : EConfig.loadWithOptions {} emptyFs (fun _ => .panic) "/w".toList { env := some badTargetVars } = r at hok
  cases r with
  | err e => cases hok
  | panic => cases hok
  | ok x =>
    obtain ⟨c, s0⟩ := x
    have hm : ∀ e, ({ env := some badTargetVars } : Options).env = some e → DistinctKeys e := by
      intro e h; cases h; unfold DistinctKeys; decide
    obtain ⟨look, home, docs, h, _⟩ := C57_determined (toml := fun _ => .panic) (fun _ _ h => (by cases h)) hm hr
    have hl : Env.get badTargetVars = look := h.env.symm
    have hd : firstTargetDefect look sampleTriple.triple = some .blankRunner := by rw [← hl]; decide +kernel
    obtain ⟨e, h1, h2, h3⟩ := C85_first (w := w) (q := .runner sampleTriple) h (by decide) hs hd (by simp [targetQueries])
    exact ⟨c, s0, e, rfl, h1, h2, h3⟩

example : (plainConfig.ask (.linker { sampleTriple with triple := "cfg(unix)".toList }) failingWorld {}).1.isErr = true := by decide +kernel

end sample

end CC
