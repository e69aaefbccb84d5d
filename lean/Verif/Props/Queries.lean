import Verif.Lemmas.History
import Verif.Props.TargetQuery
import Verif.Props.Target
/-
Sequences of target queries: C31, C33, C34.
-/
namespace CC

variable {w : World} {s s' : Cells} {c : EConfig} {t : TargetTriple}

/-! ### C31 -/

theorem target_bad (hs : s.target.get t.cliTarget = none) (hb : BadTarget w.checks c.deTarget t) (e : ETarget) :
    (c.target t w s).1 ≠ .ok e := by
  intro h
  have h' : c.target t w s = (.ok e, (c.target t w s).2) := by rw [← h]
  obtain ⟨h1, a, holds, -, h3, -⟩ := target_ok hs h'
  rcases hb with hb | ⟨k, v, hm, hk, hp⟩
  · rw [h1] at hb; cases hb
  · obtain ⟨cs, -, x, hx, -⟩ := h3 k v hm hk
    exact hp x hx

/-- The entries of resolved targets after a sequence of queries. -/
theorem targets_good {tables : BMap TargetConfig} (qs : List (EConfig × Query))
    (hq : ∀ cq ∈ qs, cq.1.deTarget = tables ∧ cq.2.Proper) (s : Cells)
    (hs : ∀ k e, s.target.get k = some e → ∃ t, Constructed t ∧ t.cliTarget = k ∧ ¬ BadTarget w.checks tables t) :
    ∀ k e, (afterQueries w qs s).target.get k = some e →
      ∃ t, Constructed t ∧ t.cliTarget = k ∧ ¬ BadTarget w.checks tables t := by
  induction qs generalizing s with
  | nil => exact hs
  | cons cq qs ih =>
    obtain ⟨c, q⟩ := cq
    refine ih (fun x hx => hq x (List.mem_cons_of_mem _ hx)) _ ?_
    obtain ⟨hc, hp⟩ := hq (c, q) List.mem_cons_self
    intro k e hk
    cases ht : q.targetOf with
    | none => rw [(ask_other_tables ht w s).2] at hk; exact hs k e hk
    | some t =>
      rw [ask_target ht, map_snd] at hk
      obtain ⟨s1, h1, h2⟩ := target_cells c t w s
      have hst : s1.target = s.target := by
        rcases h1 with rfl | ⟨-, -, rfl⟩
        · rfl
        · exact (cfgOf_target w s).1
      rcases h2 with ⟨h2, -⟩ | ⟨e', h3, h4, h2⟩
      · rw [h2, hst] at hk; exact hs k e hk
      · rw [h2] at hk
        dsimp only at hk
        rw [BMap.get_insert, hst] at hk
        split at hk
        · rename_i hkk
          refine ⟨t, hp t ht, hkk, fun hb => ?_⟩
          rw [← hc] at hb
          exact target_bad h3 hb e' h4
        · exact hs k e hk

/-- C31: a query for a target that looks like a cfg expression, or for any target if a table has a malformed key, fails, whatever was
asked before. -/
theorem C31_fails (qs : List (EConfig × Query)) (hq : ∀ cq ∈ qs, cq.1.deTarget = c.deTarget ∧ cq.2.Proper) (hs : s.target = [])
    {q : Query} (ht : q.targetOf = some t) (hc : Constructed t) (hb : BadTarget w.checks c.deTarget t) (a : Answer) :
    (c.ask q w (afterQueries w qs s)).1 ≠ .ok a := by
  have hg := targets_good (w := w) qs hq s (fun k e h => by rw [hs] at h; cases h)
  have hn : (afterQueries w qs s).target.get t.cliTarget = none := by
    cases h : (afterQueries w qs s).target.get t.cliTarget with
    | none => rfl
    | some e =>
      obtain ⟨t', h1, h2, h3⟩ := hg _ _ h
      have := C17_equal_same t' t h1 hc ((C17_eq_iff t' t).2 h2)
      subst this
      exact absurd hb h3
  rw [ask_target ht, map_fst]
  intro h
  rw [Res.bind_eq_ok] at h
  obtain ⟨e, he, -⟩ := h
  exact target_bad hn hb e he

/-- C31: the failure is an error and not a panic, unless the parser itself panics on a key (C37). -/
theorem C31_error (qs : List (EConfig × Query)) (hq : ∀ cq ∈ qs, cq.1.deTarget = c.deTarget ∧ cq.2.Proper) (hs : s.target = [])
    {q : Query} (ht : q.targetOf = some t) (hc : Constructed t) (hb : BadTarget w.checks c.deTarget t)
    (hp : ∀ k v, (k, v) ∈ c.deTarget → isCfgKey k = true → Expression.parse w.checks k ≠ .panic) :
    (c.ask q w (afterQueries w qs s)).1.isErr = true := by
  have h := C31_fails (w := w) qs hq hs ht hc hb
  have h2 : (c.target t w (afterQueries w qs s)).1 ≠ .panic := by
    cases hn : (afterQueries w qs s).target.get t.cliTarget with
    | some e => rw [target_cached hn]; intro h; cases h
    | none =>
      have hr := resolveTarget_ne_panic (s := afterQueries w qs s) (w := w) (t := t) (cx := c.cx) (targets := c.deTarget)
        (o1 := c.build.overrideTargetRustflags)
        (b1 := c.build.deRustflags) (o2 := c.build.overrideTargetRustdocflags) (b2 := c.build.deRustdocflags) (b := c.build) hp
      have hb := resolveTarget_bad (s := afterQueries w qs s) (w := w) (cx := c.cx) (o1 := c.build.overrideTargetRustflags)
        (b1 := c.build.deRustflags) (o2 := c.build.overrideTargetRustdocflags) (b2 := c.build.deRustdocflags) (b := c.build) hb
      rw [target_fresh hn]
      generalize resolveTarget c.cx c.deTarget c.build.overrideTargetRustflags c.build.deRustflags
        c.build.overrideTargetRustdocflags c.build.deRustdocflags t c.build w (afterQueries w qs s) = x at hr hb
      obtain ⟨r, s1⟩ := x
      cases r with
      | ok r => exact absurd rfl (hb r)
      | err e => intro h; cases h
      | panic => exact absurd rfl hr
  rw [ask_target ht, map_fst] at h ⊢
  generalize (c.target t w (afterQueries w qs s)).1 = r at h h2
  cases r with
  | ok e => exact absurd rfl (h _)
  | err e => rfl
  | panic => exact absurd rfl h2

/-! ### C33 -/

/-- C33: if the outside world does not change, a target query returns what it returns right after loading, whatever was asked before. -/
theorem C33_history {s0 : Cells} (hw : Steady w) (h0 : Fresh s0) (qs : List Query) (hq : ∀ q ∈ qs, q.Proper) {q : Query}
    (ht : q.targetOf = some t) (hc : Constructed t) : (c.ask q w (afterAll c w qs s0)).1 = (c.ask q w s0).1 := by
  rw [ask_target ht, map_fst, map_fst, (Consistent.after hw h0 qs hq s0 (.start h0)).answer hw h0 hc]

/-- C33: the cells right after loading are fresh. -/
theorem C33_loaded {p : ProcEnv} {fs : Fs} {parse : Str → Res Config} {cwd : Path} {o : Options} {s0 : Cells}
    (h : EConfig.loadWithOptions p fs parse cwd o = .ok (c, s0)) : Fresh s0 := by
  unfold EConfig.loadWithOptions at h
  dsimp only at h
  simp only [Res.bind_eq_ok] at h
  obtain ⟨de, -, c', -, h⟩ := h
  have h2 := (Prod.mk.inj (Res.ok.inj h)).2
  rw [← h2]
  unfold Cells.cargoHomeOf Options.intoContext
  dsimp only
  split <;> exact ⟨rfl, rfl⟩

/-- C33: what a query returned for a target it returns again, even if the outside world and the config changed. -/
theorem C33_stable {e : ETarget} (h : (c.target t w s).1 = .ok e) (qs : List (EConfig × Query)) (c' : EConfig) (w' : World) :
    c'.target t w' (afterQueries w qs (c.target t w s).2) = (.ok e, afterQueries w qs (c.target t w s).2) := by
  refine target_cached ((grows_after w qs _).target _ _ ?_)
  obtain ⟨s1, h1, h2⟩ := target_cells c t w s
  rcases h2 with ⟨h2, h3⟩ | ⟨e', h3, h4, h2⟩
  · rw [h2]
    rcases h1 with rfl | ⟨-, -, rfl⟩
    · exact h3 e h
    · rw [(cfgOf_target w s).1]; exact h3 e h
  · rw [h2]
    dsimp only
    rw [BMap.get_insert, if_pos rfl]
    rw [h4] at h
    rw [Res.ok.inj h]

/-- C33: the five queries agree with each other. -/
theorem C33_views (c : EConfig) (t : TargetTriple) (w : World) (s : Cells) :
    (c.linker t w s).1 = ((c.target t w s).1 >>= fun e => .ok e.linker) ∧
    (c.runner t w s).1 = ((c.target t w s).1 >>= fun e => .ok e.runner) ∧
    (c.rustflags t w s).1 = ((c.target t w s).1 >>= fun e => .ok e.rustflags) ∧
    (c.rustdocflags t w s).1 = ((c.target t w s).1 >>= fun e => .ok e.rustdocflags) := by
  unfold EConfig.linker EConfig.runner EConfig.rustflags EConfig.rustdocflags EConfig.target
  simp only [Act.bind_def]
  generalize c.targetEntry t w s = x
  obtain ⟨r, s1⟩ := x
  cases r <;> exact ⟨rfl, rfl, rfl, rfl⟩

/-! ### C34 -/

/-- C34: without cfg tables, a target query runs no process and does not look at the file system. -/
theorem C34_none (hn : ∀ k v, (k, v) ∈ c.deTarget → isCfgKey k = false) {q : Query} (ht : q.targetOf = some t) :
    (c.ask q w s).2.trace = s.trace ∧ (c.ask q w s).2.clock = s.clock := by
  rw [ask_target ht, map_snd]
  obtain ⟨s1, h1, h2⟩ := target_cells c t w s
  have h3 : s1 = s := by
    rcases h1 with h1 | ⟨h1, -⟩
    · exact h1
    · exfalso
      obtain ⟨k, hk⟩ := Option.isSome_iff_exists.1 h1
      unfold firstCfgKey at hk
      rw [Option.map_eq_some_iff] at hk
      obtain ⟨⟨k', v⟩, h4, -⟩ := hk
      have h5 := List.find?_some h4
      rw [hn k' v (List.mem_of_find?_eq_some h4)] at h5
      cases h5
  subst h3
  rcases h2 with ⟨h2, -⟩ | ⟨e, -, -, h2⟩
  · rw [h2]; exact ⟨rfl, rfl⟩
  · rw [h2]; exact ⟨rfl, rfl⟩

/-- C34: a target query runs at most one process, namely the compiler (as returned by `rustc`) with the arguments
`--print cfg --target` and the target; if the process succeeds, it is never run again for this target. -/
theorem C34_command {q : Query} (ht : q.targetOf = some t) : (c.ask q w s).2.trace = s.trace ∨
    ∃ r cmd n, (c.ask q w s).2.trace = s.trace ++ [cmd] ∧ (c.rustc w s).1 = .ok r ∧ cmd.program = r.path ∧
      cmd.args = r.args ++ ["--print".toList, "cfg".toList, "--target".toList, t.cliTarget] ∧
      ((∃ out, w.run n cmd = .succeeded (.unicode out)) → ∀ qs, ∃ l,
        (afterQueries w qs (c.ask q w s).2).trace = (c.ask q w s).2.trace ++ l ∧ ∀ x ∈ l, ¬ AsksCfg t.cliTarget x) := by
  have key : ∀ k s, Known k s → ∀ qs, ∃ l, (afterQueries w qs s).trace = s.trace ++ l ∧ ∀ x ∈ l, ¬ AsksCfg k x :=
    fun k s hk qs => after_known hk w qs
  rw [ask_target ht, map_snd]
  obtain ⟨s1, h1, h2⟩ := target_cells c t w s
  have hk : Known t.cliTarget s1 → Known t.cliTarget (c.target t w s).2 := by
    intro hk
    rcases h2 with ⟨h2, -⟩ | ⟨e, -, -, h2⟩
    · rw [h2]; exact hk
    · rw [h2]; right; dsimp only; rw [BMap.get_insert, if_pos rfl]; rfl
  have htr : (c.target t w s).2.trace = s1.trace := by
    rcases h2 with ⟨h2, -⟩ | ⟨e, -, -, h2⟩ <;> rw [h2]
  rcases h1 with rfl | ⟨-, hn, rfl⟩
  · exact Or.inl htr
  · cases hc : s.cfg.get t.cliTarget with
    | some x => left; rw [htr, cfgOf_cached hc]
    | none =>
      right
      obtain ⟨r, n, h4, h5⟩ := cfgOf_fresh (cx := c.cx) (b := c.build) (w := w) hc
      refine ⟨r, cfgCmd r t.cliTarget, n, by rw [htr, h5], ?_, rfl, rfl, fun ho => key _ _ (hk ?_)⟩
      · show (queryRustc c.cx c.build w s).1 = .ok r
        rw [h4]
      · left
        obtain ⟨out, ho⟩ := ho
        rw [h5]
        have : ∃ cs, cfgAnswer (cfgCmd r t.cliTarget) (w.run n (cfgCmd r t.cliTarget)) = .ok cs := by
          rw [ho]
          unfold cfgAnswer
          rw [procRead_unicode, Res.ok_bind]
          obtain ⟨cs, hcs⟩ := C42_no_panic (popLineEnds out.reverse).reverse
          exact ⟨cs, by rw [hcs]; rfl⟩
        obtain ⟨cs, hcs⟩ := this
        rw [hcs]
        dsimp only
        rw [BMap.get_insert, if_pos rfl]
        rfl

/-- C34: after a target query succeeded, the compiler is never asked again for the cfg set of this target. -/
theorem C34_once {q : Query} (ht : q.targetOf = some t) {a : Answer} (h : (c.ask q w s).1 = .ok a) (qs : List (EConfig × Query)) :
    ∃ l, (afterQueries w qs (c.ask q w s).2).trace = (c.ask q w s).2.trace ++ l ∧ ∀ x ∈ l, ¬ AsksCfg t.cliTarget x := by
  refine after_known (Or.inr ?_) w qs
  rw [ask_target ht, map_fst, Res.bind_eq_ok] at h
  obtain ⟨e, he, -⟩ := h
  rw [ask_target ht, map_snd]
  have := C33_stable he [] c w
  rw [show afterQueries w [] (c.target t w s).2 = (c.target t w s).2 from rfl] at this
  cases hg : (c.target t w s).2.target.get t.cliTarget with
  | some x => rfl
  | none =>
    exfalso
    obtain ⟨s1, -, h2⟩ := target_cells c t w (c.target t w s).2
    rcases h2 with ⟨h2, h3⟩ | ⟨e', h3, h4, h2⟩
    · rw [h3 e (by rw [this])] at hg; cases hg
    · rw [this] at h2
      dsimp only at h2
      rw [h2] at hg
      dsimp only at hg
      rw [BMap.get_insert, if_pos rfl] at hg
      cases hg

/-! ### Samples -/

example : Steady sampleWorld := fun _ _ => ⟨rfl, rfl⟩
example : Fresh {} := ⟨rfl, rfl⟩
example : Constructed sampleTriple := ⟨"x-y".toList, none, none, by rfl⟩
example : (Query.rustflags sampleTriple).Proper ∧ Query.hostTriple.Proper :=
  ⟨fun t ht => by cases ht; exact ⟨"x-y".toList, none, none, by rfl⟩, fun t ht => by cases ht⟩
/-- A malformed key makes all queries fail. -/
example : BadTarget true [("cfg(unix".toList, {})] sampleTriple :=
  Or.inr ⟨_, _, List.mem_cons_self, by decide +kernel, fun e h => by
    have : (Expression.parse true "cfg(unix".toList).isErr = true := by decide +kernel
    rw [h] at this; cases this⟩
/-- Two queries, one process. -/
example : (afterAll sampleEasy sampleWorld [.linker sampleTriple, .rustflags sampleTriple] {}).trace =
    [⟨"rustc".toList, ["--print".toList, "cfg".toList, "--target".toList, "x-y".toList]⟩] := by decide +kernel

/-- The statements about the samples. -/
example (qs : List Query) (hq : ∀ q ∈ qs, q.Proper) :
    (sampleEasy.ask (.linker sampleTriple) sampleWorld (afterAll sampleEasy sampleWorld qs {})).1 =
      (sampleEasy.ask (.linker sampleTriple) sampleWorld {}).1 :=
  C33_history (fun _ _ => ⟨rfl, rfl⟩) ⟨rfl, rfl⟩ qs hq rfl ⟨"x-y".toList, none, none, by rfl⟩

theorem sample_badTarget : BadTarget true [("cfg(unix".toList, {})] sampleTriple :=
  Or.inr ⟨_, _, List.mem_cons_self, by decide +kernel, fun e h => by
    have : (Expression.parse true "cfg(unix".toList).isErr = true := by decide +kernel
    rw [h] at this; cases this⟩

example (a : Answer) : (EConfig.ask { sampleEasy with deTarget := [("cfg(unix".toList, {})] } (.linker sampleTriple)
    { sampleWorld with checks := true } {}).1 ≠ .ok a :=
  C31_fails (c := { sampleEasy with deTarget := [("cfg(unix".toList, {})] }) [] (by simp) rfl rfl ⟨"x-y".toList, none, none, by rfl⟩
    sample_badTarget a

example : (EConfig.ask { sampleEasy with deTarget := [("cfg(unix".toList, {})] } (.linker sampleTriple)
    { sampleWorld with checks := true } (afterQueries { sampleWorld with checks := true } [] {})).1.isErr = true := by
  refine C31_error (c := { sampleEasy with deTarget := [("cfg(unix".toList, {})] }) (w := { sampleWorld with checks := true }) [] (by simp) rfl
    rfl ⟨"x-y".toList, none, none, by rfl⟩ sample_badTarget fun k v h _ => ?_
  cases List.mem_singleton.1 h
  exact C37_parse_checked_partial _ (by decide)

example (w : World) (s : Cells) (t : TargetTriple) :
    ((EConfig.ask { sampleEasy with deTarget := [("x-y".toList, {})] } (.linker t)) w s).2.trace = s.trace :=
  (C34_none (c := { sampleEasy with deTarget := [("x-y".toList, {})] }) (fun k v h => by cases List.mem_singleton.1 h; decide) rfl).1

example : ∃ e, (sampleEasy.target sampleTriple sampleWorld {}).1 = .ok e ∧ ∀ (qs : List (EConfig × Query)) (c' : EConfig) (w' : World),
    (c'.target sampleTriple w' (afterQueries sampleWorld qs (sampleEasy.target sampleTriple sampleWorld {}).2)).1 = .ok e := by
  cases h : (sampleEasy.target sampleTriple sampleWorld {}).1 with
  | ok e => exact ⟨e, rfl, fun qs c' w' => by rw [C33_stable h qs c' w']⟩
  | err e =>
    have h2 : (sampleEasy.target sampleTriple sampleWorld {}).1.isOk = true := by decide +kernel
    rw [h] at h2; cases h2
  | panic =>
    have h2 : (sampleEasy.target sampleTriple sampleWorld {}).1.isOk = true := by decide +kernel
    rw [h] at h2; cases h2

/-- The one process run in the sample, as in `C34_command`. -/
example : ∃ r cmd n, (sampleEasy.ask (.linker sampleTriple) sampleWorld {}).2.trace = [] ++ [cmd] ∧
    (sampleEasy.rustc sampleWorld {}).1 = .ok r ∧ cmd.program = r.path ∧
    cmd.args = r.args ++ ["--print".toList, "cfg".toList, "--target".toList, "x-y".toList] ∧
    ∃ out, sampleWorld.run n cmd = .succeeded (.unicode out) := by
  rcases C34_command (c := sampleEasy) (w := sampleWorld) (s := {}) (q := .linker sampleTriple) rfl with h | ⟨r, cmd, n, h1, h2, h3, h4, -⟩
  · have : (sampleEasy.ask (.linker sampleTriple) sampleWorld {}).2.trace.length = 1 := by decide +kernel
    rw [h] at this; cases this
  · exact ⟨r, cmd, n, h1, h2, h3, h4, _, rfl⟩

end CC
