import Verif.Lemmas.AllQueries
import Verif.Props.Tools
/-
No query depends on earlier queries, nor on what other clones were asked: C91.
-/
namespace CC

variable {w : World} {s s' s0 : Cells} {c : EConfig}

/-- What a query returns after others: what it returns at first, or it panics because a version query does. -/
theorem Settled.answer (hw : Steady w) (h0 : Untouched s0) (h : Settled c w s0 s) {q : Query} (hq : q.Proper) :
    (c.ask q w s).1 = (c.ask q w s0).1 ∨
      ((c.ask q w s).1 = .panic ∧ (queryHostTriple c.cx c.build w s).1 = .panic) := by
  have hn : (queryHostTriple c.cx c.build w s0).1 ≠ .panic := host_no_panic (Or.inr ⟨h0.cargo, h0.rustc⟩)
  have t0 : ToolsTrue c w s0 s0 := .start h0.cargo h0.rustc
  have ver : ∀ {q : Query}, q.IsVersion →
      ((c.ask q w s).1 = .panic ∨ (c.ask q w s).1 = (c.ask q w s0).1) → (c.ask q w s).1 = (c.ask q w s0).1 ∨
      ((c.ask q w s).1 = .panic ∧ (queryHostTriple c.cx c.build w s).1 = .panic) := by
    intro q hv hx
    rcases hx with hx | hx
    · refine Or.inr ⟨hx, ?_⟩
      cases hh : (queryHostTriple c.cx c.build w s).1 with
      | panic => rfl
      | ok a => exact absurd hx (ask_no_panic (by rw [hh]; intro h; cases h) hv)
      | err e => exact absurd hx (ask_no_panic (by rw [hh]; intro h; cases h) hv)
    · exact Or.inl hx
  have first : ∀ {α : Type} {m : Act α} {f : α → Answer}, (Act.map f m w s0).1 ≠ .panic → (m w s0).1 ≠ .panic := by
    intro α m f hm he
    rw [map_fst, he] at hm
    exact hm rfl
  cases ht : q.targetOf with
  | some t =>
    left
    rw [ask_target ht, map_fst, map_fst, h.tables.answer hw h0.fresh (hq t ht)]
  | none =>
    cases q with
    | target t => cases ht
    | linker t => cases ht
    | runner t => cases ht
    | rustflags t => cases ht
    | rustdocflags t => cases ht
    | rustc =>
      left
      show (Act.map _ (queryRustc c.cx c.build) w s).1 = (Act.map _ (queryRustc c.cx c.build) w s0).1
      rw [map_fst, map_fst, queryRustc_eq, queryRustc_eq, (hw s.clock 0).2, (hw s0.clock 0).2, h.tables.rustc]
    | hostTriple =>
      refine ver (Or.inl rfl) ?_
      show (Act.map _ (queryHostTriple c.cx c.build) w s).1 = _ ∨ (Act.map _ (queryHostTriple c.cx c.build) w s).1 =
        (Act.map _ (queryHostTriple c.cx c.build) w s0).1
      rw [map_fst, map_fst]
      exact panic_or_map _ (host_steady hw h.tools).1 (host_steady hw t0).1 hn
    | rustcVersion =>
      have hf := C46_first_partial (c := c) (w := w) h0.cargo h0.rustc (q := .rustcVersion) (Or.inr (Or.inl rfl))
      refine ver (Or.inr (Or.inl rfl)) ?_
      show (Act.map _ (queryRustcVersion c.cx c.build) w s).1 = _ ∨ (Act.map _ (queryRustcVersion c.cx c.build) w s).1 =
        (Act.map _ (queryRustcVersion c.cx c.build) w s0).1
      rw [map_fst, map_fst]
      exact panic_or_map _ (rustcVersion_steady hw h.tools).1 (rustcVersion_steady hw t0).1 (first hf)
    | cargoVersion =>
      have hf := C46_first_partial (c := c) (w := w) h0.cargo h0.rustc (q := .cargoVersion) (Or.inr (Or.inr rfl))
      refine ver (Or.inr (Or.inr rfl)) ?_
      show (Act.map _ (queryCargoVersion c.cx c.build) w s).1 = _ ∨ (Act.map _ (queryCargoVersion c.cx c.build) w s).1 =
        (Act.map _ (queryCargoVersion c.cx c.build) w s0).1
      rw [map_fst, map_fst]
      exact panic_or_map _ (cargoVersion_steady hw h.tools).1 (cargoVersion_steady hw t0).1 (first hf)
    | buildTargetForConfig ts =>
      show (Act.map _ (c.buildTargetForConfig ts) w s).1 = (Act.map _ (c.buildTargetForConfig ts) w s0).1 ∨
        ((Act.map _ (c.buildTargetForConfig ts) w s).1 = _ ∧ _)
      rw [map_fst, map_fst, (buildTargetForConfig_fst c ts w s).1, (buildTargetForConfig_fst c ts w s0).1]
      have e0 : (queryHostTriple c.cx c.build w s0).1 = knownHost c w s0 := (host_steady hw t0).1.resolve_left hn
      rcases (host_steady hw h.tools).1 with e | e
      · rcases configTargets_panic c ts (Or.inl e : _ ∨ _ = (queryHostTriple c.cx c.build w s0).1) with h1 | h1
        · rw [h1]; exact Or.inr ⟨rfl, e⟩
        · rw [h1]; exact Or.inl rfl
      · rw [e, e0]; exact Or.inl rfl
    | buildTargetForCli ts =>
      left
      show (Act.map _ (c.buildTargetForCli ts) w s).1 = (Act.map _ (c.buildTargetForCli ts) w s0).1
      rw [map_fst, map_fst]
      unfold EConfig.buildTargetForCli
      split
      · rfl
      · dsimp only
        split <;> rfl

/-- What is true of all clones remains so. -/
theorem settled_pool (hw : Steady w) (h0 : Untouched s0) : ∀ (steps : List CloneStep) (pool : List Cells), (∀ x ∈ steps, x.Proper) →
    (∀ s ∈ pool, Settled c w s0 s ∧ (HostLines w → HostFirst s)) →
    ∀ s ∈ steps.foldl (CloneStep.run c w) pool, Settled c w s0 s ∧ (HostLines w → HostFirst s) := by
  intro steps
  induction steps with
  | nil => intro pool _ h; exact h
  | cons x xs ih =>
    intro pool hp h
    refine ih _ (fun y hy => hp y (List.mem_cons_of_mem _ hy)) ?_
    cases x with
    | clone i =>
      unfold CloneStep.run
      dsimp only
      split
      · rename_i u hu
        intro s hs
        rcases List.mem_append.1 hs with hs | hs
        · exact h s hs
        · rw [List.mem_singleton.1 hs]
          exact h u (List.mem_of_getElem? hu)
      · exact h
    | ask i q =>
      unfold CloneStep.run
      dsimp only
      split
      · rename_i u hu
        intro s hs
        rcases List.mem_or_eq_of_mem_set hs with hs | hs
        · exact h s hs
        · rw [hs]
          obtain ⟨h1, h2⟩ := h u (List.mem_of_getElem? hu)
          exact ⟨h1.next hw h0 (hp _ List.mem_cons_self), fun hl => hostFirst_ask hw hl (h2 hl) q⟩
      · exact h

/-- What is true of all clones in a program. -/
theorem settled_program (hw : Steady w) (h0 : Untouched s0) (steps : List CloneStep) (hp : ∀ x ∈ steps, x.Proper)
    (hs : s ∈ afterProgram c w steps s0) : Settled c w s0 s ∧ (HostLines w → HostFirst s) :=
  settled_pool hw h0 steps [s0] hp (fun u hu => by
    rw [List.mem_singleton.1 hu]
    exact ⟨.start h0, fun _ _ => ⟨h0.cargo, h0.rustc⟩⟩) s hs

/-- C91: whatever was asked of the config and of its clones before, a query on any of them returns what it returns on a config that
was just loaded, or it panics (see C46 for when this can be). -/
theorem C91_clones (hw : Steady w) (h0 : Untouched s0) (steps : List CloneStep) (hp : ∀ x ∈ steps, x.Proper)
    (hs : s ∈ afterProgram c w steps s0) {q : Query} (hq : q.Proper) :
    (c.ask q w s).1 = (c.ask q w s0).1 ∨ (c.ask q w s).1 = .panic :=
  ((settled_program hw h0 steps hp hs).1.answer hw h0 hq).imp id And.left

/-- C91 without panics: in builds without debug assertions, and if tools that report a version also report a host. -/
theorem C91_clones_equal (hw : Steady w) (hl : w.checks = false ∨ HostLines w) (h0 : Untouched s0) (steps : List CloneStep)
    (hp : ∀ x ∈ steps, x.Proper) (hs : s ∈ afterProgram c w steps s0) {q : Query} (hq : q.Proper) :
    (c.ask q w s).1 = (c.ask q w s0).1 := by
  obtain ⟨h1, h2⟩ := settled_program hw h0 steps hp hs
  refine (h1.answer hw h0 hq).resolve_right fun h => ?_
  rcases hl with hl | hl
  · exact host_no_panic (Or.inl hl) h.2
  · exact (host_safe hw hl (h2 hl)).1 h.2

theorem program_of_queries (qs : List Query) (s : Cells) :
    (qs.map (CloneStep.ask 0)).foldl (CloneStep.run c w) [s] = [afterAll c w qs s] := by
  induction qs generalizing s with
  | nil => rfl
  | cons q qs ih => exact ih _

/-- C91 for a single config: the order of queries and the queries asked before do not matter. -/
theorem C91_history (hw : Steady w) (hl : w.checks = false ∨ HostLines w) (h0 : Untouched s0) (qs : List Query)
    (hp : ∀ x ∈ qs, x.Proper) {q : Query} (hq : q.Proper) : (c.ask q w (afterAll c w qs s0)).1 = (c.ask q w s0).1 := by
  refine C91_clones_equal hw hl h0 (qs.map (CloneStep.ask 0)) (fun x hx => ?_) ?_ hq
  · obtain ⟨y, hy, rfl⟩ := List.mem_map.1 hx
    exact hp y hy
  · unfold afterProgram
    rw [program_of_queries]
    exact List.mem_singleton.2 rfl

/-- C91: a config that was just loaded is as the theorems require. -/
theorem C91_loaded {p : ProcEnv} {fs : Fs} {parse : Str → Res Config} {cwd : Path} {o : Options}
    (h : EConfig.loadWithOptions p fs parse cwd o = .ok (c, s0)) : Untouched s0 := by
  refine ⟨C33_loaded h, ?_, ?_⟩ <;>
  · unfold EConfig.loadWithOptions at h
    dsimp only at h
    simp only [Res.bind_eq_ok] at h
    obtain ⟨de, -, c', -, h⟩ := h
    have h2 := (Prod.mk.inj (Res.ok.inj h)).2
    rw [← h2]
    unfold Cells.cargoHomeOf Options.intoContext
    dsimp only
    split <;> rfl

/-- The restriction is needed: with debug assertions and tools that print a version but no host, the second query for the host panics
where the first one fails, as said by C46. -/
example : Steady noHostWorld ∧ (plainConfig.hostTriple noHostWorld {}).1.isErr = true ∧
    (plainConfig.hostTriple noHostWorld (plainConfig.hostTriple noHostWorld {}).2).1.isPanic = true :=
  ⟨fun _ _ => ⟨rfl, rfl⟩, by decide +kernel, by decide +kernel⟩
/-- A program with two clones, of which one knows the version of cargo and the other one does not. -/
example : (afterProgram plainConfig tellingWorld [.clone 0, .ask 1 .cargoVersion, .ask 0 .rustc, .clone 0] {}).map
    (fun s => (s.cargoVersion.isSome, s.rustc.isSome)) = [(false, true), (true, false), (false, true)] := by decide +kernel
example : Steady tellingWorld ∧ Untouched {} := ⟨fun _ _ => ⟨rfl, rfl⟩, ⟨rfl, rfl⟩, rfl, rfl⟩
/-- All of them return the same host triple. -/
example : (afterProgram plainConfig tellingWorld [.clone 0, .ask 1 .cargoVersion, .ask 0 .rustc, .clone 0] {}).map
    (fun s => (plainConfig.hostTriple tellingWorld s).1.toOption) = [some "x".toList, some "x".toList, some "x".toList] := by
  decide +kernel

end CC
