import Verif.Model.Query
import Verif.Lemmas.BMap
import Verif.Lemmas.Merge
/-
Lemmas on actions: how the steps of a query compose, and what each query does to the cells.
-/
namespace CC

namespace Act
variable {α β : Type} {w : World} {s s' : Cells}

theorem bind_def (m : Act α) (f : α → Act β) (w : World) (s : Cells) :
    (m >>= f) w s = match m w s with
      | (.ok a, s) => f a w s
      | (.err e, s) => (.err e, s)
      | (.panic, s) => (.panic, s) := rfl

theorem pure_def (a : α) (w : World) (s : Cells) : (pure a : Act α) w s = (.ok a, s) := rfl

theorem lift_def (r : Res α) (w : World) (s : Cells) : lift r w s = (r, s) := rfl

theorem cells_def (w : World) (s : Cells) : cells w s = (.ok s, s) := rfl

theorem modify_def (f : Cells → Cells) (w : World) (s : Cells) : modify f w s = (.ok (), f s) := rfl

theorem bind_of_ok {m : Act α} {f : α → Act β} {a : α} (h : m w s = (.ok a, s')) : (m >>= f) w s = f a w s' := by
  rw [bind_def, h]

theorem bind_of_err {m : Act α} {f : α → Act β} {e : Err} (h : m w s = (.err e, s')) : (m >>= f) w s = (.err e, s') := by
  rw [bind_def, h]

theorem bind_of_panic {m : Act α} {f : α → Act β} (h : m w s = (.panic, s')) : (m >>= f) w s = (.panic, s') := by
  rw [bind_def, h]

theorem bind_ok {m : Act α} {f : α → Act β} {b : β} :
    (m >>= f) w s = (.ok b, s') ↔ ∃ a s1, m w s = (.ok a, s1) ∧ f a w s1 = (.ok b, s') := by
  rw [bind_def]
  constructor
  · intro h
    split at h
    · rename_i a s1 e; exact ⟨a, s1, e, h⟩
    · cases h
    · cases h
  · rintro ⟨a, s1, h1, h2⟩
    rw [h1]; exact h2

theorem lift_ok {r : Res α} {a : α} : lift r w s = (.ok a, s') ↔ r = .ok a ∧ s' = s := by
  rw [lift_def]
  constructor
  · intro h; cases h; exact ⟨rfl, rfl⟩
  · rintro ⟨rfl, rfl⟩; rfl

theorem pure_ok {a b : α} : (pure a : Act α) w s = (.ok b, s') ↔ b = a ∧ s' = s := by
  rw [pure_def]
  constructor
  · intro h; cases h; exact ⟨rfl, rfl⟩
  · rintro ⟨rfl, rfl⟩; rfl

theorem modify_ok {f : Cells → Cells} {b : Unit} : modify f w s = (.ok b, s') ↔ s' = f s := by
  rw [modify_def]
  constructor
  · intro h; cases h; rfl
  · rintro rfl; rfl

theorem cells_ok {b : Cells} : cells w s = (.ok b, s') ↔ b = s ∧ s' = s := by
  rw [cells_def]
  constructor
  · intro h; cases h; exact ⟨rfl, rfl⟩
  · rintro ⟨rfl, rfl⟩; rfl

theorem cells_bind (f : Cells → Act β) (w : World) (s : Cells) : (cells >>= f) w s = f s w s := rfl
theorem lift_bind (r : Res α) (f : α → Act β) (w : World) (s : Cells) : (lift r >>= f) w s = match r with
    | .ok a => f a w s
    | .err e => (.err e, s)
    | .panic => (.panic, s) := by
  rw [bind_def, lift_def]; cases r <;> rfl
theorem modify_bind (g : Cells → Cells) (f : Unit → Act β) (w : World) (s : Cells) :
    (modify g >>= f) w s = f () w (g s) := rfl

theorem map_def (f : α → β) (m : Act α) (w : World) (s : Cells) : Act.map f m w s = (m >>= fun a => pure (f a)) w s := by
  rw [bind_def]; unfold Act.map; generalize m w s = x
  obtain ⟨r, s1⟩ := x
  cases r <;> rfl

theorem read_def (c : Cmd) (w : World) (s : Cells) :
    read c w s = (procRead c (w.run s.clock c), { s with clock := s.clock + 1, trace := s.trace ++ [c] }) := rfl

/-- The cells after `m >>= f`. -/
theorem bind_inv {P : Cells → Prop} {m : Act α} {f : α → Act β} (h1 : P (m w s).2)
    (h2 : ∀ a s1, m w s = (.ok a, s1) → P s1 → P (f a w s1).2) : P ((m >>= f) w s).2 := by
  rw [bind_def]
  generalize hx : m w s = x at h1
  obtain ⟨r, s1⟩ := x
  cases r with
  | ok a => exact h2 a s1 hx h1
  | err e => exact h1
  | panic => exact h1

end Act

/-! ### Output of processes -/

theorem popLineEnds_split (s : Str) : ∃ ends, s = ends ++ popLineEnds s ∧ ∀ c ∈ ends, c = '\n' ∨ c = '\r' := by
  induction s with
  | nil => exact ⟨[], rfl, fun _ h => by cases h⟩
  | cons c s ih =>
    obtain ⟨ends, h2, h3⟩ := ih
    by_cases hc : c = '\n' ∨ c = '\r'
    · have e : popLineEnds (c :: s) = popLineEnds s := by
        rcases hc with rfl | rfl <;> rfl
      refine ⟨c :: ends, by rw [e, List.cons_append, ← h2], fun x hx => ?_⟩
      rcases List.mem_cons.1 hx with rfl | hx
      · exact hc
      · exact h3 x hx
    · refine ⟨[], ?_, fun _ h => by cases h⟩
      have e : popLineEnds (c :: s) = c :: s := by
        unfold popLineEnds
        split
        · rename_i h; exact absurd (.inl (List.cons.inj h).1) hc
        · rename_i h; exact absurd (.inr (List.cons.inj h).1) hc
        · rfl
      rw [e]; rfl

theorem procRead_unicode (cm : Cmd) (v : Str) : procRead cm (.succeeded (.unicode v)) = .ok (popLineEnds v.reverse).reverse := rfl

/-- Anything else is an error. -/
theorem procRead_cases (cm : Cmd) (o : ProcOut) : (∃ v, o = .succeeded (.unicode v)) ∨ (∃ e, procRead cm o = .err e) ∧
    ∀ v, o ≠ .succeeded (.unicode v) := by
  rcases o with _ | (_ | _) | _
  · exact .inr ⟨⟨_, rfl⟩, fun _ h => by cases h⟩
  · exact .inl ⟨_, rfl⟩
  · exact .inr ⟨⟨_, rfl⟩, fun _ h => by cases h⟩
  · exact .inr ⟨⟨_, rfl⟩, fun _ h => by cases h⟩

/-- The output of a process that was read. -/
theorem procRead_text {cm : Cmd} {out : ProcOut} {text : Str} (h : procRead cm out = .ok text) :
    ∃ ends, out = .succeeded (.unicode (text ++ ends)) ∧ (∀ c ∈ ends, c = '\n' ∨ c = '\r') := by
  rcases procRead_cases cm out with ⟨v, rfl⟩ | ⟨⟨e, he⟩, _⟩
  · rw [procRead_unicode] at h
    cases Res.ok.inj h
    obtain ⟨ends, h2, h3⟩ := popLineEnds_split v.reverse
    refine ⟨ends.reverse, ?_, fun c hc => h3 c (by simpa using hc)⟩
    have : v = (popLineEnds v.reverse).reverse ++ ends.reverse := by
      rw [← List.reverse_append, ← h2, List.reverse_reverse]
    rw [← this]
  · rw [he] at h; cases h

/-! ### The compiler's cfg set -/

variable {cx : Ctx} {b : EBuild} {t : TargetTriple} {w : World} {s s' : Cells}

/-- `rustc` neither fails nor panics, and afterwards the cell is set. -/
theorem queryRustc_total (cx : Ctx) (b : EBuild) (w : World) (s : Cells) : ∃ r n, queryRustc cx b w s =
    (.ok r, { s with rustc := some r, clock := n }) := by
  unfold queryRustc
  rw [Act.cells_bind]
  cases h : s.rustc with
  | some r =>
    refine ⟨r, s.clock, ?_⟩
    cases s
    cases h
    rfl
  | none =>
    dsimp only
    unfold rustcProgram
    cases b.rustc with
    | some p => exact ⟨_, s.clock, rfl⟩
    | none =>
      dsimp only
      unfold rustcPath
      cases he : w.exist s.clock (Path.join (Path.pop cx.cargo.path) "rustc".toList) with
      | true =>
        refine ⟨wrapped (b.rustcWrapper.toList ++ b.rustcWorkspaceWrapper.toList)
          (Path.join (Path.pop cx.cargo.path) "rustc".toList), s.clock + 1, ?_⟩
        simp only [Act.bind_def, Act.exist, he, if_pos]
        rfl
      | false =>
        refine ⟨wrapped (b.rustcWrapper.toList ++ b.rustcWorkspaceWrapper.toList) "rustc".toList, s.clock + 1, ?_⟩
        simp only [Act.bind_def, Act.exist, he]
        rfl

/-- The command that asks for the cfg set of a target. -/
def cfgCmd (r : EPathAndArgs) (k : Str) : Cmd := r.cmd ["--print".toList, "cfg".toList, "--target".toList, k]

/-- What the answer of the compiler stands for. -/
def cfgAnswer (cm : Cmd) (o : ProcOut) : Res CfgSet := procRead cm o >>= fun out => Res.unwrap (CfgSet.parse out)

theorem cfgOf_cached {c : CfgSet} (h : s.cfg.get t.cliTarget = some c) : cfgOf cx b t w s = (.ok c, s) := by
  unfold cfgOf
  rw [Act.cells_bind, h]
  rfl

/-- Without a cached set: the compiler is determined, then asked. -/
theorem cfgOf_fresh (h : s.cfg.get t.cliTarget = none) : ∃ r n,
    queryRustc cx b w s = (.ok r, { s with rustc := some r, clock := n }) ∧
    cfgOf cx b t w s = (cfgAnswer (cfgCmd r t.cliTarget) (w.run n (cfgCmd r t.cliTarget)),
      { s with rustc := some r, clock := n + 1, trace := s.trace ++ [cfgCmd r t.cliTarget],
               cfg := match cfgAnswer (cfgCmd r t.cliTarget) (w.run n (cfgCmd r t.cliTarget)) with
                 | .ok c => s.cfg.insert t.cliTarget c
                 | _ => s.cfg }) := by
  obtain ⟨r, n, hr⟩ := queryRustc_total cx b w s
  refine ⟨r, n, hr, ?_⟩
  unfold cfgOf
  rw [Act.cells_bind, h]
  dsimp only
  rw [Act.bind_of_ok hr]
  unfold cfgFromRustc
  rw [Act.bind_def, Act.bind_def, Act.read_def]
  unfold cfgAnswer cfgCmd
  dsimp only
  generalize w.run n _ = o
  generalize EPathAndArgs.cmd _ _ = cm
  cases procRead cm o with
  | err e => rfl
  | panic => rfl
  | ok out =>
    dsimp only [Act.lift_def]
    cases hc : CfgSet.parse out with
    | none => simp only [Res.unwrap, Res.ok_bind, hc]
    | some c => simp only [Res.unwrap, Res.ok_bind, hc]; rfl


/-! ### Whether a table matches -/

/-- Evaluating a key, given the outcome of `cfgOf`. -/
theorem evalCfg_eq (key : Str) : evalCfg cx b key t w s = match Expression.parse w.checks key with
    | .ok e => (cfgOf cx b t >>= fun c => Act.lift (Res.unwrap (e.eval boolLogic c.holds))) w s
    | .err e => (.err e, s)
    | .panic => (.panic, s) := by
  unfold evalCfg
  rw [Act.lift_bind]
  cases Expression.parse w.checks key <;> rfl

end CC
