import Verif.Lemmas.Borrow
/-
C74: the caches of a config are never in use when they are used, whatever the caller's code does while a query converts its arguments.
-/
namespace CC

/-! ### Specification -/

mutual
/-- The queries of a call in the order in which they are made: those of the caller's conversions come first. -/
def Call.queries : Call → List (EConfig × Query)
  | .mk c inner q => Call.queriesAll inner ++ [(c, q)]
/-- Those of several calls. -/
def Call.queriesAll : List Call → List (EConfig × Query)
  | [] => []
  | k :: ks => k.queries ++ Call.queriesAll ks
end

/-! ### The theorems -/

/-- C74: a query that starts while no cell is borrowed has the same outcome as without the checks of the cells, and afterwards, also if it
failed or panicked for another reason, no cell is borrowed. -/
theorem C74_query (c : EConfig) (q : Query) (w : World) (s : Cells) :
    c.askB q w (s, {}) = ((c.ask q w s).1, ((c.ask q w s).2, {})) :=
  ask_checked c q w s {} (by simp [AllFree, CfgFree])

mutual
theorem call_run (w : World) (k : Call) (s : Cells) : (k.run w (s, {})).2 = (afterQueries w k.queries s, {}) := by
  cases k with
  | mk c inner q =>
    rw [Call.run, Call.queries, afterQueries_append]
    show (c.askB q w (Call.runAll inner w (s, {})).2).2 = _
    rw [call_runAll w inner s, C74_query]
    rfl

theorem call_runAll (w : World) (ks : List Call) (s : Cells) :
    Call.runAll ks w (s, {}) = (.ok (), (afterQueries w (Call.queriesAll ks) s, {})) := by
  cases ks with
  | nil => rw [Call.runAll, Call.queriesAll]; rfl
  | cons k ks =>
    rw [Call.runAll, Call.queriesAll, afterQueries_append]
    show Call.runAll ks w (k.run w (s, {})).2 = _
    rw [call_run w k s]
    exact call_runAll w ks _
end

/-- C74: a call whose arguments are converted by code that makes calls itself, to any depth: the queries are made one after the other, the
innermost first, no cell is ever in use when it is used, and the outcome is that of the query after the others. -/
theorem C74_nested (w : World) (c : EConfig) (inner : List Call) (q : Query) (s : Cells) :
    (Call.mk c inner q).run w (s, {}) =
      ((c.ask q w (afterQueries w (Call.queriesAll inner) s)).1, (afterQueries w (Call.queriesAll inner ++ [(c, q)]) s, {})) := by
  rw [Call.run, afterQueries_append]
  show c.askB q w (Call.runAll inner w (s, {})).2 = _
  rw [call_runAll, C74_query]
  rfl

/-- C74: after any calls the config can be cloned, shown and written: the cells are not borrowed. -/
theorem C74_inspect (w : World) (ks : List Call) (s : Cells) :
    inspectB w (Call.runAll ks w (s, {})).2 =
      (.ok (afterQueries w (Call.queriesAll ks) s), (afterQueries w (Call.queriesAll ks) s, {})) := by
  rw [call_runAll]
  rfl

/-- The checks are there: a query made while the cell is borrowed panics. -/
example (c : EConfig) (t : TargetTriple) (w : World) (s : Cells) :
    (c.askB (.target t) w (s, { writing := [.target] })).1 = .panic := rfl
/-- And an initialiser that fills the cell itself panics. -/
example (w : World) (s : Cells) (hs : s.hostTriple = none) :
    (BAct.getOrInit (·.hostTriple) (fun h s => { s with hostTriple := some h })
      (do BAct.of (Act.modify fun s => { s with hostTriple := some [] }); pure []) w (s, {})).1 = .panic := by
  unfold BAct.getOrInit
  show (BAct.bind _ _ w (s, {})).1 = _
  simp only [BAct.bind, BAct.of, Act.cells, hs]
  rfl

/-- A call of `linker` with a conversion of the target that calls `runner` and, within its own conversion, `rustc_version`. -/
example (w : World) (t : TargetTriple) (c : EConfig) (s : Cells) :
    ((Call.mk c [.mk c [.mk c [] .rustcVersion] (.runner t)] (.linker t)).run w (s, {})).1 =
      (c.ask (.linker t) w (afterQueries w [(c, .rustcVersion), (c, .runner t)] s)).1 :=
  congrArg Prod.fst (C74_nested w c [.mk c [.mk c [] .rustcVersion] (.runner t)] (.linker t) s)

/-- A query that fails leaves the cells free. -/
example (w : World) (c : EConfig) (q : Query) (s : Cells) (e : Err) (h : (c.ask q w s).1 = .err e) :
    (c.askB q w (s, {})).1 = .err e ∧ (c.askB q w (s, {})).2.2 = {} := by
  rw [C74_query]
  exact ⟨h, rfl⟩

end CC
