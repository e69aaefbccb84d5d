import Verif.Lemmas.Accept
import Verif.Lemmas.EndToEnd
import Verif.Props.Serde
/-
C62: which documents are accepted as a config.
-/
namespace CC

/-- A document is accepted exactly if it is a config: it is a table, sections and the entries of `[registries]` and `[target]`
are tables, an entry of `[env]` is a string or has a `value`, and every setting that is present has a value of its type: numbers
in the 32-bit ranges, the documented words, strings or arrays of strings, and commands that name a program.  In particular
unknown keys never matter. -/
theorem C62_accepted_iff (t : Toml) (hd : t.DistinctKeys) : (∃ c, Config.de t = .ok c) ↔ t.IsConfig :=
  ⟨fun ⟨_, h⟩ => config_accepted h hd (C52_readable _ _ h), fun h => accepted_config h hd⟩

/-- Other documents are rejected with an error, not with a panic. -/
theorem C62_rejected_iff (t : Toml) (hd : t.DistinctKeys) : (∃ e, Config.de t = .err e) ↔ ¬ t.IsConfig := by
  rw [← C62_accepted_iff t hd]
  cases h : Config.de t with
  | ok c => exact ⟨fun ⟨_, e⟩ => (by cases e), fun n => absurd ⟨c, rfl⟩ n⟩
  | err e => exact ⟨fun _ ⟨_, e⟩ => (by cases e), fun _ => ⟨e, rfl⟩⟩
  | panic => exact absurd h (Config.de_ne_panic t)

/-- C56 for values in files: a runner or browser is accepted exactly if it is a string that is not blank or a non-empty array of
strings; program and arguments are its words or elements; otherwise it is rejected with an error. -/
theorem C56_toml (t : Toml) :
    ((∃ x, PathAndArgs.de t = .ok x) ↔
      (∃ s, t = .str s ∧ ¬ Blank s) ∨ ∃ (w : Str) (ws : List Str), t = .arr ((w :: ws).map .str)) ∧
    (∀ x, PathAndArgs.de t = .ok x → TomlList true t x.repr (x.path.val :: x.args.map Val.val)) ∧
    PathAndArgs.de t ≠ .panic :=
  ⟨⟨fun ⟨_, h⟩ => command_accepted h, fun h => accepted_command h⟩, fun _ h => (PathAndArgs.de_eq h).1, PathAndArgs.de_ne_panic t⟩

-- the sample document of C52 is a config
example : sampleDoc.IsConfig :=
  (C62_accepted_iff sampleDoc (by
    unfold sampleDoc
    repeat first
      | exact distinct_leaf rfl
      | refine distinct_tbl (by decide) ?_
      | (simp only [List.forall_mem_cons, List.not_mem_nil, false_implies, implies_true, and_true]; done)
      | (simp only [List.forall_mem_cons, List.not_mem_nil, false_implies, implies_true, and_true])
      | refine ⟨?_, ?_⟩)).1
    ⟨_, rfl⟩

-- a negative number of retries, a blank runner, an `[env]` table without a value, or a section that is not a table: rejected
example : ∃ e, Config.de (.tbl [("net".toList, .tbl [("retry".toList, .int (-1))])]) = .err e := ⟨_, rfl⟩
example : ∃ e, Config.de (.tbl [("target".toList, .tbl [("a".toList, .tbl [("runner".toList, .str " ".toList)])])]) = .err e :=
  ⟨_, rfl⟩
example : ∃ e, Config.de (.tbl [("env".toList, .tbl [("A".toList, .tbl [("force".toList, .bool true)])])]) = .err e :=
  ⟨_, rfl⟩
example : ∃ e, Config.de (.tbl [("http".toList, .str "x".toList)]) = .err e := ⟨_, rfl⟩

end CC
