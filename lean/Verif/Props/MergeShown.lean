import Verif.Lemmas.MergeCause
/-
The two values shown by the error of a failed merge: C67.
-/
namespace CC

/-- How a command is written, and its words. -/
def PathAndArgs.written (x : PathAndArgs) : Repr' × List (Val Str) := (x.repr, x.path :: x.args)
/-- How flags are written, and the flags. -/
def Flags.written (x : Flags) : Repr' × List (Val Str) := (x.repr, x.flags)

/-- What is left of the table `u` of a target when merging the table `v` into it failed: the settings before the first one that is written
differently (in the order `linker`, `runner`, `rustflags`, `rustdocflags`) have been merged, the others are as they were. -/
inductive LeftBehind (u v : TargetConfig) : TargetConfig → Prop where
  | runner (x y : PathAndArgs) : u.runner = some x → v.runner = some y → x.repr ≠ y.repr →
      LeftBehind u v { u with linker := u.linker.or v.linker }
  | rustflags (r : Option PathAndArgs) (x y : Flags) :
      JoinedProg ((u.runner.toList ++ v.runner.toList).map PathAndArgs.written) (r.map PathAndArgs.written) →
      u.rustflags = some x → v.rustflags = some y → x.repr ≠ y.repr →
      LeftBehind u v { u with linker := u.linker.or v.linker, runner := r }
  | rustdocflags (r : Option PathAndArgs) (f : Option Flags) (x y : Flags) :
      JoinedProg ((u.runner.toList ++ v.runner.toList).map PathAndArgs.written) (r.map PathAndArgs.written) →
      JoinedList ((u.rustflags.toList ++ v.rustflags.toList).map Flags.written) (f.map Flags.written) →
      u.rustdocflags = some x → v.rustdocflags = some y → x.repr ≠ y.repr →
      LeftBehind u v { u with linker := u.linker.or v.linker, runner := r, rustflags := f }

theorem joined_runner {a b r : Option PathAndArgs} (h : mergeOpt mergePathAndArgs a b false = .ok r) :
    JoinedProg ((a.toList ++ b.toList).map PathAndArgs.written) (r.map PathAndArgs.written) := by
  cases a with
  | none =>
    cases b with
    | none => cases h; exact .unset
    | some y =>
      cases h
      obtain ⟨p, as, rp⟩ := y
      cases rp
      · exact .string (by intro z hz; cases List.mem_singleton.1 hz; rfl)
      · have := JoinedProg.array (xs := [(Repr'.array, p :: as)]) (by simp) (by simp)
        simpa [PathAndArgs.written] using this
  | some x =>
    cases b with
    | none =>
      cases h
      obtain ⟨p, as, rp⟩ := x
      cases rp
      · exact .string (by intro z hz; cases List.mem_singleton.1 hz; rfl)
      · have := JoinedProg.array (xs := [(Repr'.array, p :: as)]) (by simp) (by simp)
        simpa [PathAndArgs.written] using this
    | some y =>
      obtain ⟨p, as, rp⟩ := x
      obtain ⟨q, bs, rq⟩ := y
      cases rp <;> cases rq <;> cases h
      · exact .string (by intro z hz; simp [PathAndArgs.written] at hz; rcases hz with rfl | rfl <;> rfl)
      · have := JoinedProg.array (xs := [(Repr'.array, p :: as), (Repr'.array, q :: bs)]) (by simp) (by simp)
        simpa [PathAndArgs.written] using this

theorem joined_flags {a b r : Option Flags} (h : mergeOpt mergeFlags a b false = .ok r) :
    JoinedList ((a.toList ++ b.toList).map Flags.written) (r.map Flags.written) := by
  cases a with
  | none =>
    cases b with
    | none => cases h; exact .unset
    | some y =>
      cases h
      obtain ⟨as, rp⟩ := y
      cases rp
      · exact .string (by intro z hz; cases List.mem_singleton.1 hz; rfl)
      · have := JoinedList.array (xs := [(Repr'.array, as)]) (by simp) (by simp)
        simpa [Flags.written] using this
  | some x =>
    cases b with
    | none =>
      cases h
      obtain ⟨as, rp⟩ := x
      cases rp
      · exact .string (by intro z hz; cases List.mem_singleton.1 hz; rfl)
      · have := JoinedList.array (xs := [(Repr'.array, as)]) (by simp) (by simp)
        simpa [Flags.written] using this
    | some y =>
      obtain ⟨as, rp⟩ := x
      obtain ⟨bs, rq⟩ := y
      cases rp <;> cases rq <;> cases h
      · exact .string (by intro z hz; simp [Flags.written] at hz; rcases hz with rfl | rfl <;> rfl)
      · have := JoinedList.array (xs := [(Repr'.array, as), (Repr'.array, bs)]) (by simp) (by simp)
        simpa [Flags.written] using this

theorem mix_runner {a b : Option PathAndArgs} {e : Err} (h : mergeOpt mergePathAndArgs a b false = .err e) :
    ∃ x y, a = some x ∧ b = some y ∧ x.repr ≠ y.repr := by
  cases a <;> cases b <;> first | cases h | skip
  rename_i x y
  refine ⟨x, y, rfl, rfl, fun hr => ?_⟩
  obtain ⟨p, as, rp⟩ := x
  obtain ⟨q, bs, rq⟩ := y
  cases hr
  cases rp <;> cases h

theorem mix_flags {a b : Option Flags} {e : Err} (h : mergeOpt mergeFlags a b false = .err e) :
    ∃ x y, a = some x ∧ b = some y ∧ x.repr ≠ y.repr := by
  cases a <;> cases b <;> first | cases h | skip
  rename_i x y
  refine ⟨x, y, rfl, rfl, fun hr => ?_⟩
  obtain ⟨as, rp⟩ := x
  obtain ⟨bs, rq⟩ := y
  cases hr
  cases rp <;> cases h

theorem pick_false {α : Type} (a b : Option α) : pick false a b = a.or b := by
  cases a <;> cases b <;> rfl

theorem left_behind {u v : TargetConfig} {e : Err} (h : mergeTarget u v false = .err e) : LeftBehind u v (mergeTargetLeft u v false) := by
  unfold mergeTarget at h
  unfold mergeTargetLeft
  rw [mergeOpt_scalar_eq, Res.ok_bind] at h
  rw [mergeOpt_scalar_eq, pick_false]
  rcases Res.bind_eq_err.1 h with h | ⟨r1, h1, h⟩
  · rw [h]
    obtain ⟨x, y, h1, h2, h3⟩ := mix_runner h
    exact .runner x y h1 h2 h3
  rcases Res.bind_eq_err.1 h with h | ⟨r2, h2, h⟩
  · rw [h1, h]
    obtain ⟨x, y, e1, e2, e3⟩ := mix_flags h
    exact .rustflags r1 x y (joined_runner h1) e1 e2 e3
  rcases Res.bind_eq_err.1 h with h | ⟨r3, h3, h⟩
  · rw [h1, h2]
    obtain ⟨x, y, e1, e2, e3⟩ := mix_flags h
    exact .rustdocflags r1 r2 x y (joined_runner h1) (joined_flags h2) e1 e2 e3
  · cases h

/-- C67: if the error of a failed merge shows values, then it names a key `k` of `[alias]`, `[env]` or `[target]`, and shows first what the
config that is merged into has for it, and then what the other one has. -/
theorem C67_shown {a b : Config} {m : Str} {as : List Str} {ds : List Dbg} {src : Option Err} (hb : b.WF)
    (h : mergeConfig a b false = .err (.context m as ds src)) : ∃ k, as = [k] ∧
      ((∃ u v, a.alias.get k = some u ∧ b.alias.get k = some v ∧ ds = [u.dbg, v.dbg]) ∨
        (∃ u v, a.env.get k = some u ∧ b.env.get k = some v ∧ ds = [u.dbg, v.dbg]) ∨
        ∃ u v left, a.target.get k = some u ∧ b.target.get k = some v ∧ ds = [left.dbg, v.dbg] ∧ LeftBehind u v left) := by
  replace hb := hb.maps
  unfold mergeConfig mergeBuild mergeDoc mergeFutureIncompatReport mergeCargoNew mergeHttp mergeNet mergeRegistry mergeTerm
    mergeTermProgress at h
  simp only [mergeOpt_scalar_eq, Res.ok_bind, Res.bind_bind] at h
  rcases Res.bind_eq_err.1 h with h | ⟨l0, h0, h⟩
  · obtain ⟨k, x, y, src, h1, h2, h3, he, h5⟩ := mergeMap_err hb.alias h
    cases he
    exact ⟨k, rfl, Or.inl ⟨x, y, h1, h2, rfl⟩⟩
  rcases Res.bind_eq_err.1 h with h | ⟨l1, h1, h⟩
  · obtain ⟨x, y, e1, e2, hne, he⟩ := shaped_stringOrArray.opt_err h
    cases he
  rcases Res.bind_eq_err.1 h with h | ⟨l2, h2, h⟩
  · obtain ⟨x, y, e1, e2, hne, he⟩ := shaped_flags.opt_err h
    cases he
  rcases Res.bind_eq_err.1 h with h | ⟨l3, h3, h⟩
  · obtain ⟨x, y, e1, e2, hne, he⟩ := shaped_flags.opt_err h
    cases he
  rcases Res.bind_eq_err.1 h with h | ⟨l4, h4, h⟩
  · obtain ⟨x, y, e1, e2, hne, he⟩ := shaped_prog.opt_err h
    cases he
  rcases Res.bind_eq_err.1 h with h | ⟨l5, h5, h⟩
  · obtain ⟨k, x, y, src, g1, g2, g3, he, g5⟩ := mergeMap_err hb.env h
    cases he
    exact ⟨k, rfl, Or.inr (Or.inl ⟨x, y, g1, g2, rfl⟩)⟩
  rcases Res.bind_eq_err.1 h with h | ⟨l6, h6, h⟩
  · obtain ⟨r, hr⟩ := mergeMap_total (dbg := clash RegistriesConfigValue.dbg) (m := mergeRegistries) (f := false) (self := a.registries)
      hb.registries (fun k => mergeOpt_ok fun x y _ _ =>
        ⟨⟨_, _, _⟩, mergeRegistries_ok_iff.2 ⟨mergeOpt_scalar_eq _ _ _, mergeOpt_scalar_eq _ _ _, mergeOpt_scalar_eq _ _ _⟩⟩)
    rw [hr] at h; cases h
  rcases Res.bind_eq_err.1 h with h | ⟨l7, h7, h⟩
  · obtain ⟨k, u, v, src, g1, g2, g3, he, g5⟩ := mergeMap_err hb.target h
    cases he
    refine ⟨k, rfl, Or.inr (Or.inr ⟨u, v, _, g1, g2, rfl, ?_⟩)⟩
    exact left_behind g3
  · cases h

/-- A target whose runner is an array and whose flags are a string, and one whose flags are an array. -/
example : ∃ src, mergeConfig
    { target := [("t".toList, { runner := some ⟨⟨"r".toList, none⟩, [], .array⟩, rustflags := some ⟨[⟨"a".toList, none⟩], .string⟩ })] }
    { target := [("t".toList, { runner := some ⟨⟨"s".toList, none⟩, [], .array⟩, rustflags := some ⟨[⟨"b".toList, none⟩], .array⟩ })] }
    false = .err (.context "failed to merge key `{}` between {} and {}".toList ["t".toList]
      [TargetConfig.dbg { runner := some ⟨⟨"r".toList, none⟩, [⟨"s".toList, none⟩], .array⟩, rustflags := some ⟨[⟨"a".toList, none⟩], .string⟩ },
        TargetConfig.dbg { runner := some ⟨⟨"s".toList, none⟩, [], .array⟩, rustflags := some ⟨[⟨"b".toList, none⟩], .array⟩ }]
      (some src)) := ⟨_, rfl⟩

end CC
