import Verif.Lemmas.Cause
/-
Helper lemmas on the error of a merge.
-/
namespace CC

/-- How the setting is written in a config. -/
def Spot.shapeIn (c : Config) : Spot → Option Str
  | .alias k => (c.alias.get k).map fun l => l.repr.asStr
  | .buildTarget => c.build.target.map StringOrArray.kind
  | .buildRustflags => c.build.rustflags.map fun l => l.repr.asStr
  | .buildRustdocflags => c.build.rustdocflags.map fun l => l.repr.asStr
  | .docBrowser => c.doc.browser.map fun l => l.repr.asStr
  | .env k => (c.env.get k).map EnvConfigValue.kind
  | .targetRunner k => ((c.target.get k).bind (·.runner)).map fun l => l.repr.asStr
  | .targetRustflags k => ((c.target.get k).bind (·.rustflags)).map fun l => l.repr.asStr
  | .targetRustdocflags k => ((c.target.get k).bind (·.rustdocflags)).map fun l => l.repr.asStr

/-- The merger fails exactly for values of different shapes, telling both. -/
def Shaped {V : Type} (m : Merger V) (s : V → Str) : Prop :=
  ∀ x y f, ((∃ r, m x y f = .ok r ∧ s r = s x) ∧ s x = s y) ∨ (m x y f = .err (mixErr (s x) (s y)) ∧ s x ≠ s y)

theorem shaped_stringList : Shaped mergeStringList fun l => l.repr.asStr := by
  rintro ⟨a, ra⟩ ⟨b, rb⟩ f
  cases ra <;> cases rb <;> cases f <;> simp [mergeStringList, Repr'.asStr]

theorem shaped_flags : Shaped mergeFlags fun l => l.repr.asStr := by
  rintro ⟨a, ra⟩ ⟨b, rb⟩ f
  cases ra <;> cases rb <;> cases f <;> simp [mergeFlags, Repr'.asStr]

theorem shaped_prog : Shaped mergePathAndArgs fun l => l.repr.asStr := by
  rintro ⟨pa, a, ra⟩ ⟨pb, b, rb⟩ f
  cases ra <;> cases rb <;> cases f <;> simp [mergePathAndArgs, Repr'.asStr]

theorem shaped_stringOrArray : Shaped mergeStringOrArray StringOrArray.kind := by
  rintro (a | a) (b | b) f <;> cases f <;> simp [mergeStringOrArray, StringOrArray.kind]

theorem shaped_env : Shaped mergeEnvConfigValue EnvConfigValue.kind := by
  rintro (a | ⟨a1, a2, a3⟩) (b | ⟨b1, b2, b3⟩) f
  · left; cases f <;> simp [mergeEnvConfigValue, EnvConfigValue.kind]
  · right; simp [mergeEnvConfigValue, EnvConfigValue.kind]
  · right; simp [mergeEnvConfigValue, EnvConfigValue.kind]
  · left
    refine ⟨⟨_, mergeEnv_table_ok_iff.2 ⟨_, _, _, rfl, rfl, mergeOpt_scalar_eq _ _ _, mergeOpt_scalar_eq _ _ _⟩, ?_⟩, ?_⟩ <;> rfl

section
variable {V : Type} {m : Merger V} {s : V → Str}

theorem Shaped.opt_ok (hm : Shaped m s) {a b r : Option V} {f : Bool} (h : mergeOpt m a b f = .ok r) :
    r.map s = (a.map s).or (b.map s) ∧ ∀ x y, a.map s = some x → b.map s = some y → x = y := by
  cases b with
  | none => rw [mergeOpt_none_right] at h; cases h; simp
  | some b =>
    cases a with
    | none => rw [mergeOpt_none_left] at h; cases h; simp
    | some a =>
      rw [mergeOpt_some, Res.bind_eq_ok] at h
      obtain ⟨z, h1, h2⟩ := h
      cases h2
      rcases hm a b f with ⟨⟨r, h3, h4⟩, h5⟩ | ⟨h3, _⟩
      · rw [h3] at h1
        cases h1
        simp [h4, h5]
      · rw [h3] at h1; cases h1

theorem Shaped.opt_err (hm : Shaped m s) {a b : Option V} {f : Bool} {e : Err} (h : mergeOpt m a b f = .err e) :
    ∃ x y, a.map s = some x ∧ b.map s = some y ∧ x ≠ y ∧ e = mixErr x y := by
  cases b with
  | none => rw [mergeOpt_none_right] at h; cases h
  | some b =>
    cases a with
    | none => rw [mergeOpt_none_left] at h; cases h
    | some a =>
      rw [mergeOpt_some] at h
      rcases hm a b f with ⟨⟨r, h3, _⟩, _⟩ | ⟨h3, h4⟩
      · rw [h3] at h; cases h
      · rw [h3] at h
        cases h
        exact ⟨_, _, rfl, rfl, h4, rfl⟩

end

theorem mergeMap_err {V : Type} {dbg : V → V → Bool → List Dbg} {m : Merger V} {self low : BMap V} {f : Bool} {e : Err} (hl : low.Sorted)
    (h : mergeMap dbg m self low f = .err e) :
    ∃ k x y src, self.get k = some x ∧ low.get k = some y ∧ m x y f = .err src ∧
      e = .context "failed to merge key `{}` between {} and {}".toList [k] (dbg x y f) (some src) ∧
      ∀ k', strLt k' k = true → ∃ r, mergeOpt m (self.get k') (low.get k') f = .ok r := by
  induction low generalizing self with
  | nil => cases h
  | cons w low ih =>
    obtain ⟨k0, v⟩ := w
    have hnone : BMap.get low k0 = none := BMap.get_eq_none_of_lt hl.head
    -- what follows from a failure after the first entry
    have step : ∀ z, mergeMap dbg m (self.insert k0 z) low f = .err e → (∃ r, mergeOpt m (self.get k0) (some v) f = .ok r) →
        ∃ k x y src, self.get k = some x ∧ BMap.get ((k0, v) :: low) k = some y ∧ m x y f = .err src ∧
          e = .context "failed to merge key `{}` between {} and {}".toList [k] (dbg x y f) (some src) ∧
          ∀ k', strLt k' k = true → ∃ r, mergeOpt m (self.get k') (BMap.get ((k0, v) :: low) k') f = .ok r := by
      intro z hz hok
      obtain ⟨k, x, y, src, h1, h2, h3, h4, h5⟩ := ih hl.tail hz
      have hk : k0 ≠ k := by
        rintro rfl
        rw [hnone] at h2
        cases h2
      rw [BMap.get_insert, if_neg hk] at h1
      refine ⟨k, x, y, src, h1, by rw [BMap.get, if_neg hk]; exact h2, h3, h4, fun k' hk' => ?_⟩
      by_cases e' : k0 = k'
      · subst e'
        rw [BMap.get, if_pos rfl]
        exact hok
      · have := h5 k' hk'
        rw [BMap.get_insert, if_neg e'] at this
        rw [BMap.get, if_neg e']
        exact this
    simp only [mergeMap] at h
    split at h
    · rename_i entry he
      rcases Res.bind_eq_err.1 h with h | ⟨z, h1, h⟩
      · cases hx : m entry v f with
        | ok r => rw [hx] at h; cases h
        | panic => rw [hx] at h; cases h
        | err src =>
          rw [hx] at h
          refine ⟨k0, entry, v, src, he, by rw [BMap.get, if_pos rfl], hx, (Res.err.inj h).symm, fun k' hk' => ?_⟩
          have : BMap.get ((k0, v) :: low) k' = none := by
            refine BMap.get_eq_none_of_lt fun e he => ?_
            rcases List.mem_cons.1 he with rfl | he
            · exact hk'
            · exact strLt_trans hk' (hl.head e he)
          rw [this, mergeOpt_none_right]
          exact ⟨_, rfl⟩
      · rw [Res.withContext_eq_ok] at h1
        exact step z h ⟨some z, by rw [he, mergeOpt_some, h1]; rfl⟩
    · rename_i he
      exact step v h ⟨_, by rw [he, mergeOpt_none_left]⟩

/-! ### the messages -/

theorem fill_two {p q s t : Str} (x y : Str) (hp : '{' ∉ p) (hq : '{' ∉ q) (e1 : t = p ++ '{' :: '}' :: s) (e2 : s = q ++ ['{', '}']) :
    fill t [x, y] = p ++ x ++ q ++ y := by
  subst e1 e2
  rw [fill_hole p hp, fill_hole q hq, fill_nil, List.append_nil, List.append_assoc, List.append_assoc]

theorem fill_shapes (x y : Str) : fill "expected {}, but found {}".toList [x, y] = shapesMessage x y := by
  unfold shapesMessage
  exact fill_two (p := "expected ".toList) (q := ", but found ".toList) (s := ", but found {}".toList) x y (by decide +kernel)
    (by decide +kernel) (by decide +kernel) (by decide +kernel)

theorem fill_key' {p q r s t u : Str} (k x y : Str) (hp : '{' ∉ p) (hq : '{' ∉ q) (hr : '{' ∉ r) (e1 : t = p ++ '`' :: '{' :: '}' :: '`' :: s)
    (e2 : s = q ++ '{' :: '}' :: u) (e3 : u = r ++ ['{', '}']) :
    fill t [k, x, y] = p ++ quoted k ++ q ++ (x ++ (r ++ y)) := by
  rw [fill_quoted p t s k [x, y] e1 hp, fill_two x y hq hr e2 e3]
  simp only [List.append_assoc]

theorem fill_key (k x y : Str) : fill "failed to merge key `{}` between {} and {}".toList [k, x, y] =
    "failed to merge key ".toList ++ quoted k ++ " between ".toList ++ (x ++ (" and ".toList ++ y)) :=
  fill_key' (s := " between {} and {}".toList) (u := " and {}".toList) k x y (by decide +kernel) (by decide +kernel) (by decide +kernel)
    (by decide +kernel) (by decide +kernel) (by decide +kernel)

theorem display_mix (sh : Shown) (x y : Str) : (mixErr x y).display sh = shapesMessage x y := by
  unfold mixErr
  rw [display_other, fill_shapes]

theorem tells_none (sh : Shown) (x y : Str) : Tells sh (mixErr x y) x y none := by
  unfold Tells
  exact ⟨display_mix sh x y, rfl⟩

theorem tells_key {m : Str} (sh : Shown) (x y k : Str) (d d' : Dbg) (src : Err) (hm : ∀ x y, fill m [k, x, y] =
      "failed to merge key ".toList ++ quoted k ++ " between ".toList ++ (x ++ (" and ".toList ++ y)))
    (h : src.display sh = shapesMessage x y) (h' : src.source = none) :
    Tells sh (.context m [k] [d, d'] (some src)) x y (some k) := by
  unfold Tells
  exact ⟨⟨_, hm (sh.dbg d) (sh.dbg d')⟩, src, rfl, h, h'⟩

theorem tells_some (sh : Shown) (x y k : Str) (d d' : Dbg) :
    Tells sh (.context "failed to merge key `{}` between {} and {}".toList [k] [d, d'] (some (mixErr x y))) x y (some k) :=
  tells_key sh x y k d d' _ (fill_key k) (display_mix sh x y) rfl

/-! ### which setting it is -/

/-- The setting is the first that the two configs write differently, and the error tells so. -/
structure FirstClash (a b : Config) (src : Err) (p : Spot) (x y : Str) : Prop where
  near : p.shapeIn a = some x
  far : p.shapeIn b = some y
  ne : x ≠ y
  first : ∀ q : Spot, q.Before p → ∀ x' y', q.shapeIn a = some x' → q.shapeIn b = some y' → x' = y'
  tells : ∀ sh, Tells sh src x y p.entry

theorem mergeTarget_err {a b : TargetConfig} {f : Bool} {e : Err} (h : mergeTarget a b f = .err e) :
    (∃ x y, a.runner.map (fun l => l.repr.asStr) = some x ∧ b.runner.map (fun l => l.repr.asStr) = some y ∧ x ≠ y ∧ e = mixErr x y) ∨
    (∃ r, mergeOpt mergePathAndArgs a.runner b.runner f = .ok r) ∧
    ((∃ x y, a.rustflags.map (fun l => l.repr.asStr) = some x ∧ b.rustflags.map (fun l => l.repr.asStr) = some y ∧ x ≠ y ∧
        e = mixErr x y) ∨
      (∃ r, mergeOpt mergeFlags a.rustflags b.rustflags f = .ok r) ∧
      ∃ x y, a.rustdocflags.map (fun l => l.repr.asStr) = some x ∧ b.rustdocflags.map (fun l => l.repr.asStr) = some y ∧ x ≠ y ∧
        e = mixErr x y) := by
  unfold mergeTarget at h
  rw [mergeOpt_scalar_eq, Res.ok_bind] at h
  rcases Res.bind_eq_err.1 h with h | ⟨r1, h1, h⟩
  · exact .inl (shaped_prog.opt_err h)
  · refine .inr ⟨⟨r1, h1⟩, ?_⟩
    rcases Res.bind_eq_err.1 h with h | ⟨r2, h2, h⟩
    · exact .inl (shaped_flags.opt_err h)
    · refine .inr ⟨⟨r2, h2⟩, ?_⟩
      rcases Res.bind_eq_err.1 h with h | ⟨r3, h3, h⟩
      · exact shaped_flags.opt_err h
      · cases h

theorem Res.bind_bind {α β γ : Type} (x : Res α) (g : α → Res β) (k : β → Res γ) : ((x >>= g) >>= k) = x >>= fun a => g a >>= k := by
  cases x <;> rfl

theorem mergeConfig_err {a b : Config} {f : Bool} {e : Err} (hb : b.Maps) (h : mergeConfig a b f = .err e) :
    ∃ p x y, FirstClash a b e p x y := by
  unfold mergeConfig mergeBuild mergeDoc mergeFutureIncompatReport mergeCargoNew mergeHttp mergeNet mergeRegistry mergeTerm
    mergeTermProgress at h
  simp only [mergeOpt_scalar_eq, Res.ok_bind, Res.bind_bind] at h
  have clashAlias : ∀ l, mergeMap (clash StringList.dbg) mergeStringList a.alias b.alias f = .ok l → ∀ k x y,
      (Spot.alias k).shapeIn a = some x → (Spot.alias k).shapeIn b = some y → x = y := fun l hl k =>
    (shaped_stringList.opt_ok ((mergeMap_ok hb.alias hl).1 k)).2
  have clashEnv : ∀ l, mergeMap (clash EnvConfigValue.dbg) mergeEnvConfigValue a.env b.env f = .ok l → ∀ k x y,
      (Spot.env k).shapeIn a = some x → (Spot.env k).shapeIn b = some y → x = y := fun l hl k =>
    (shaped_env.opt_ok ((mergeMap_ok hb.env hl).1 k)).2
  rcases Res.bind_eq_err.1 h with h | ⟨l0, h0, h⟩
  · obtain ⟨k, x, y, src, h1, h2, h3, rfl, h5⟩ := mergeMap_err hb.alias h
    rcases shaped_stringList x y f with ⟨⟨r, h6, _⟩, _⟩ | ⟨h6, hne⟩
    · rw [h6] at h3; cases h3
    · rw [h6] at h3
      cases h3
      refine ⟨.alias k, _, _, by rw [Spot.shapeIn, h1]; rfl, by rw [Spot.shapeIn, h2]; rfl, hne, fun q hq => ?_, fun sh => tells_some ..⟩
      cases q <;> simp [Spot.Before, Spot.section, Spot.entry, Spot.field, strLt] at hq
      rename_i k'
      obtain ⟨r, hr⟩ := h5 k' hq
      exact (shaped_stringList.opt_ok hr).2
  rcases Res.bind_eq_err.1 h with h | ⟨l1, h1, h⟩
  · obtain ⟨x, y, e1, e2, hne, rfl⟩ := shaped_stringOrArray.opt_err h
    refine ⟨.buildTarget, x, y, e1, e2, hne, fun q hq => ?_, fun sh => tells_none ..⟩
    cases q <;> simp [Spot.Before, Spot.section, Spot.entry, Spot.field, strLt] at hq
    exact clashAlias _ h0 _
  rcases Res.bind_eq_err.1 h with h | ⟨l2, h2, h⟩
  · obtain ⟨x, y, e1, e2, hne, rfl⟩ := shaped_flags.opt_err h
    refine ⟨.buildRustflags, x, y, e1, e2, hne, fun q hq => ?_, fun sh => tells_none ..⟩
    cases q <;> simp [Spot.Before, Spot.section, Spot.entry, Spot.field, strLt] at hq
    · exact clashAlias _ h0 _
    · exact (shaped_stringOrArray.opt_ok h1).2
  rcases Res.bind_eq_err.1 h with h | ⟨l3, h3, h⟩
  · obtain ⟨x, y, e1, e2, hne, rfl⟩ := shaped_flags.opt_err h
    refine ⟨.buildRustdocflags, x, y, e1, e2, hne, fun q hq => ?_, fun sh => tells_none ..⟩
    cases q <;> simp [Spot.Before, Spot.section, Spot.entry, Spot.field, strLt] at hq
    · exact clashAlias _ h0 _
    · exact (shaped_stringOrArray.opt_ok h1).2
    · exact (shaped_flags.opt_ok h2).2
  rcases Res.bind_eq_err.1 h with h | ⟨l4, h4, h⟩
  · obtain ⟨x, y, e1, e2, hne, rfl⟩ := shaped_prog.opt_err h
    refine ⟨.docBrowser, x, y, e1, e2, hne, fun q hq => ?_, fun sh => tells_none ..⟩
    cases q <;> simp [Spot.Before, Spot.section, Spot.entry, Spot.field, strLt] at hq
    · exact clashAlias _ h0 _
    · exact (shaped_stringOrArray.opt_ok h1).2
    · exact (shaped_flags.opt_ok h2).2
    · exact (shaped_flags.opt_ok h3).2
  rcases Res.bind_eq_err.1 h with h | ⟨l5, h5, h⟩
  · obtain ⟨k, x, y, src, g1, g2, g3, rfl, g5⟩ := mergeMap_err hb.env h
    rcases shaped_env x y f with ⟨⟨r, h6, _⟩, _⟩ | ⟨h6, hne⟩
    · rw [h6] at g3; cases g3
    · rw [h6] at g3
      cases g3
      refine ⟨.env k, _, _, by rw [Spot.shapeIn, g1]; rfl, by rw [Spot.shapeIn, g2]; rfl, hne, fun q hq => ?_, fun sh => tells_some ..⟩
      cases q <;> simp [Spot.Before, Spot.section, Spot.entry, Spot.field, strLt] at hq
      · exact clashAlias _ h0 _
      · exact (shaped_stringOrArray.opt_ok h1).2
      · exact (shaped_flags.opt_ok h2).2
      · exact (shaped_flags.opt_ok h3).2
      · exact (shaped_prog.opt_ok h4).2
      · rename_i k'
        obtain ⟨r, hr⟩ := g5 k' hq
        exact (shaped_env.opt_ok hr).2
  rcases Res.bind_eq_err.1 h with h | ⟨l6, h6, h⟩
  · obtain ⟨r, hr⟩ := mergeMap_total (dbg := clash RegistriesConfigValue.dbg) (m := mergeRegistries) (f := f) (self := a.registries)
      hb.registries (fun k => mergeOpt_ok fun x y _ _ =>
        ⟨⟨_, _, _⟩, mergeRegistries_ok_iff.2 ⟨mergeOpt_scalar_eq _ _ _, mergeOpt_scalar_eq _ _ _, mergeOpt_scalar_eq _ _ _⟩⟩)
    rw [hr] at h; cases h
  rcases Res.bind_eq_err.1 h with h | ⟨l7, h7, h⟩
  · obtain ⟨k, x, y, src, g1, g2, g3, rfl, g5⟩ := mergeMap_err hb.target h
    have early : ∀ q : Spot, q.section < 6 → ∀ x' y', q.shapeIn a = some x' → q.shapeIn b = some y' → x' = y' := by
      intro q hq
      cases q <;> simp [Spot.section] at hq
      · exact clashAlias _ h0 _
      · exact (shaped_stringOrArray.opt_ok h1).2
      · exact (shaped_flags.opt_ok h2).2
      · exact (shaped_flags.opt_ok h3).2
      · exact (shaped_prog.opt_ok h4).2
      · exact clashEnv _ h5 _
    have earlier : ∀ q : Spot, q.section = 6 → ∀ k', q.entry = some k' → strLt k' k = true →
        ∀ x' y', q.shapeIn a = some x' → q.shapeIn b = some y' → x' = y' := by
      intro q hq k' hk' hlt
      obtain ⟨r, hr⟩ := g5 k' hlt
      cases q <;> simp [Spot.section] at hq <;> cases hk'
      · exact (shaped_prog.opt_ok (mergeOpt_bind (fun x y z h => (mergeTarget_ok_iff.1 h).2.1) hr)).2
      · exact (shaped_flags.opt_ok (mergeOpt_bind (fun x y z h => (mergeTarget_ok_iff.1 h).2.2.1) hr)).2
      · exact (shaped_flags.opt_ok (mergeOpt_bind (fun x y z h => (mergeTarget_ok_iff.1 h).2.2.2) hr)).2
    rcases mergeTarget_err g3 with ⟨x', y', e1, e2, hne, rfl⟩ | ⟨⟨r1, i1⟩, ⟨x', y', e1, e2, hne, rfl⟩ | ⟨⟨r2, i2⟩, x', y', e1, e2, hne, rfl⟩⟩
    · refine ⟨.targetRunner k, x', y', by rw [Spot.shapeIn, g1]; exact e1, by rw [Spot.shapeIn, g2]; exact e2, hne, fun q hq => ?_,
        fun sh => tells_some ..⟩
      rcases hq with hq | ⟨hq, hq' | ⟨hq', hq''⟩⟩
      · exact early q hq
      · cases q <;> simp [Spot.section] at hq <;> exact earlier _ rfl _ rfl hq'
      · simp [Spot.field] at hq''
    · refine ⟨.targetRustflags k, x', y', by rw [Spot.shapeIn, g1]; exact e1, by rw [Spot.shapeIn, g2]; exact e2, hne, fun q hq => ?_,
        fun sh => tells_some ..⟩
      rcases hq with hq | ⟨hq, hq' | ⟨hq', hq''⟩⟩
      · exact early q hq
      · cases q <;> simp [Spot.section] at hq <;> exact earlier _ rfl _ rfl hq'
      · cases q <;> simp [Spot.section] at hq <;> simp [Spot.field] at hq''
        cases hq'
        simp only [Spot.shapeIn, g1, g2, Option.bind_some]
        exact (shaped_prog.opt_ok i1).2
    · refine ⟨.targetRustdocflags k, x', y', by rw [Spot.shapeIn, g1]; exact e1, by rw [Spot.shapeIn, g2]; exact e2, hne, fun q hq => ?_,
        fun sh => tells_some ..⟩
      rcases hq with hq | ⟨hq, hq' | ⟨hq', hq''⟩⟩
      · exact early q hq
      · cases q <;> simp [Spot.section] at hq <;> exact earlier _ rfl _ rfl hq'
      · cases q <;> simp [Spot.section] at hq <;> simp [Spot.field] at hq''
        · cases hq'
          simp only [Spot.shapeIn, g1, g2, Option.bind_some]
          exact (shaped_prog.opt_ok i1).2
        · cases hq'
          simp only [Spot.shapeIn, g1, g2, Option.bind_some]
          exact (shaped_flags.opt_ok i2).2
  · cases h

/-! ### from configs to documents -/

theorem tomlList_shape {split : Bool} {t : Toml} {r : Repr'} {ws : List Str} (h : TomlList split t r ws) : t.shape = r.asStr := by
  cases h <;> rfl

theorem shape_of_spells {V : Type} {split : Bool} {x : Option Toml} {o : Option V} {g : V → Repr' × List (Val Str)}
    (h : SpellsAt split x (o.map g)) : (o.map fun v => (g v).1.asStr) = x.map Toml.shape := by
  unfold SpellsAt at h
  cases o with
  | none => cases h; rfl
  | some v =>
    cases h with
    | some h => exact congrArg some (tomlList_shape h).symm

/-- How an entry of `[env]` is written. -/
theorem env_kind {t : Toml} {c : Config} (h : Config.de t = .ok c) (hd : t.DistinctKeys) (k : Str) :
    (c.env.get k).map EnvConfigValue.kind = (t.at ["env".toList, k]).map Toml.shape := by
  have h1 := envShape_read h hd k
  have hc := (C62_accepted_iff _ hd).1 ⟨_, h⟩
  unfold envShape at h1
  cases hu : t.at ["env".toList, k] with
  | none =>
    rw [hu] at h1
    cases he : c.env.get k with
    | none => rfl
    | some v => rw [he] at h1; cases h1
  | some u =>
    rw [hu] at h1
    cases he : c.env.get k with
    | none => rw [he] at h1; cases h1
    | some v =>
      rw [he] at h1
      rcases hc.env k u hu with ⟨s, rfl⟩ | ⟨w, hw⟩
      · cases v with
        | value => rfl
        | table => cases h1
      · have e : t.at ["env".toList, k, "value".toList] = (t.at ["env".toList, k]).bind fun u => u.at ["value".toList] := by
          generalize "env".toList = e1
          generalize "value".toList = e2
          cases t with
          | tbl l =>
            simp only [Toml.at]
            cases BMap.get l e1 with
            | none => rfl
            | some z => cases z with
              | tbl l' => simp only [Toml.at, Option.bind_some]; cases BMap.get l' k <;> rfl
              | _ => rfl
          | _ => rfl
        rw [hu, Option.bind_some] at e
        rw [e] at hw
        cases u with
        | tbl l =>
          cases v with
          | value => cases h1
          | table => rfl
        | _ => cases hw

theorem shape_read {t : Toml} {c : Config} (h : Config.de t = .ok c) (hd : t.DistinctKeys) (p : Spot) :
    p.shapeIn c = (t.at p.path).map Toml.shape := by
  cases p with
  | alias k => exact shape_of_spells (list_read h hd (.alias k))
  | buildTarget =>
    have := list_read h hd .buildTarget
    rw [listKey_buildTarget] at this
    rw [Spot.path, ← ListKey.path, ← shape_of_spells this]
    have e : StringOrArray.kind = fun v => (StringOrArray.pair v).1.asStr := by funext v; cases v <;> rfl
    rw [Spot.shapeIn, e]
  | buildRustflags => exact shape_of_spells (list_read h hd .buildRustflags)
  | buildRustdocflags => exact shape_of_spells (list_read h hd .buildRustdocflags)
  | docBrowser => exact shape_of_spells (prog_read h hd .docBrowser)
  | env k => exact env_kind h hd k
  | targetRunner k => exact shape_of_spells (prog_read h hd (.targetRunner k))
  | targetRustflags k => exact shape_of_spells (list_read h hd (.targetRustflags k))
  | targetRustdocflags k => exact shape_of_spells (list_read h hd (.targetRustdocflags k))

theorem shape_setPath (f : Path) (c : Config) (p : Spot) : p.shapeIn (c.setPath f) = p.shapeIn c := by
  cases p with
  | alias k => simp only [Spot.shapeIn, Config.setPath, BMap.get_mapVals]; cases c.alias.get k <;> rfl
  | buildTarget =>
    simp only [Spot.shapeIn, Config.setPath, BuildConfig.setPath]
    cases c.build.target with
    | none => rfl
    | some x => cases x <;> rfl
  | buildRustflags => simp only [Spot.shapeIn, Config.setPath, BuildConfig.setPath]; cases c.build.rustflags <;> rfl
  | buildRustdocflags => simp only [Spot.shapeIn, Config.setPath, BuildConfig.setPath]; cases c.build.rustdocflags <;> rfl
  | docBrowser => simp only [Spot.shapeIn, Config.setPath]; cases c.doc.browser <;> rfl
  | env k =>
    simp only [Spot.shapeIn, Config.setPath, BMap.get_mapVals]
    cases c.env.get k with
    | none => rfl
    | some x => cases x <;> rfl
  | targetRunner k =>
    simp only [Spot.shapeIn, Config.setPath, BMap.get_mapVals]
    cases c.target.get k with
    | none => rfl
    | some x => simp only [Option.map_some, Option.bind_some, TargetConfig.setPath]; cases x.runner <;> rfl
  | targetRustflags k =>
    simp only [Spot.shapeIn, Config.setPath, BMap.get_mapVals]
    cases c.target.get k with
    | none => rfl
    | some x => simp only [Option.map_some, Option.bind_some, TargetConfig.setPath]; cases x.rustflags <;> rfl
  | targetRustdocflags k =>
    simp only [Spot.shapeIn, Config.setPath, BMap.get_mapVals]
    cases c.target.get k with
    | none => rfl
    | some x => simp only [Option.map_some, Option.bind_some, TargetConfig.setPath]; cases x.rustdocflags <;> rfl

theorem shape_merged {a b r : Config} {f : Bool} (h : MergedFields a b r f) (p : Spot) :
    p.shapeIn r = (p.shapeIn a).or (p.shapeIn b) ∧ ∀ x y, p.shapeIn a = some x → p.shapeIn b = some y → x = y := by
  obtain ⟨-, -, -, -, -, h6, -, h8, h9, -, -, -, -⟩ := mergeBuild_ok_iff.1 h.build
  cases p with
  | alias k => exact shaped_stringList.opt_ok (h.alias k)
  | buildTarget => exact shaped_stringOrArray.opt_ok h6
  | buildRustflags => exact shaped_flags.opt_ok h8
  | buildRustdocflags => exact shaped_flags.opt_ok h9
  | docBrowser => exact shaped_prog.opt_ok (mergeDoc_ok_iff.1 h.doc)
  | env k => exact shaped_env.opt_ok (h.env k)
  | targetRunner k => exact shaped_prog.opt_ok (mergeOpt_bind (fun x y z h => (mergeTarget_ok_iff.1 h).2.1) (h.target k))
  | targetRustflags k => exact shaped_flags.opt_ok (mergeOpt_bind (fun x y z h => (mergeTarget_ok_iff.1 h).2.2.1) (h.target k))
  | targetRustdocflags k => exact shaped_flags.opt_ok (mergeOpt_bind (fun x y z h => (mergeTarget_ok_iff.1 h).2.2.2) (h.target k))

theorem shape_all {b r : Config} {cs : List Config} (h : mergeAll b cs = .ok r) (hb : b.WF) (hcs : ∀ c ∈ cs, c.WF) (p : Spot) (x : Str) :
    p.shapeIn r = some x ↔ ∃ c ∈ b :: cs, p.shapeIn c = some x := by
  induction cs generalizing b with
  | nil => cases h; simp
  | cons c cs ih =>
    obtain ⟨m, h1, h2, h3⟩ := mergeAll_cons_ok h hb (hcs _ (by simp))
    rw [ih h3 h2 fun c hc => hcs c (by simp [hc])]
    have hs := shape_merged h1 p
    have key : p.shapeIn m = some x ↔ p.shapeIn b = some x ∨ p.shapeIn c = some x := by
      rw [hs.1]
      cases hb' : p.shapeIn b with
      | none => simp
      | some z =>
        simp only [Option.some_or]
        refine ⟨.inl, ?_⟩
        rintro (h | h)
        · exact h
        · rw [hs.2 z x hb' h]
    constructor
    · rintro ⟨d, hd, hx⟩
      rcases List.mem_cons.1 hd with rfl | hd
      · rcases key.1 hx with hx | hx
        · exact ⟨b, by simp, hx⟩
        · exact ⟨c, by simp, hx⟩
      · exact ⟨d, by simp [hd], hx⟩
    · rintro ⟨d, hd, hx⟩
      rcases List.mem_cons.1 hd with rfl | hd
      · exact ⟨m, by simp, key.2 (.inl hx)⟩
      · rcases List.mem_cons.1 hd with rfl | hd
        · exact ⟨m, by simp, key.2 (.inr hx)⟩
        · exact ⟨d, by simp [hd], hx⟩

end CC
