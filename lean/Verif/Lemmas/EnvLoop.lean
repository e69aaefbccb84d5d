import Verif.Model.Env
import Verif.Spec.Env
import Verif.Lemmas.Merge
import Verif.Lemmas.Str
/-
Helper lemmas for the loop of `Config::apply_env` over all variables.
-/
namespace CC

/-- Names of the variables the loop looks for. -/
def aliasVar (k : Str) : Str := "CARGO_ALIAS_".toList ++ k
def indexVar (k : Str) : Str := "CARGO_REGISTRIES_".toList ++ k ++ "_INDEX".toList
def tokenVar (k : Str) : Str := "CARGO_REGISTRIES_".toList ++ k ++ "_TOKEN".toList
def protoVar : Str := "CARGO_REGISTRIES_CRATES_IO_PROTOCOL".toList

theorem aliasVar_inj {k k' : Str} : aliasVar k = aliasVar k' ↔ k = k' :=
  ⟨fun h => List.append_cancel_left h, fun h => by rw [h]⟩
theorem indexVar_inj {k k' : Str} : indexVar k = indexVar k' ↔ k = k' :=
  ⟨fun h => List.append_cancel_left (List.append_cancel_right h), fun h => by rw [h]⟩
theorem tokenVar_inj {k k' : Str} : tokenVar k = tokenVar k' ↔ k = k' :=
  ⟨fun h => List.append_cancel_left (List.append_cancel_right h), fun h => by rw [h]⟩

theorem alias_ne_registries {k r : Str} (h : aliasVar k = "CARGO_REGISTRIES_".toList ++ r) : False := by
  unfold aliasVar at h
  have := congrArg (fun l => l[6]?) h
  exact absurd this (by simp)
theorem protoVar_eq : protoVar = "CARGO_REGISTRIES_".toList ++ "CRATES_IO_PROTOCOL".toList := by decide
theorem indexVar_eq (k : Str) : indexVar k = "CARGO_REGISTRIES_".toList ++ (k ++ "_INDEX".toList) :=
  List.append_assoc _ _ _
theorem tokenVar_eq (k : Str) : tokenVar k = "CARGO_REGISTRIES_".toList ++ (k ++ "_TOKEN".toList) :=
  List.append_assoc _ _ _
theorem alias_ne_index (k k' : Str) : aliasVar k ≠ indexVar k' := fun h => alias_ne_registries (h.trans (indexVar_eq k'))
theorem alias_ne_token (k k' : Str) : aliasVar k ≠ tokenVar k' := fun h => alias_ne_registries (h.trans (tokenVar_eq k'))
theorem alias_ne_proto (k : Str) : aliasVar k ≠ protoVar := fun h => alias_ne_registries (h.trans protoVar_eq)
theorem index_ne_token (k k' : Str) : indexVar k ≠ tokenVar k' := by
  intro h
  have := (List.append_inj' h (by decide)).2
  revert this; decide
theorem index_ne_proto (k : Str) : indexVar k ≠ protoVar := fun h => by
  have h := (indexVar_eq k).symm.trans (h.trans protoVar_eq)
  have h2 := stripSuffix_eq_some.2 (List.append_cancel_left h).symm
  have h3 : stripSuffix "_INDEX".toList "CRATES_IO_PROTOCOL".toList = none := by decide
  exact absurd (h3.symm.trans h2) (by simp only [reduceCtorEq, not_false_eq_true])
theorem token_ne_proto (k : Str) : tokenVar k ≠ protoVar := fun h => by
  have h := (tokenVar_eq k).symm.trans (h.trans protoVar_eq)
  have h2 := stripSuffix_eq_some.2 (List.append_cancel_left h).symm
  have h3 : stripSuffix "_TOKEN".toList "CRATES_IO_PROTOCOL".toList = none := by decide
  exact absurd (h3.symm.trans h2) (by simp only [reduceCtorEq, not_false_eq_true])

/-- What one round of the loop does, by the kind of variable. -/
inductive Round (n : Str) : (Config → OsStr → Res Config) → Prop
  | alias (k : Str) (h : n = aliasVar k) : Round n fun c v =>
    match v.toStr? with
    | some s => .ok { c with alias := c.alias.insert k (StringList.fromString s (some (.environment n))) }
    | none => .err (.envNotUnicode n v)
  | index (k : Str) (h : n = indexVar k) : Round n fun c v =>
    match v.toStr? with
    | some s => .ok { c with
        registries := updRegistry k (fun x => { x with index := some ⟨s, some (.environment n)⟩ }) c.registries }
    | none => .err (.envNotUnicode n v)
  | token (k : Str) (h : n = tokenVar k) : Round n fun c v =>
    match v.toStr? with
    | some s => .ok { c with
        registries := updRegistry k (fun x => { x with token := some ⟨s, some (.environment n)⟩ }) c.registries }
    | none => .err (.envNotUnicodeRedacted n)
  | proto (h : n = protoVar) : Round n fun c v =>
    match v.toStr? with
    | some s =>
      Val.parse Protocol.fromStr ⟨s, some (.environment n)⟩ >>= fun p => .ok { c with
        registries := updRegistry "crates-io".toList (fun x => { x with protocol := some p }) c.registries }
    | none => .err (.envNotUnicode n v)
  | other (ha : ∀ k, n ≠ aliasVar k) (hi : ∀ k, n ≠ indexVar k) (ht : ∀ k, n ≠ tokenVar k) (hp : n ≠ protoVar) :
    Round n fun c _ => .ok c

theorem applyVar_round (n : Str) : Round n fun c v => c.applyVar n v := by
  unfold Config.applyVar
  cases h1 : stripPrefix "CARGO_ALIAS_".toList n with
  | some k => exact Round.alias k (stripPrefix_eq_some.1 h1)
  | none =>
    have ha : ∀ k, n ≠ aliasVar k := by
      intro k hk
      have := stripPrefix_eq_some.2 hk
      rw [h1] at this; cases this
    cases h2 : stripPrefix "CARGO_REGISTRIES_".toList n with
    | none =>
      have hr : ∀ r, n ≠ "CARGO_REGISTRIES_".toList ++ r := by
        intro r hk
        have := stripPrefix_eq_some.2 hk
        rw [h2] at this; cases this
      refine Round.other ha (fun k => ?_) (fun k => ?_) ?_
      · intro h; exact hr _ (h.trans (indexVar_eq k))
      · intro h; exact hr _ (h.trans (tokenVar_eq k))
      · intro h; exact hr _ (h.trans protoVar_eq)
    | some r =>
      dsimp only
      have hn := stripPrefix_eq_some.1 h2
      have e : ∀ a b : Str, n = "CARGO_REGISTRIES_".toList ++ a ++ b ↔ r = a ++ b := by
        intro a b
        rw [hn, List.append_assoc]
        exact ⟨fun h => List.append_cancel_left h, fun h => by rw [h]⟩
      cases h3 : stripSuffix "_INDEX".toList r with
      | some k => exact Round.index k ((e _ _).2 (stripSuffix_eq_some.1 h3))
      | none =>
        have hi : ∀ k, n ≠ indexVar k := by
          intro k hk
          have := stripSuffix_eq_some.2 ((e _ _).1 hk)
          rw [h3] at this; cases this
        cases h4 : stripSuffix "_TOKEN".toList r with
        | some k => exact Round.token k ((e _ _).2 (stripSuffix_eq_some.1 h4))
        | none =>
          have ht : ∀ k, n ≠ tokenVar k := by
            intro k hk
            have := stripSuffix_eq_some.2 ((e _ _).1 hk)
            rw [h4] at this; cases this
          by_cases h5 : r = "CRATES_IO_PROTOCOL".toList
          · simp only [h5, if_true]
            exact Round.proto (by rw [hn, h5, protoVar_eq])
          · simp only [h5, if_false]
            refine Round.other ha hi ht ?_
            intro hp
            rw [hn, protoVar_eq] at hp
            exact h5 (List.append_cancel_left hp)

theorem get_updRegistry (k k' : Str) (upd : RegistriesConfigValue → RegistriesConfigValue)
    (m : BMap RegistriesConfigValue) :
    BMap.get (updRegistry k upd m) k' = if k = k' then some (upd ((m.get k).getD {})) else m.get k' := by
  unfold updRegistry
  cases h : BMap.get m k <;> simp [BMap.get_insert, eq_comm]

theorem sorted_updRegistry {k : Str} {upd : RegistriesConfigValue → RegistriesConfigValue}
    {m : BMap RegistriesConfigValue} (h : m.Sorted) : (updRegistry k upd m).Sorted := by
  unfold updRegistry
  cases BMap.get m k <;> exact h.insert _ _

/-- The variable is well-formed for the loop. -/
def LoopFine (n : Str) (v : OsStr) : Prop :=
  (∀ k, (n = aliasVar k ∨ n = indexVar k ∨ n = tokenVar k) → ∃ s, v = .unicode s) ∧
  (n = protoVar → ∃ s p, v = .unicode s ∧ Protocol.fromStr s = .ok p)

/-- The view of a config that the loop acts on. -/
structure LoopView where
  alias : Str → Option StringList
  index : Str → Option (Val Str)
  token : Str → Option (Val Str)
  protocol : Str → Option (Val Protocol)
  present : Str → Bool

/-- The loop's part of a config. -/
def loopView (c : Config) : LoopView where
  alias k := c.alias.get k
  index k := (c.registries.get k).bind (·.index)
  token k := (c.registries.get k).bind (·.token)
  protocol k := (c.registries.get k).bind (·.protocol)
  present k := (c.registries.get k).isSome

/-- The effect of one variable on the loop's part. -/
def LoopView.set (w : LoopView) (n : Str) (v : OsStr) : LoopView where
  alias k := if n = aliasVar k then v.toStr?.map fun s => StringList.fromString s (some (.environment n)) else w.alias k
  index k := if n = indexVar k then v.toStr?.map fun s => ⟨s, some (.environment n)⟩ else w.index k
  token k := if n = tokenVar k then v.toStr?.map fun s => ⟨s, some (.environment n)⟩ else w.token k
  protocol k := if n = protoVar ∧ k = "crates-io".toList then
      v.toStr?.bind fun s => (Protocol.fromStr s).toOption.map fun p => ⟨p, some (.environment n)⟩ else w.protocol k
  present k := w.present k || decide (n = indexVar k) || decide (n = tokenVar k) ||
      decide (n = protoVar ∧ k = "crates-io".toList)

theorem LoopView.ext' {a b : LoopView} (h1 : ∀ k, a.alias k = b.alias k) (h2 : ∀ k, a.index k = b.index k)
    (h3 : ∀ k, a.token k = b.token k) (h4 : ∀ k, a.protocol k = b.protocol k) (h5 : ∀ k, a.present k = b.present k) :
    a = b := by
  cases a; cases b
  simp only at h1 h2 h3 h4 h5
  simp [funext h1, funext h2, funext h3, funext h4, funext h5]

theorem Protocol.fromStr_ne_panic (s : Str) : Protocol.fromStr s ≠ .panic := by
  unfold Protocol.fromStr
  split <;> (try split) <;> simp

theorem applyVar_ne_panic (c : Config) (n : Str) (v : OsStr) : c.applyVar n v ≠ .panic := by
  have h := applyVar_round n
  generalize hf : (fun (c : Config) (v : OsStr) => c.applyVar n v) = f at h
  have : c.applyVar n v = f c v := by rw [← hf]
  rw [this]
  cases h with
  | proto h =>
    cases v with
    | invalid => simp [OsStr.toStr?]
    | unicode s =>
      simp only [OsStr.toStr?, Val.parse]
      cases hp : Protocol.fromStr s with
      | ok p => simp
      | err p => simp
      | panic => exact absurd hp (Protocol.fromStr_ne_panic s)
  | other => simp
  | _ => cases v <;> simp [OsStr.toStr?]

theorem applyVar_ok_iff (c : Config) (n : Str) (v : OsStr) : (∃ c', c.applyVar n v = .ok c') ↔ LoopFine n v := by
  have h := applyVar_round n
  generalize hf : (fun (c : Config) (v : OsStr) => c.applyVar n v) = f at h
  have : c.applyVar n v = f c v := by rw [← hf]
  rw [this]
  cases h with
  | other ha hi ht hp =>
    refine ⟨fun _ => ⟨fun k hk => ?_, fun h => absurd h hp⟩, fun _ => ⟨_, rfl⟩⟩
    rcases hk with h | h | h
    · exact absurd h (ha k)
    · exact absurd h (hi k)
    · exact absurd h (ht k)
  | alias k h =>
    cases v with
    | unicode s =>
      refine ⟨fun _ => ⟨fun _ _ => ⟨_, rfl⟩, fun hp => ?_⟩, fun _ => ⟨_, rfl⟩⟩
      exact absurd (h.symm.trans hp) (alias_ne_proto k)
    | invalid b =>
      refine ⟨fun ⟨_, h⟩ => by simp [OsStr.toStr?] at h, fun hg => ?_⟩
      obtain ⟨s, hs⟩ := hg.1 k (Or.inl h); cases hs
  | index k h =>
    cases v with
    | unicode s =>
      refine ⟨fun _ => ⟨fun _ _ => ⟨_, rfl⟩, fun hp => ?_⟩, fun _ => ⟨_, rfl⟩⟩
      exact absurd (h.symm.trans hp) (index_ne_proto k)
    | invalid b =>
      refine ⟨fun ⟨_, h⟩ => by simp [OsStr.toStr?] at h, fun hg => ?_⟩
      obtain ⟨s, hs⟩ := hg.1 k (Or.inr (Or.inl h)); cases hs
  | token k h =>
    cases v with
    | unicode s =>
      refine ⟨fun _ => ⟨fun _ _ => ⟨_, rfl⟩, fun hp => ?_⟩, fun _ => ⟨_, rfl⟩⟩
      exact absurd (h.symm.trans hp) (token_ne_proto k)
    | invalid b =>
      refine ⟨fun ⟨_, h⟩ => by simp [OsStr.toStr?] at h, fun hg => ?_⟩
      obtain ⟨s, hs⟩ := hg.1 k (Or.inr (Or.inr h)); cases hs
  | proto h =>
    cases v with
    | unicode s =>
      simp only [OsStr.toStr?, Val.parse]
      constructor
      · rintro ⟨c', h'⟩
        refine ⟨fun _ _ => ⟨_, rfl⟩, fun _ => ?_⟩
        cases hp : Protocol.fromStr s with
        | ok p => exact ⟨s, p, rfl, hp⟩
        | err p => rw [hp] at h'; simp at h'
        | panic => rw [hp] at h'; simp at h'
      · intro hg
        obtain ⟨s', p, hs, hp⟩ := hg.2 h
        cases hs
        rw [hp]; exact ⟨_, rfl⟩
    | invalid b =>
      refine ⟨fun ⟨_, h⟩ => by simp [OsStr.toStr?] at h, fun hg => ?_⟩
      obtain ⟨s, p, hs, -⟩ := hg.2 h; cases hs

attribute [local irreducible] aliasVar indexVar tokenVar protoVar

theorem applyVar_frame {c c' : Config} {n : Str} {v : OsStr} (hok : c.applyVar n v = .ok c') :
    c' = { c with alias := c'.alias, registries := c'.registries } ∧
    (c.alias.Sorted → c'.alias.Sorted) ∧ (c.registries.Sorted → c'.registries.Sorted) ∧
    loopView c' = (loopView c).set n v := by
  have h := applyVar_round n
  generalize hf : (fun (c : Config) (v : OsStr) => c.applyVar n v) = f at h
  have : c.applyVar n v = f c v := by rw [← hf]
  rw [this] at hok
  cases h with
  | other ha hi ht hp =>
    cases hok
    refine ⟨rfl, id, id, ?_⟩
    refine LoopView.ext' ?_ ?_ ?_ ?_ ?_ <;> intro k <;> simp [LoopView.set, ha, hi, ht, hp]
  | alias k h =>
    cases v with
    | invalid b => simp [OsStr.toStr?] at hok
    | unicode s =>
      cases hok
      refine ⟨rfl, fun h => h.insert _ _, id, ?_⟩
      subst h
      refine LoopView.ext' ?_ ?_ ?_ ?_ ?_ <;> intro k' <;>
        simp only [LoopView.set, loopView, alias_ne_index, alias_ne_token, alias_ne_proto, aliasVar_inj,
          BMap.get_insert, OsStr.toStr?, if_false, false_and, Option.map_some, decide_false, Bool.or_false,
          eq_comm (a := k')]
  | index k h =>
    cases v with
    | invalid b => simp [OsStr.toStr?] at hok
    | unicode s =>
      cases hok
      refine ⟨rfl, id, sorted_updRegistry, ?_⟩
      subst h
      refine LoopView.ext' ?_ ?_ ?_ ?_ ?_ <;> intro k' <;>
        simp only [LoopView.set, loopView, (alias_ne_index _ _).symm, index_ne_token, index_ne_proto, indexVar_inj,
          get_updRegistry, OsStr.toStr?, if_false, false_and, Option.map_some, decide_false, Bool.or_false]
      · split <;> rfl
      · split
        · rename_i h; subst h; cases BMap.get c.registries k <;> rfl
        · rfl
      · split
        · rename_i h; subst h; cases BMap.get c.registries k <;> rfl
        · rfl
      · split
        · rename_i h; subst h; simp
        · rename_i h; simp [h]
  | token k h =>
    cases v with
    | invalid b => simp [OsStr.toStr?] at hok
    | unicode s =>
      cases hok
      refine ⟨rfl, id, sorted_updRegistry, ?_⟩
      subst h
      refine LoopView.ext' ?_ ?_ ?_ ?_ ?_ <;> intro k' <;>
        simp only [LoopView.set, loopView, (alias_ne_token _ _).symm, (index_ne_token _ _).symm, token_ne_proto, tokenVar_inj,
          get_updRegistry, OsStr.toStr?, if_false, false_and, Option.map_some, decide_false, Bool.or_false]
      · split
        · rename_i h; subst h; cases BMap.get c.registries k <;> rfl
        · rfl
      · split <;> rfl
      · split
        · rename_i h; subst h; cases BMap.get c.registries k <;> rfl
        · rfl
      · split
        · rename_i h; subst h; simp
        · rename_i h; simp [h]
  | proto h =>
    cases v with
    | invalid b => simp [OsStr.toStr?] at hok
    | unicode s =>
      simp only [OsStr.toStr?, Val.parse] at hok
      cases hp : Protocol.fromStr s with
      | err e => rw [hp] at hok; simp at hok
      | panic => rw [hp] at hok; simp at hok
      | ok p =>
        rw [hp] at hok
        simp only [Res.ok_bind] at hok
        cases hok
        refine ⟨rfl, id, sorted_updRegistry, ?_⟩
        subst h
        refine LoopView.ext' ?_ ?_ ?_ ?_ ?_ <;> intro k' <;>
          simp only [LoopView.set, loopView, (alias_ne_proto _).symm, (index_ne_proto _).symm, (token_ne_proto _).symm,
            get_updRegistry, OsStr.toStr?, if_false, true_and, decide_false, Bool.or_false, hp, Option.bind_some,
            Res.toOption, Option.map_some, eq_comm (a := k')] <;>
          generalize "crates-io".toList = ci
        · split
          · rename_i h; subst h; cases BMap.get c.registries ci <;> rfl
          · rfl
        · split
          · rename_i h; subst h; cases BMap.get c.registries ci <;> rfl
          · rfl
        · split <;> rfl
        · split
          · rename_i h; simp [h]
          · rename_i h; simp [h]

end CC
