import Verif.Model.Merge
import Verif.Lemmas.BMap
/-
Lemmas on the elementary merge functions and on merging maps.
-/
namespace CC

namespace Res
variable {α β : Type}

theorem bind_eq_ok {x : Res α} {g : α → Res β} {r : β} :
    (x >>= g) = .ok r ↔ ∃ a, x = .ok a ∧ g a = .ok r := by
  cases x <;> simp

theorem bind_eq_err {x : Res α} {g : α → Res β} {e : Err} :
    (x >>= g) = .err e ↔ x = .err e ∨ ∃ a, x = .ok a ∧ g a = .err e := by
  cases x <;> simp

theorem bind_eq_panic {x : Res α} {g : α → Res β} :
    (x >>= g) = .panic ↔ x = .panic ∨ ∃ a, x = .ok a ∧ g a = .panic := by
  cases x <;> simp

theorem bind_ne_panic {x : Res α} {g : α → Res β} (hx : x ≠ .panic) (hg : ∀ a, x = .ok a → g a ≠ .panic) :
    (x >>= g) ≠ .panic := by
  cases x with
  | ok a => exact hg a rfl
  | err e => simp
  | panic => exact absurd rfl hx

theorem withContext_eq_ok {x : Res α} {m as ds} {r : α} : x.withContext m as ds = .ok r ↔ x = .ok r := by
  cases x <;> simp [withContext]

theorem withContext_eq_panic {x : Res α} {m as ds} : x.withContext m as ds = .panic ↔ x = .panic := by
  cases x <;> simp [withContext]

theorem withContext_isErr {x : Res α} {m as ds} : (x.withContext m as ds).isErr = x.isErr := by
  cases x <;> simp [withContext, isErr]

theorem exists_err_of_not {x : Res α} (h1 : x ≠ .panic) (h2 : ∀ a, x ≠ .ok a) : ∃ e, x = .err e := by
  cases x with
  | ok a => exact absurd rfl (h2 a)
  | err e => exact ⟨e, rfl⟩
  | panic => exact absurd rfl h1

end Res

/-- What every merge function satisfies: it does not panic, and it is associative (including whether it succeeds). -/
structure MergeLaw {α : Type} (m : Merger α) : Prop where
  noPanic : ∀ a b f, m a b f ≠ .panic
  assoc : ∀ f a b c r, (∃ ab, m a b f = .ok ab ∧ m ab c f = .ok r) ↔ (∃ bc, m b c f = .ok bc ∧ m a bc f = .ok r)

theorem scalarLaw {α : Type} : MergeLaw (mergeScalar (α := α)) where
  noPanic := by intro a b f; simp [mergeScalar]
  assoc := by
    intro f a b c r
    simp only [mergeScalar]
    cases f <;> simp

theorem mergeOpt_none_right {α : Type} (m : Merger α) (a : Option α) (f : Bool) : mergeOpt m a none f = .ok a := by
  cases a <;> rfl

theorem mergeOpt_none_left {α : Type} (m : Merger α) (b : Option α) (f : Bool) : mergeOpt m none b f = .ok b := by
  cases b <;> rfl

theorem mergeOpt_some {α : Type} (m : Merger α) (a b : α) (f : Bool) :
    mergeOpt m (some a) (some b) f = (m a b f) >>= fun r => .ok (some r) := rfl

theorem MergeLaw.opt {α : Type} {m : Merger α} (L : MergeLaw m) : MergeLaw (mergeOpt m) where
  noPanic := by
    intro a b f
    cases b with
    | none => rw [mergeOpt_none_right]; simp
    | some b =>
      cases a with
      | none => rw [mergeOpt_none_left]; simp
      | some a =>
        rw [mergeOpt_some]
        exact Res.bind_ne_panic (L.noPanic _ _ _) (by simp)
  assoc := by
    intro f a b c r
    cases a with
    | none =>
      simp only [mergeOpt_none_left]
      constructor
      · rintro ⟨ab, h1, h2⟩; cases h1; exact ⟨r, h2, rfl⟩
      · rintro ⟨bc, h1, h2⟩; cases h2; exact ⟨b, rfl, h1⟩
    | some a =>
      cases b with
      | none =>
        simp only [mergeOpt_none_left, mergeOpt_none_right]
        constructor
        · rintro ⟨ab, h1, h2⟩; cases h1; exact ⟨c, rfl, h2⟩
        · rintro ⟨bc, h1, h2⟩; cases h1; exact ⟨some a, rfl, h2⟩
      | some b =>
        cases c with
        | none =>
          simp only [mergeOpt_none_right]
          constructor
          · rintro ⟨ab, h1, h2⟩; cases h2; exact ⟨some b, rfl, h1⟩
          · rintro ⟨bc, h1, h2⟩; cases h1; exact ⟨r, h2, rfl⟩
        | some c =>
          simp only [mergeOpt_some, Res.bind_eq_ok]
          constructor
          · rintro ⟨ab, ⟨x, h1, h2⟩, h3⟩
            cases h2
            simp only [mergeOpt_some, Res.bind_eq_ok] at h3
            obtain ⟨y, h3, h4⟩ := h3
            obtain ⟨z, h5, h6⟩ := (L.assoc f a b c y).1 ⟨x, h1, h3⟩
            refine ⟨some z, ⟨z, h5, rfl⟩, ?_⟩
            simp only [mergeOpt_some, Res.bind_eq_ok]
            exact ⟨y, h6, h4⟩
          · rintro ⟨bc, ⟨x, h1, h2⟩, h3⟩
            cases h2
            simp only [mergeOpt_some, Res.bind_eq_ok] at h3
            obtain ⟨y, h3, h4⟩ := h3
            obtain ⟨z, h5, h6⟩ := (L.assoc f a b c y).2 ⟨x, h1, h3⟩
            refine ⟨some z, ⟨z, h5, rfl⟩, ?_⟩
            simp only [mergeOpt_some, Res.bind_eq_ok]
            exact ⟨y, h6, h4⟩

theorem stringOrArrayLaw : MergeLaw mergeStringOrArray where
  noPanic := by
    intro a b f
    cases a <;> cases b <;> cases f <;> simp [mergeStringOrArray]
  assoc := by
    intro f a b c r
    cases a <;> cases b <;> cases c <;> cases f <;> simp [mergeStringOrArray]

theorem flagsLaw : MergeLaw mergeFlags where
  noPanic := by
    intro a b f
    obtain ⟨a, ra⟩ := a; obtain ⟨b, rb⟩ := b
    cases ra <;> cases rb <;> cases f <;> simp [mergeFlags]
  assoc := by
    intro f a b c r
    obtain ⟨a, ra⟩ := a; obtain ⟨b, rb⟩ := b; obtain ⟨c, rc⟩ := c
    cases ra <;> cases rb <;> cases rc <;> cases f <;> simp [mergeFlags]

theorem stringListLaw : MergeLaw mergeStringList where
  noPanic := by
    intro a b f
    obtain ⟨a, ra⟩ := a; obtain ⟨b, rb⟩ := b
    cases ra <;> cases rb <;> cases f <;> simp [mergeStringList]
  assoc := by
    intro f a b c r
    obtain ⟨a, ra⟩ := a; obtain ⟨b, rb⟩ := b; obtain ⟨c, rc⟩ := c
    cases ra <;> cases rb <;> cases rc <;> cases f <;> simp [mergeStringList]

theorem pathAndArgsLaw : MergeLaw mergePathAndArgs where
  noPanic := by
    intro a b f
    obtain ⟨pa, a, ra⟩ := a; obtain ⟨pb, b, rb⟩ := b
    cases ra <;> cases rb <;> cases f <;> simp [mergePathAndArgs]
  assoc := by
    intro f a b c r
    obtain ⟨pa, a, ra⟩ := a; obtain ⟨pb, b, rb⟩ := b; obtain ⟨pc, c, rc⟩ := c
    cases ra <;> cases rb <;> cases rc <;> cases f <;> simp [mergePathAndArgs]

theorem mergeEnv_table_ok_iff {v lv : Val Str} {f' lf r' lr : Option (Val Bool)} {f : Bool} {x : EnvConfigValue} :
    mergeEnvConfigValue (.table v f' r') (.table lv lf lr) f = .ok x ↔
      ∃ x1 x2 x3, x = .table x1 x2 x3 ∧ mergeScalar v lv f = .ok x1 ∧ mergeOpt mergeScalar f' lf f = .ok x2 ∧
        mergeOpt mergeScalar r' lr f = .ok x3 := by
  simp only [mergeEnvConfigValue, Res.bind_eq_ok]
  constructor
  · rintro ⟨x1, h1, x2, h2, x3, h3, h⟩
    cases h
    exact ⟨x1, x2, x3, rfl, h1, h2, h3⟩
  · rintro ⟨x1, x2, x3, rfl, h1, h2, h3⟩
    exact ⟨x1, h1, x2, h2, x3, h3, rfl⟩

theorem envLaw : MergeLaw mergeEnvConfigValue where
  noPanic := by
    intro a b f
    cases a with
    | value a => cases b <;> simp [mergeEnvConfigValue]
    | table v f' r' =>
      cases b with
      | value b => simp [mergeEnvConfigValue]
      | table lv lf lr =>
        simp only [mergeEnvConfigValue]
        refine Res.bind_ne_panic (scalarLaw.noPanic _ _ _) fun _ _ => ?_
        refine Res.bind_ne_panic (scalarLaw.opt.noPanic _ _ _) fun _ _ => ?_
        refine Res.bind_ne_panic (scalarLaw.opt.noPanic _ _ _) fun _ _ => ?_
        simp
  assoc := by
    intro f a b c r
    cases a with
    | value a =>
      cases b with
      | value b => cases c <;> cases f <;> simp [mergeEnvConfigValue]
      | table b1 b2 b3 =>
        constructor
        · rintro ⟨ab, h1, h2⟩
          simp [mergeEnvConfigValue] at h1
        · rintro ⟨bc, h1, h2⟩
          cases c with
          | value c => simp [mergeEnvConfigValue] at h1
          | table c1 c2 c3 =>
            obtain ⟨x1, x2, x3, rfl, _⟩ := mergeEnv_table_ok_iff.1 h1
            simp [mergeEnvConfigValue] at h2
    | table a1 a2 a3 =>
      cases b with
      | value b => cases c <;> simp [mergeEnvConfigValue]
      | table b1 b2 b3 =>
        cases c with
        | value c =>
          constructor
          · rintro ⟨ab, h1, h2⟩
            obtain ⟨x1, x2, x3, rfl, _⟩ := mergeEnv_table_ok_iff.1 h1
            simp [mergeEnvConfigValue] at h2
          · rintro ⟨bc, h1, h2⟩
            simp [mergeEnvConfigValue] at h1
        | table c1 c2 c3 =>
          constructor
          · rintro ⟨ab, h1, h2⟩
            obtain ⟨x1, x2, x3, rfl, p1, p2, p3⟩ := mergeEnv_table_ok_iff.1 h1
            obtain ⟨y1, y2, y3, rfl, q1, q2, q3⟩ := mergeEnv_table_ok_iff.1 h2
            obtain ⟨z1, s1, t1⟩ := (scalarLaw.assoc f _ _ _ _).1 ⟨_, p1, q1⟩
            obtain ⟨z2, s2, t2⟩ := (scalarLaw.opt.assoc f _ _ _ _).1 ⟨_, p2, q2⟩
            obtain ⟨z3, s3, t3⟩ := (scalarLaw.opt.assoc f _ _ _ _).1 ⟨_, p3, q3⟩
            exact ⟨.table z1 z2 z3, mergeEnv_table_ok_iff.2 ⟨_, _, _, rfl, s1, s2, s3⟩,
              mergeEnv_table_ok_iff.2 ⟨_, _, _, rfl, t1, t2, t3⟩⟩
          · rintro ⟨bc, h1, h2⟩
            obtain ⟨x1, x2, x3, rfl, p1, p2, p3⟩ := mergeEnv_table_ok_iff.1 h1
            obtain ⟨y1, y2, y3, rfl, q1, q2, q3⟩ := mergeEnv_table_ok_iff.1 h2
            obtain ⟨z1, s1, t1⟩ := (scalarLaw.assoc f _ _ _ _).2 ⟨_, p1, q1⟩
            obtain ⟨z2, s2, t2⟩ := (scalarLaw.opt.assoc f _ _ _ _).2 ⟨_, p2, q2⟩
            obtain ⟨z3, s3, t3⟩ := (scalarLaw.opt.assoc f _ _ _ _).2 ⟨_, p3, q3⟩
            exact ⟨.table z1 z2 z3, mergeEnv_table_ok_iff.2 ⟨_, _, _, rfl, s1, s2, s3⟩,
              mergeEnv_table_ok_iff.2 ⟨_, _, _, rfl, t1, t2, t3⟩⟩

/-! ### maps -/

section map
variable {V : Type} {dbg : V → V → Bool → List Dbg} {m : Merger V}

theorem mergeMap_ok {self low r : BMap V} {f : Bool} (hl : low.Sorted)
    (h : mergeMap dbg m self low f = .ok r) :
    (∀ k, mergeOpt m (self.get k) (low.get k) f = .ok (r.get k)) ∧ (self.Sorted → r.Sorted) := by
  induction low generalizing self with
  | nil =>
    simp only [mergeMap] at h
    cases h
    exact ⟨fun k => by simp [mergeOpt_none_right], fun h => h⟩
  | cons e low ih =>
    obtain ⟨k0, v⟩ := e
    have hnone : BMap.get low k0 = none := BMap.get_eq_none_of_lt hl.head
    simp only [mergeMap] at h
    split at h
    · rename_i entry he
      rw [Res.bind_eq_ok] at h
      obtain ⟨e', h1, h2⟩ := h
      rw [Res.withContext_eq_ok] at h1
      obtain ⟨ih1, ih2⟩ := ih hl.tail h2
      refine ⟨?_, fun hs => ih2 (hs.insert _ _)⟩
      intro k
      have := ih1 k
      rw [BMap.get_insert] at this
      simp only [BMap.get]
      by_cases hk : k0 = k
      · subst hk
        rw [hnone] at this
        rw [if_pos rfl] at this ⊢
        rw [he, mergeOpt_some, h1]
        rw [mergeOpt_none_right] at this
        exact this
      · rw [if_neg hk] at this ⊢
        exact this
    · rename_i he
      obtain ⟨ih1, ih2⟩ := ih hl.tail h
      refine ⟨?_, fun hs => ih2 (hs.insert _ _)⟩
      intro k
      have := ih1 k
      rw [BMap.get_insert] at this
      simp only [BMap.get]
      by_cases hk : k0 = k
      · subst hk
        rw [hnone] at this
        rw [if_pos rfl] at this ⊢
        rw [he, mergeOpt_none_left]
        rw [mergeOpt_none_right] at this
        exact this
      · rw [if_neg hk] at this ⊢
        exact this

theorem mergeMap_total {self low : BMap V} {f : Bool} (hl : low.Sorted)
    (h : ∀ k, ∃ x, mergeOpt m (self.get k) (low.get k) f = .ok x) :
    ∃ r, mergeMap dbg m self low f = .ok r := by
  induction low generalizing self with
  | nil => exact ⟨self, rfl⟩
  | cons e low ih =>
    obtain ⟨k0, v⟩ := e
    have hnone : BMap.get low k0 = none := BMap.get_eq_none_of_lt hl.head
    simp only [mergeMap]
    split
    · rename_i entry he
      obtain ⟨x, hx⟩ := h k0
      simp only [BMap.get, if_true, he, mergeOpt_some, Res.bind_eq_ok] at hx
      obtain ⟨e', h1, h2⟩ := hx
      rw [h1]
      simp only [Res.withContext, Res.ok_bind]
      apply ih hl.tail
      intro k
      rw [BMap.get_insert]
      by_cases hk : k0 = k
      · subst hk
        rw [hnone]
        exact ⟨_, mergeOpt_none_right _ _ _⟩
      · obtain ⟨y, hy⟩ := h k
        simp only [BMap.get, if_neg hk] at hy
        rw [if_neg hk]
        exact ⟨y, hy⟩
    · rename_i he
      apply ih hl.tail
      intro k
      rw [BMap.get_insert]
      by_cases hk : k0 = k
      · subst hk
        rw [hnone]
        exact ⟨_, mergeOpt_none_right _ _ _⟩
      · obtain ⟨y, hy⟩ := h k
        simp only [BMap.get, if_neg hk] at hy
        rw [if_neg hk]
        exact ⟨y, hy⟩

theorem mergeMap_noPanic (L : MergeLaw m) {self low : BMap V} {f : Bool} : mergeMap dbg m self low f ≠ .panic := by
  induction low generalizing self with
  | nil => simp [mergeMap]
  | cons e low ih =>
    obtain ⟨k0, v⟩ := e
    simp only [mergeMap]
    split
    · refine Res.bind_ne_panic ?_ (fun _ _ => ih)
      rw [Ne, Res.withContext_eq_panic]
      exact L.noPanic _ _ _
    · exact ih

theorem mergeMap_ok_iff {self low r : BMap V} {f : Bool} (hs : self.Sorted) (hl : low.Sorted) :
    mergeMap dbg m self low f = .ok r ↔
      r.Sorted ∧ ∀ k, mergeOpt m (self.get k) (low.get k) f = .ok (r.get k) := by
  constructor
  · intro h
    obtain ⟨h1, h2⟩ := mergeMap_ok hl h
    exact ⟨h2 hs, h1⟩
  · rintro ⟨h1, h2⟩
    obtain ⟨r', hr'⟩ := mergeMap_total (dbg := dbg) hl (fun k => ⟨_, h2 k⟩)
    obtain ⟨g1, g2⟩ := mergeMap_ok hl hr'
    rw [hr']
    congr 1
    apply BMap.ext (g2 hs) h1
    intro k
    have := g1 k
    rw [h2 k] at this
    injection this with this
    exact this.symm

theorem mergeMap_assoc (L : MergeLaw m) {a b c r : BMap V} {f : Bool} (ha : a.Sorted) (hb : b.Sorted) (hc : c.Sorted) :
    (∃ ab, mergeMap dbg m a b f = .ok ab ∧ mergeMap dbg m ab c f = .ok r) ↔
    (∃ bc, mergeMap dbg m b c f = .ok bc ∧ mergeMap dbg m a bc f = .ok r) := by
  constructor
  · rintro ⟨ab, h1, h2⟩
    rw [mergeMap_ok_iff ha hb] at h1
    rw [mergeMap_ok_iff h1.1 hc] at h2
    have key := fun k => (L.opt.assoc f _ _ _ _).1 ⟨_, h1.2 k, h2.2 k⟩
    obtain ⟨bc, hbc⟩ := mergeMap_total (dbg := dbg) hc (fun k => ⟨_, (key k).choose_spec.1⟩)
    have hbc' := hbc
    rw [mergeMap_ok_iff hb hc] at hbc'
    refine ⟨bc, hbc, ?_⟩
    rw [mergeMap_ok_iff ha hbc'.1]
    refine ⟨h2.1, fun k => ?_⟩
    obtain ⟨y, hy1, hy2⟩ := key k
    have := hbc'.2 k
    rw [hy1] at this
    injection this with this
    rw [← this]; exact hy2
  · rintro ⟨bc, h1, h2⟩
    rw [mergeMap_ok_iff hb hc] at h1
    rw [mergeMap_ok_iff ha h1.1] at h2
    have key := fun k => (L.opt.assoc f _ _ _ _).2 ⟨_, h1.2 k, h2.2 k⟩
    obtain ⟨ab, hab⟩ := mergeMap_total (dbg := dbg) hb (fun k => ⟨_, (key k).choose_spec.1⟩)
    have hab' := hab
    rw [mergeMap_ok_iff ha hb] at hab'
    refine ⟨ab, hab, ?_⟩
    rw [mergeMap_ok_iff hab'.1 hc]
    refine ⟨h2.1, fun k => ?_⟩
    obtain ⟨y, hy1, hy2⟩ := key k
    have := hab'.2 k
    rw [hy1] at this
    injection this with this
    rw [← this]; exact hy2

end map

end CC
