import Verif.Lemmas.Config
import Verif.Model.Load
import Verif.Spec.Load
import Verif.Spec.Text
/-
Loading and merging a chain of config files, by key.
-/
namespace CC

/-! ### `setPath` by key -/

theorem Val.setPath_eq {α : Type} (p : Path) : (Val.setPath p : Val α → Val α) = Val.foundIn p := rfl

theorem scalar_setPath (p : Path) (c : Config) (k : ScalarKey) : k.get (c.setPath p) = (k.get c).map (Val.foundIn p) := by
  have e : ∀ {α : Type} (g : α → Atom) (o : Option (Val α)),
      (o.map (Val.setPath p)).map (Val.map g) = (o.map (Val.map g)).map (Val.foundIn p) := by
    intro α g o; cases o <;> rfl
  cases k <;>
    simp only [ScalarKey.get, Config.setPath, BuildConfig.setPath, HttpConfig.setPath, NetConfig.setPath,
      RegistryConfig.setPath, TermConfig.setPath, BMap.get_mapVals, e]
  case envValue k =>
    cases c.env.get k with
    | none => rfl
    | some x => cases x <;> rfl
  case envForce k =>
    cases c.env.get k with
    | none => rfl
    | some x =>
      cases x with
      | value => rfl
      | table v f r => cases f <;> rfl
  case envRelative k =>
    cases c.env.get k with
    | none => rfl
    | some x =>
      cases x with
      | value => rfl
      | table v f r => cases r <;> rfl
  case registriesIndex k => cases c.registries.get k with
    | none => rfl
    | some x => exact e _ _
  case registriesToken k => cases c.registries.get k with
    | none => rfl
    | some x => exact e _ _
  case registriesProtocol k => cases c.registries.get k with
    | none => rfl
    | some x => exact e _ _
  case targetLinker k => cases c.target.get k with
    | none => rfl
    | some x => exact e _ _

theorem list_setPath (p : Path) (c : Config) (k : ListKey) : k.get (c.setPath p) = (k.get c).map (allFoundIn p) := by
  have e : ∀ (o : Option Flags), ((o.map (Flags.setPath p)).map fun l => (l.repr, l.flags)) =
      (o.map fun l => (l.repr, l.flags)).map (allFoundIn p) := by
    intro o; cases o <;> rfl
  cases k with
  | alias k =>
    simp only [ListKey.get, Config.setPath, BMap.get_mapVals]
    cases c.alias.get k <;> rfl
  | buildTarget =>
    rw [listKey_buildTarget, listKey_buildTarget]
    simp only [Config.setPath, BuildConfig.setPath]
    cases c.build.target with
    | none => rfl
    | some x => cases x <;> rfl
  | buildRustflags => exact e _
  | buildRustdocflags => exact e _
  | targetRustflags k =>
    simp only [ListKey.get, Config.setPath, BMap.get_mapVals]
    cases c.target.get k with
    | none => rfl
    | some x => exact e _
  | targetRustdocflags k =>
    simp only [ListKey.get, Config.setPath, BMap.get_mapVals]
    cases c.target.get k with
    | none => rfl
    | some x => exact e _

theorem prog_setPath (p : Path) (c : Config) (k : ProgKey) : k.get (c.setPath p) = (k.get c).map (allFoundIn p) := by
  have e : ∀ (o : Option PathAndArgs), ((o.map (PathAndArgs.setPath p)).map fun x => (x.repr, x.path :: x.args)) =
      (o.map fun x => (x.repr, x.path :: x.args)).map (allFoundIn p) := by
    intro o; cases o <;> rfl
  cases k with
  | docBrowser => exact e _
  | targetRunner k =>
    simp only [ProgKey.get, Config.setPath, BMap.get_mapVals]
    cases c.target.get k with
    | none => rfl
    | some x => exact e _

theorem present_setPath (p : Path) (c : Config) (k : TableKey) : k.present (c.setPath p) = k.present c := by
  cases k <;> simp [TableKey.present, Config.setPath, BMap.get_mapVals]

theorem envShape_setPath (p : Path) (c : Config) (k : Str) : envShape (c.setPath p) k = envShape c k := by
  simp only [envShape, Config.setPath, BMap.get_mapVals]
  cases c.env.get k with
  | none => rfl
  | some x => cases x <;> rfl

theorem Config.WF.setPath {c : Config} (h : c.WF) (p : Path) : (c.setPath p).WF :=
  ⟨h.alias.mapVals _, h.env.mapVals _, h.registries.mapVals _, h.target.mapVals _,
    h.overrideTargetRustflags, h.overrideTargetRustdocflags⟩

theorem shapeConflict_setPath (p q : Path) (a b : Config) :
    ShapeConflict (a.setPath p) (b.setPath q) ↔ ShapeConflict a b := by
  constructor
  · rintro (⟨k, r, s, x, y, h1, h2, hne⟩ | ⟨k, r, s, x, y, h1, h2, hne⟩ | ⟨k, r, s, h1, h2, hne⟩)
    · rw [list_setPath, Option.map_eq_some_iff] at h1 h2
      obtain ⟨⟨r', x'⟩, h1, e1⟩ := h1
      obtain ⟨⟨s', y'⟩, h2, e2⟩ := h2
      cases e1; cases e2
      exact .list k _ _ _ _ h1 h2 hne
    · rw [prog_setPath, Option.map_eq_some_iff] at h1 h2
      obtain ⟨⟨r', x'⟩, h1, e1⟩ := h1
      obtain ⟨⟨s', y'⟩, h2, e2⟩ := h2
      cases e1; cases e2
      exact .prog k _ _ _ _ h1 h2 hne
    · rw [envShape_setPath] at h1 h2
      exact .env k _ _ h1 h2 hne
  · rintro (⟨k, r, s, x, y, h1, h2, hne⟩ | ⟨k, r, s, x, y, h1, h2, hne⟩ | ⟨k, r, s, h1, h2, hne⟩)
    · exact .list k r s _ _ (by rw [list_setPath, h1]; rfl) (by rw [list_setPath, h2]; rfl) hne
    · exact .prog k r s _ _ (by rw [prog_setPath, h1]; rfl) (by rw [prog_setPath, h2]; rfl) hne
    · exact .env k r s (by rw [envShape_setPath, h1]) (by rw [envShape_setPath, h2]) hne

/-! ### chains of configs -/

/-- Merge the configs of a list into the first, one after the other. -/
def mergeAll : Config → List Config → Res Config
  | b, [] => .ok b
  | b, c :: cs => (mergeConfig b c false) >>= fun r => mergeAll r cs

theorem mergeAll_cons_ok {b c r : Config} {cs : List Config} (h : mergeAll b (c :: cs) = .ok r)
    (hb : b.WF) (hc : c.WF) : ∃ m, MergedFields b c m false ∧ m.WF ∧ mergeAll m cs = .ok r := by
  rw [mergeAll, Res.bind_eq_ok] at h
  obtain ⟨m, h1, h2⟩ := h
  rw [mergeConfig_ok_iff hb.maps hc.maps] at h1
  exact ⟨m, h1, h1.wf hb, h2⟩

theorem mergeAll_wf {b r : Config} {cs : List Config} (h : mergeAll b cs = .ok r) (hb : b.WF) (hcs : ∀ c ∈ cs, c.WF) :
    r.WF := by
  induction cs generalizing b with
  | nil => cases h; exact hb
  | cons c cs ih =>
    obtain ⟨m, h1, h2, h3⟩ := mergeAll_cons_ok h hb (hcs _ (by simp))
    exact ih h3 h2 (fun c hc => hcs c (by simp [hc]))

theorem firstSome_cons_pick {α : Type} (a b : Option α) (l : List (Option α)) :
    firstSome (pick false a b :: l) = firstSome (a :: b :: l) := by
  cases a <;> cases b <;> rfl

theorem mergeAll_scalar {b r : Config} {cs : List Config} (h : mergeAll b cs = .ok r) (hb : b.WF) (hcs : ∀ c ∈ cs, c.WF)
    (k : ScalarKey) : k.get r = firstSome ((b :: cs).map fun c => k.get c) := by
  induction cs generalizing b with
  | nil => cases h; cases hk : k.get r <;> simp [firstSome, hk]
  | cons c cs ih =>
    obtain ⟨m, h1, h2, h3⟩ := mergeAll_cons_ok h hb (hcs _ (by simp))
    rw [ih h3 h2 (fun c hc => hcs c (by simp [hc])), List.map_cons, h1.scalar k, firstSome_cons_pick]
    rfl

theorem mergeAll_present {b r : Config} {cs : List Config} (h : mergeAll b cs = .ok r) (hb : b.WF) (hcs : ∀ c ∈ cs, c.WF)
    (k : TableKey) : k.present r = (b :: cs).any fun c => k.present c := by
  induction cs generalizing b with
  | nil => cases h; simp
  | cons c cs ih =>
    obtain ⟨m, h1, h2, h3⟩ := mergeAll_cons_ok h hb (hcs _ (by simp))
    rw [ih h3 h2 (fun c hc => hcs c (by simp [hc]))]
    simp only [List.any_cons, h1.present k, Bool.or_assoc]

/-- The chain for one optional key. -/
def joinAll {V : Type} (m : Merger V) : Option V → List (Option V) → Res (Option V)
  | a, [] => .ok a
  | a, b :: l => (mergeOpt m a b false) >>= fun r => joinAll m r l

theorem mergeAll_joinAll {V : Type} {m : Merger V} {get : Config → Option V}
    (hm : ∀ a b r, MergedFields a b r false → mergeOpt m (get a) (get b) false = .ok (get r))
    {b r : Config} {cs : List Config} (h : mergeAll b cs = .ok r) (hb : b.WF) (hcs : ∀ c ∈ cs, c.WF) :
    joinAll m (get b) (cs.map get) = .ok (get r) := by
  induction cs generalizing b with
  | nil => cases h; rfl
  | cons c cs ih =>
    obtain ⟨m', h1, h2, h3⟩ := mergeAll_cons_ok h hb (hcs _ (by simp))
    rw [List.map_cons, joinAll, hm _ _ _ h1]
    exact ih h3 h2 (fun c hc => hcs c (by simp [hc]))

theorem joinAll_none {V : Type} (m : Merger V) (a : Option V) (l : List (Option V)) :
    joinAll m none (a :: l) = joinAll m a l := by
  rw [joinAll, mergeOpt_none_left]; rfl

theorem joinAll_skip {V : Type} (m : Merger V) (a : Option V) (l : List (Option V)) :
    joinAll m a (none :: l) = joinAll m a l := by
  rw [joinAll, mergeOpt_none_right]; rfl

theorem joinAll_somes {V : Type} {m : Merger V} {a r : Option V} {l : List (Option V)} (h : joinAll m a l = .ok r) :
    match (a :: l).filterMap id with
    | [] => r = none
    | x :: xs => joinAll m (some x) (xs.map some) = .ok r := by
  induction l generalizing a with
  | nil => cases h; cases r <;> simp [joinAll]
  | cons b l ih =>
    cases b with
    | none =>
      rw [joinAll_skip] at h
      have := ih h
      cases a <;> simpa using this
    | some b =>
      cases a with
      | none =>
        rw [joinAll_none] at h
        simpa using ih h
      | some a =>
        rw [joinAll, Res.bind_eq_ok] at h
        obtain ⟨z, h1, h2⟩ := h
        have h1' := h1
        rw [mergeOpt_some, Res.bind_eq_ok] at h1'
        obtain ⟨z', h3, h4⟩ := h1'
        cases h4
        have := ih h2
        simp only [List.filterMap_cons, id] at this ⊢
        rw [List.map_cons, joinAll, h1]
        exact this

theorem joinAll_list {x : Repr' × List (Val Str)} {xs : List (Repr' × List (Val Str))} {r : Option (Repr' × List (Val Str))}
    (h : joinAll joinList (some x) (xs.map some) = .ok r) : JoinedList (x :: xs) r := by
  induction xs generalizing x with
  | nil =>
    cases h
    obtain ⟨rx, l⟩ := x
    cases rx with
    | string => exact .string (by simp)
    | array => simpa using JoinedList.array (xs := [(Repr'.array, l)]) (by simp) (by simp)
  | cons y ys ih =>
    rw [List.map_cons, joinAll, Res.bind_eq_ok] at h
    obtain ⟨z, h1, h2⟩ := h
    rw [mergeOpt_some, Res.bind_eq_ok] at h1
    obtain ⟨w, h3, h4⟩ := h1
    cases h4
    have := ih h2
    obtain ⟨rx, x⟩ := x; obtain ⟨ry, y⟩ := y
    cases rx <;> cases ry <;> simp [joinList] at h3
    · subst h3
      cases this with
      | array _ h => exact absurd (h _ (List.mem_cons_self ..)) (by simp)
      | string h => exact .string (fun z hz => by
          simp only [List.mem_cons] at hz h
          rcases hz with rfl | rfl | hz
          · rfl
          · rfl
          · exact h z (.inr hz))
    · subst h3
      cases this with
      | array _ h =>
        have := JoinedList.array (xs := (Repr'.array, x) :: (Repr'.array, y) :: ys) (by simp) (fun z hz => by
          simp only [List.mem_cons] at hz h
          rcases hz with rfl | rfl | hz
          · rfl
          · rfl
          · exact h z (.inr hz))
        simpa using this
      | string h => exact absurd (h _ (List.mem_cons_self ..)) (by simp)

theorem joinAll_prog {x : Repr' × List (Val Str)} {xs : List (Repr' × List (Val Str))} {r : Option (Repr' × List (Val Str))}
    (h : joinAll joinProg (some x) (xs.map some) = .ok r) : JoinedProg (x :: xs) r := by
  induction xs generalizing x with
  | nil =>
    cases h
    obtain ⟨rx, l⟩ := x
    cases rx with
    | string => exact .string (by simp)
    | array => simpa using JoinedProg.array (xs := [(Repr'.array, l)]) (by simp) (by simp)
  | cons y ys ih =>
    rw [List.map_cons, joinAll, Res.bind_eq_ok] at h
    obtain ⟨z, h1, h2⟩ := h
    rw [mergeOpt_some, Res.bind_eq_ok] at h1
    obtain ⟨w, h3, h4⟩ := h1
    cases h4
    have := ih h2
    obtain ⟨rx, x⟩ := x; obtain ⟨ry, y⟩ := y
    cases rx <;> cases ry <;> simp [joinProg] at h3
    · subst h3
      cases this with
      | array _ h => exact absurd (h _ (List.mem_cons_self ..)) (by simp)
      | string h => exact .string (fun z hz => by
          simp only [List.mem_cons] at hz h
          rcases hz with rfl | rfl | hz
          · rfl
          · rfl
          · exact h z (.inr hz))
    · subst h3
      cases this with
      | array _ h =>
        have := JoinedProg.array (xs := (Repr'.array, x) :: (Repr'.array, y) :: ys) (by simp) (fun z hz => by
          simp only [List.mem_cons] at hz h
          rcases hz with rfl | rfl | hz
          · rfl
          · rfl
          · exact h z (.inr hz))
        simpa using this
      | string h => exact absurd (h _ (List.mem_cons_self ..)) (by simp)

theorem mergeAll_list {b r : Config} {cs : List Config} (h : mergeAll b cs = .ok r) (hb : b.WF) (hcs : ∀ c ∈ cs, c.WF)
    (k : ListKey) : JoinedList ((b :: cs).filterMap fun c => k.get c) (k.get r) := by
  have h1 := mergeAll_joinAll (m := joinList) (get := fun c => k.get c) (fun a b r h => h.list k) h hb hcs
  have h2 := joinAll_somes h1
  have e : (k.get b :: cs.map fun c => k.get c).filterMap id = (b :: cs).filterMap fun c => k.get c := by
    rw [← List.map_cons (f := fun c => k.get c), List.filterMap_map]; rfl
  rw [e] at h2
  split at h2
  · rename_i h3; rw [h3]; rw [h2]; exact .unset
  · rename_i h3; rw [h3]; exact joinAll_list h2

theorem mergeAll_prog {b r : Config} {cs : List Config} (h : mergeAll b cs = .ok r) (hb : b.WF) (hcs : ∀ c ∈ cs, c.WF)
    (k : ProgKey) : JoinedProg ((b :: cs).filterMap fun c => k.get c) (k.get r) := by
  have h1 := mergeAll_joinAll (m := joinProg) (get := fun c => k.get c) (fun a b r h => h.prog k) h hb hcs
  have h2 := joinAll_somes h1
  have e : (k.get b :: cs.map fun c => k.get c).filterMap id = (b :: cs).filterMap fun c => k.get c := by
    rw [← List.map_cons (f := fun c => k.get c), List.filterMap_map]; rfl
  rw [e] at h2
  split at h2
  · rename_i h3; rw [h3]; rw [h2]; exact .unset
  · rename_i h3; rw [h3]; exact joinAll_prog h2

/-! ### shapes of a chain -/

theorem conflict_merged {a b r d : Config} {f : Bool} (h : MergedFields a b r f) :
    ShapeConflict r d ↔ ShapeConflict a d ∨ ShapeConflict b d := by
  have hl : ∀ k : ListKey, (k.get r).map Prod.fst = ((k.get a).map Prod.fst).or ((k.get b).map Prod.fst) ∧
      ∀ x y, k.get a = some x → k.get b = some y → x.1 = y.1 := by
    intro k
    have h1 := h.list k
    cases ha : k.get a with
    | none => rw [ha, mergeOpt_none_left] at h1; injection h1 with h1; simp [← h1]
    | some x =>
      cases hb : k.get b with
      | none => rw [ha, hb, mergeOpt_none_right] at h1; injection h1 with h1; simp [← h1]
      | some y =>
        rw [ha, hb, mergeOpt_some, Res.bind_eq_ok] at h1
        obtain ⟨z, h1, h2⟩ := h1
        injection h2 with h2
        obtain ⟨rx, x⟩ := x; obtain ⟨ry, y⟩ := y
        cases rx <;> cases ry <;> simp [joinList] at h1 <;> simp [← h2, ← h1]
        cases f <;> simp
  have hp : ∀ k : ProgKey, (k.get r).map Prod.fst = ((k.get a).map Prod.fst).or ((k.get b).map Prod.fst) ∧
      ∀ x y, k.get a = some x → k.get b = some y → x.1 = y.1 := by
    intro k
    have h1 := h.prog k
    cases ha : k.get a with
    | none => rw [ha, mergeOpt_none_left] at h1; injection h1 with h1; simp [← h1]
    | some x =>
      cases hb : k.get b with
      | none => rw [ha, hb, mergeOpt_none_right] at h1; injection h1 with h1; simp [← h1]
      | some y =>
        rw [ha, hb, mergeOpt_some, Res.bind_eq_ok] at h1
        obtain ⟨z, h1, h2⟩ := h1
        injection h2 with h2
        obtain ⟨rx, x⟩ := x; obtain ⟨ry, y⟩ := y
        cases rx <;> cases ry <;> simp [joinProg] at h1 <;> simp [← h2, ← h1]
        cases f <;> simp
  constructor
  · rintro (⟨k, p, q, x, y, h1, h2, hne⟩ | ⟨k, p, q, x, y, h1, h2, hne⟩ | ⟨k, p, q, h1, h2, hne⟩)
    · have := (hl k).1
      rw [h1] at this
      cases ha : k.get a with
      | some z => rw [ha] at this; simp at this; exact .inl (.list k z.1 q z.2 y ha h2 (this ▸ hne))
      | none =>
        cases hb : k.get b with
        | some z => rw [ha, hb] at this; simp at this; exact .inr (.list k z.1 q z.2 y hb h2 (this ▸ hne))
        | none => rw [ha, hb] at this; simp at this
    · have := (hp k).1
      rw [h1] at this
      cases ha : k.get a with
      | some z => rw [ha] at this; simp at this; exact .inl (.prog k z.1 q z.2 y ha h2 (this ▸ hne))
      | none =>
        cases hb : k.get b with
        | some z => rw [ha, hb] at this; simp at this; exact .inr (.prog k z.1 q z.2 y hb h2 (this ▸ hne))
        | none => rw [ha, hb] at this; simp at this
    · have := (h.envShape k).1
      rw [h1] at this
      cases ha : envShape a k with
      | some z => rw [ha] at this; simp at this; exact .inl (.env k z q ha h2 (this ▸ hne))
      | none =>
        cases hb : envShape b k with
        | some z => rw [ha, hb] at this; simp at this; exact .inr (.env k z q hb h2 (this ▸ hne))
        | none => rw [ha, hb] at this; simp at this
  · rintro ((⟨k, p, q, x, y, h1, h2, hne⟩ | ⟨k, p, q, x, y, h1, h2, hne⟩ | ⟨k, p, q, h1, h2, hne⟩) |
      (⟨k, p, q, x, y, h1, h2, hne⟩ | ⟨k, p, q, x, y, h1, h2, hne⟩ | ⟨k, p, q, h1, h2, hne⟩))
    · have := (hl k).1
      rw [h1] at this
      cases hr : k.get r with
      | none => rw [hr] at this; simp at this
      | some z => rw [hr] at this; simp at this; exact .list k z.1 q z.2 y hr h2 (this ▸ hne)
    · have := (hp k).1
      rw [h1] at this
      cases hr : k.get r with
      | none => rw [hr] at this; simp at this
      | some z => rw [hr] at this; simp at this; exact .prog k z.1 q z.2 y hr h2 (this ▸ hne)
    · have := (h.envShape k).1
      rw [h1] at this
      exact .env k p q (by simpa using this) h2 hne
    · have h3 := (hl k).1
      have h4 := (hl k).2
      rw [h1] at h3 h4
      cases hr : k.get r with
      | none => rw [hr] at h3; cases ha : k.get a <;> rw [ha] at h3 <;> simp at h3
      | some z =>
        refine .list k z.1 q z.2 y hr h2 ?_
        rw [hr] at h3
        cases ha : k.get a with
        | none => rw [ha] at h3; simp at h3; exact h3 ▸ hne
        | some w => rw [ha] at h3; simp at h3; rw [h3, h4 w _ ha rfl]; exact hne
    · have h3 := (hp k).1
      have h4 := (hp k).2
      rw [h1] at h3 h4
      cases hr : k.get r with
      | none => rw [hr] at h3; cases ha : k.get a <;> rw [ha] at h3 <;> simp at h3
      | some z =>
        refine .prog k z.1 q z.2 y hr h2 ?_
        rw [hr] at h3
        cases ha : k.get a with
        | none => rw [ha] at h3; simp at h3; exact h3 ▸ hne
        | some w => rw [ha] at h3; simp at h3; rw [h3, h4 w _ ha rfl]; exact hne
    · have h3 := (h.envShape k).1
      have h4 := (h.envShape k).2
      rw [h1] at h3 h4
      cases ha : envShape a k with
      | none => rw [ha] at h3; exact .env k p q (by simpa using h3) h2 hne
      | some w => rw [ha] at h3; exact .env k w q (by simpa using h3) h2 (by rw [h4 w _ ha rfl]; exact hne)

theorem mergeAll_ok_iff {b : Config} {cs : List Config} (hb : b.WF) (hcs : ∀ c ∈ cs, c.WF) :
    (∃ r, mergeAll b cs = .ok r) ↔ (b :: cs).Pairwise fun x y => ¬ ShapeConflict x y := by
  induction cs generalizing b with
  | nil => simp [mergeAll]
  | cons c cs ih =>
    have hc := hcs c (by simp)
    have hcs' : ∀ c ∈ cs, c.WF := fun c hc => hcs c (by simp [hc])
    constructor
    · rintro ⟨r, h⟩
      obtain ⟨m, h1, h2, h3⟩ := mergeAll_cons_ok h hb hc
      have h4 := (ih h2 hcs').1 ⟨r, h3⟩
      rw [List.pairwise_cons] at h4
      rw [List.pairwise_cons, List.pairwise_cons]
      refine ⟨?_, ?_, h4.2⟩
      · intro d hd
        simp only [List.mem_cons] at hd
        rcases hd with rfl | hd
        · exact compatible_of_mergedFields h1
        · intro hx
          exact h4.1 d hd ((conflict_merged h1).2 (.inl hx))
      · intro d hd hx
        exact h4.1 d hd ((conflict_merged h1).2 (.inr hx))
    · intro h
      rw [List.pairwise_cons, List.pairwise_cons] at h
      obtain ⟨h1, h2, h3⟩ := h
      obtain ⟨m, hm⟩ := mergeConfig_ok_of_compatible (f := false) hb.maps hc.maps (h1 c (by simp))
      have hm' := hm
      rw [mergeConfig_ok_iff hb.maps hc.maps] at hm'
      have : (m :: cs).Pairwise fun x y => ¬ ShapeConflict x y := by
        rw [List.pairwise_cons]
        refine ⟨fun d hd hx => ?_, h3⟩
        rcases (conflict_merged hm').1 hx with hx | hx
        · exact h1 d (by simp [hd]) hx
        · exact h2 d hd hx
      obtain ⟨r, hr⟩ := (ih (hm'.wf hb) hcs').2 this
      exact ⟨r, by rw [mergeAll, hm]; exact hr⟩

theorem mergeAll_noPanic (b : Config) (cs : List Config) : mergeAll b cs ≠ .panic := by
  induction cs generalizing b with
  | nil => simp [mergeAll]
  | cons c cs ih =>
    rw [mergeAll]
    exact Res.bind_ne_panic (mergeConfig_noPanic _ _ _) fun _ _ => ih _

/-! ### loading -/

variable {fs : Fs} {parse : Str → Res Config}

theorem loadFile_ok {p : Path} {c : Config} :
    loadFile fs parse p = .ok c ↔ ∃ raw, (∃ text, fs.read p = .ok text ∧ parse text = .ok raw) ∧ c = raw.setPath p := by
  simp only [loadFile, Res.bind_eq_ok, Res.withContext_eq_ok]
  constructor
  · rintro ⟨text, h1, raw, h2, h3⟩
    cases h3
    exact ⟨raw, ⟨text, h1, h2⟩, rfl⟩
  · rintro ⟨raw, ⟨text, h1, h2⟩, rfl⟩
    exact ⟨text, h1, raw, h2, rfl⟩

/-- The configs of the files, with locations. -/
def located (raws : List (Path × Config)) : List Config := raws.map fun x => x.2.setPath x.1

theorem filesRead_cons {read : Path → Res Str} {p : Path} {ps : List Path} {raws : List (Path × Config)} :
    FilesRead read parse (p :: ps) raws ↔
      ∃ raw raws', raws = (p, raw) :: raws' ∧ (∃ text, read p = .ok text ∧ parse text = .ok raw) ∧
        FilesRead read parse ps raws' := by
  constructor
  · rintro ⟨h1, h2⟩
    cases raws with
    | nil => simp at h1
    | cons x raws' =>
      obtain ⟨q, raw⟩ := x
      simp only [List.map_cons, List.cons.injEq] at h1
      obtain ⟨rfl, h1⟩ := h1
      exact ⟨raw, raws', rfl, h2 _ _ (by simp), h1, fun p r hm => h2 p r (by simp [hm])⟩
  · rintro ⟨raw, raws', rfl, h1, h2, h3⟩
    refine ⟨by simp [h2], ?_⟩
    intro q r hm
    simp only [List.mem_cons, Prod.mk.injEq] at hm
    rcases hm with ⟨rfl, rfl⟩ | hm
    · exact h1
    · exact h3 q r hm

theorem loadLoop_some {paths : List Path} {bp : Path} {b : Config} {r : Option (Path × Config)} :
    loadLoop fs parse paths (some (bp, b)) = .ok r ↔
      ∃ raws, FilesRead fs.read parse paths raws ∧ ∃ c, r = some (bp, c) ∧ mergeAll b (located raws) = .ok c := by
  induction paths generalizing b with
  | nil =>
    simp only [loadLoop]
    constructor
    · intro h; cases h; exact ⟨[], ⟨rfl, by simp⟩, b, rfl, rfl⟩
    · rintro ⟨raws, ⟨h1, _⟩, c, rfl, h3⟩
      simp at h1
      subst h1
      cases h3
      rfl
  | cons p ps ih =>
    simp only [loadLoop, Res.bind_eq_ok, Res.withContext_eq_ok, ih]
    constructor
    · rintro ⟨x, h1, m, h2, raws, h3, c, rfl, h4⟩
      obtain ⟨raw, h1', rfl⟩ := loadFile_ok.1 h1
      refine ⟨(p, raw) :: raws, filesRead_cons.2 ⟨raw, raws, rfl, h1', h3⟩, c, rfl, ?_⟩
      rw [located, List.map_cons, mergeAll, h2]
      exact h4
    · rintro ⟨raws, h1, c, rfl, h2⟩
      obtain ⟨raw, raws', rfl, h3, h4⟩ := filesRead_cons.1 h1
      rw [located, List.map_cons, mergeAll, Res.bind_eq_ok] at h2
      obtain ⟨m, h5, h6⟩ := h2
      exact ⟨_, loadFile_ok.2 ⟨raw, h3, rfl⟩, m, h5, raws', h4, c, rfl, h6⟩

/-- Merge a list of configs. -/
def mergeList : List Config → Res Config
  | [] => .ok {}
  | c :: cs => mergeAll c cs

theorem loadPaths_ok {paths : List Path} {c : Config} :
    loadPaths fs parse paths = .ok c ↔ ∃ raws, FilesRead fs.read parse paths raws ∧ mergeList (located raws) = .ok c := by
  cases paths with
  | nil =>
    simp only [loadPaths, loadLoop, Res.ok_bind]
    constructor
    · intro h; exact ⟨[], ⟨rfl, by simp⟩, h⟩
    · rintro ⟨raws, ⟨h1, _⟩, h3⟩
      simp at h1
      subst h1
      exact h3
  | cons p ps =>
    simp only [loadPaths, loadLoop, Res.bind_eq_ok, loadLoop_some]
    constructor
    · rintro ⟨r, ⟨x, h1, raws, h2, c', rfl, h3⟩, h4⟩
      obtain ⟨raw, h1', rfl⟩ := loadFile_ok.1 h1
      cases h4
      exact ⟨(p, raw) :: raws, filesRead_cons.2 ⟨raw, raws, rfl, h1', h2⟩, h3⟩
    · rintro ⟨raws, h1, h2⟩
      obtain ⟨raw, raws', rfl, h3, h4⟩ := filesRead_cons.1 h1
      exact ⟨_, ⟨_, loadFile_ok.2 ⟨raw, h3, rfl⟩, raws', h4, c, rfl, h2⟩, rfl⟩

theorem filesRead_unique {read : Path → Res Str} {paths : List Path} {r1 r2 : List (Path × Config)}
    (h1 : FilesRead read parse paths r1) (h2 : FilesRead read parse paths r2) : r1 = r2 := by
  induction paths generalizing r1 r2 with
  | nil =>
    have e1 := h1.1; have e2 := h2.1
    simp at e1 e2
    rw [e1, e2]
  | cons p ps ih =>
    obtain ⟨a, as, rfl, ⟨t1, e1, e2⟩, g1⟩ := filesRead_cons.1 h1
    obtain ⟨b, bs, rfl, ⟨t2, e3, e4⟩, g2⟩ := filesRead_cons.1 h2
    rw [e1] at e3; cases e3
    rw [e2] at e4; cases e4
    rw [ih g1 g2]

theorem filesRead_mem {read : Path → Res Str} {paths : List Path} {raws : List (Path × Config)}
    (h : FilesRead read parse paths raws) {p : Path} (hp : p ∈ paths) :
    ∃ raw, (p, raw) ∈ raws ∧ ∃ text, read p = .ok text ∧ parse text = .ok raw := by
  rw [← h.1] at hp
  obtain ⟨⟨q, raw⟩, hm, rfl⟩ := List.mem_map.1 hp
  exact ⟨raw, hm, h.2 _ _ hm⟩

theorem located_wf (hparse : ∀ s c, parse s = .ok c → c.WF) {read : Path → Res Str} {paths : List Path} {raws : List (Path × Config)}
    (h : FilesRead read parse paths raws) : ∀ c ∈ located raws, c.WF := by
  intro c hc
  obtain ⟨⟨p, raw⟩, hm, rfl⟩ := List.mem_map.1 hc
  obtain ⟨t, _, h2⟩ := h.2 p raw hm
  exact (hparse _ _ h2).setPath p

theorem empty_wf : ({} : Config).WF := ⟨BMap.sorted_nil, BMap.sorted_nil, BMap.sorted_nil, BMap.sorted_nil, rfl, rfl⟩

theorem mergeList_wf {cs : List Config} {c : Config} (h : mergeList cs = .ok c) (hcs : ∀ c ∈ cs, c.WF) : c.WF := by
  cases cs with
  | nil => cases h; exact empty_wf
  | cons b cs => exact mergeAll_wf h (hcs _ (by simp)) (fun c hc => hcs c (by simp [hc]))

theorem mergeList_scalar {cs : List Config} {c : Config} (h : mergeList cs = .ok c) (hcs : ∀ c ∈ cs, c.WF) (k : ScalarKey) :
    k.get c = firstSome (cs.map fun c => k.get c) := by
  cases cs with
  | nil => cases h; cases k <;> rfl
  | cons b cs => exact mergeAll_scalar h (hcs _ (by simp)) (fun c hc => hcs c (by simp [hc])) k

theorem mergeList_present {cs : List Config} {c : Config} (h : mergeList cs = .ok c) (hcs : ∀ c ∈ cs, c.WF) (k : TableKey) :
    k.present c = cs.any fun c => k.present c := by
  cases cs with
  | nil => cases h; cases k <;> rfl
  | cons b cs => exact mergeAll_present h (hcs _ (by simp)) (fun c hc => hcs c (by simp [hc])) k

theorem mergeList_list {cs : List Config} {c : Config} (h : mergeList cs = .ok c) (hcs : ∀ c ∈ cs, c.WF) (k : ListKey) :
    JoinedList (cs.filterMap fun c => k.get c) (k.get c) := by
  cases cs with
  | nil => cases h; cases k <;> exact .unset
  | cons b cs => exact mergeAll_list h (hcs _ (by simp)) (fun c hc => hcs c (by simp [hc])) k

theorem mergeList_prog {cs : List Config} {c : Config} (h : mergeList cs = .ok c) (hcs : ∀ c ∈ cs, c.WF) (k : ProgKey) :
    JoinedProg (cs.filterMap fun c => k.get c) (k.get c) := by
  cases cs with
  | nil => cases h; cases k <;> exact .unset
  | cons b cs => exact mergeAll_prog h (hcs _ (by simp)) (fun c hc => hcs c (by simp [hc])) k

theorem mergeList_ok_iff {cs : List Config} (hcs : ∀ c ∈ cs, c.WF) :
    (∃ r, mergeList cs = .ok r) ↔ cs.Pairwise fun x y => ¬ ShapeConflict x y := by
  cases cs with
  | nil => simp [mergeList]
  | cons b cs => exact mergeAll_ok_iff (hcs _ (by simp)) (fun c hc => hcs c (by simp [hc]))

theorem Res.same_of_iff {α : Type} {x y : Res α} (hx : x ≠ .panic) (hy : y ≠ .panic) (h : ∀ a, x = .ok a ↔ y = .ok a) :
    x.Same y := by
  cases x with
  | ok a => rw [(h a).1 rfl]; simp [Res.Same]
  | panic => exact absurd rfl hx
  | err e =>
    cases y with
    | ok b => have := (h b).2 rfl; cases this
    | panic => exact absurd rfl hy
    | err e' => simp [Res.Same]

theorem loadPaths_noPanic {paths : List Path} (hr : ∀ p ∈ paths, fs.read p ≠ .panic) (hparse : ∀ s, parse s ≠ .panic) :
    loadPaths fs parse paths ≠ .panic := by
  have hfile : ∀ p, fs.read p ≠ .panic → loadFile fs parse p ≠ .panic := by
    intro p hp
    unfold loadFile
    refine Res.bind_ne_panic ?_ fun _ _ => Res.bind_ne_panic ?_ fun _ _ => by simp
    · rw [Ne, Res.withContext_eq_panic]; exact hp
    · rw [Ne, Res.withContext_eq_panic]; exact hparse _
  have hloop : ∀ ps, (∀ p ∈ ps, fs.read p ≠ .panic) → ∀ b, loadLoop fs parse ps b ≠ .panic := by
    intro ps
    induction ps with
    | nil => intro _ b; simp [loadLoop]
    | cons p ps ih =>
      intro h b
      rw [loadLoop]
      refine Res.bind_ne_panic (hfile p (h p (by simp))) fun _ _ => ?_
      have ih := ih (fun q hq => h q (by simp [hq]))
      cases b with
      | none => exact ih _
      | some b =>
        refine Res.bind_ne_panic ?_ fun _ _ => ih _
        rw [Ne, Res.withContext_eq_panic]; exact mergeConfig_noPanic _ _ _
  rw [loadPaths]
  refine Res.bind_ne_panic (hloop _ hr _) fun b _ => ?_
  cases b <;> simp

/-! ### the neutral config -/

theorem mergeMap_nil_right {V : Type} {dbg : V → V → Bool → List Dbg} {m : Merger V} (a : BMap V) (f : Bool) : mergeMap dbg m a [] f = .ok a := by
  cases a <;> rfl

theorem mergeMap_nil_left {V : Type} {dbg : V → V → Bool → List Dbg} {m : Merger V} {a : BMap V} (h : a.Sorted) (f : Bool) :
    mergeMap dbg m [] a f = .ok a := by
  rw [mergeMap_ok_iff BMap.sorted_nil h]
  exact ⟨h, fun k => by rw [BMap.get_nil, mergeOpt_none_left]⟩

theorem mergeConfig_empty_right {a : Config} (_ : a.WF) (f : Bool) : mergeConfig a {} f = .ok a := by
  rw [mergeConfig_ok_iff', mergeBuild_ok_iff, mergeDoc_ok_iff, mergeFutureIncompatReport_ok_iff, mergeCargoNew_ok_iff,
    mergeHttp_ok_iff, mergeNet_ok_iff, mergeRegistry_ok_iff, mergeTerm_ok_iff, mergeTermProgress_ok_iff]
  simp only [mergeMap_nil_right, mergeOpt_none_right, and_self]

theorem mergeConfig_empty_left {a : Config} (h : a.WF) (f : Bool) : mergeConfig {} a f = .ok a := by
  rw [mergeConfig_ok_iff', mergeBuild_ok_iff, mergeDoc_ok_iff, mergeFutureIncompatReport_ok_iff, mergeCargoNew_ok_iff,
    mergeHttp_ok_iff, mergeNet_ok_iff, mergeRegistry_ok_iff, mergeTerm_ok_iff, mergeTermProgress_ok_iff]
  simp only [mergeMap_nil_left h.alias, mergeMap_nil_left h.env, mergeMap_nil_left h.registries, mergeMap_nil_left h.target,
    mergeOpt_none_left, and_self, h.overrideTargetRustflags, h.overrideTargetRustdocflags]

theorem BMap.eq_nil {V : Type} {m : BMap V} (h : ∀ k, (m.get k).isSome = false) : m = [] := by
  cases m with
  | nil => rfl
  | cons e m => have := h e.1; simp [BMap.get] at this

theorem eq_empty_of_setsNothing {e : Config} (he : e.WF) (h : SetsNothing e) : e = {} := by
  obtain ⟨h1, h2, h3, h4⟩ := h
  have ha : e.alias = [] := BMap.eq_nil fun k => h4 (.alias k)
  have hn : e.env = [] := BMap.eq_nil fun k => h4 (.env k)
  have hr : e.registries = [] := BMap.eq_nil fun k => h4 (.registries k)
  have ht : e.target = [] := BMap.eq_nil fun k => h4 (.target k)
  have n : ∀ {α β : Type} {g : α → β} {o : Option α}, o.map g = none → o = none := by
    intro α β g o h; cases o <;> simp at h ⊢
  have b1 := n (h1 .buildJobs)
  have b2 := n (h1 .buildRustc)
  have b3 := n (h1 .buildRustcWrapper)
  have b4 := n (h1 .buildRustcWorkspaceWrapper)
  have b5 := n (h1 .buildRustdoc)
  have b6 := n (h2 .buildTarget)
  have b7 := n (h1 .buildTargetDir)
  have b8 := n (h2 .buildRustflags)
  have b9 := n (h2 .buildRustdocflags)
  have b10 := n (h1 .buildIncremental)
  have b11 := n (h1 .buildDepInfoBasedir)
  have d1 := n (h3 .docBrowser)
  have f1 := n (h1 .futureIncompatReportFrequency)
  have n1 := n (h1 .cargoNewVcs)
  have p1 := n (h1 .httpDebug)
  have p2 := n (h1 .httpProxy)
  have p3 := n (h1 .httpTimeout)
  have p4 := n (h1 .httpCainfo)
  have p5 := n (h1 .httpCheckRevoke)
  have p6 := n (h1 .httpLowSpeedLimit)
  have p7 := n (h1 .httpMultiplexing)
  have p8 := n (h1 .httpUserAgent)
  have q1 := n (h1 .netRetry)
  have q2 := n (h1 .netGitFetchWithCli)
  have q3 := n (h1 .netOffline)
  have r1 := n (h1 .registryDefault)
  have r2 := n (h1 .registryToken)
  have t1 := n (h1 .termQuiet)
  have t2 := n (h1 .termVerbose)
  have t3 := n (h1 .termColor)
  have t4 := n (h1 .termProgressWhen)
  have t5 := n (h1 .termProgressWidth)
  have o1 := he.overrideTargetRustflags
  have o2 := he.overrideTargetRustdocflags
  clear h1 h2 h3 h4 he n
  obtain ⟨ca, ⟨c1, c2, c3, c4, c5, c6, c7, c8, c9, c10, c11, c12, c13⟩, ⟨cd⟩, ce, ⟨cf⟩, ⟨cn⟩, ⟨ch1, ch2, ch3, ch4, ch5, ch6, ch7, ch8⟩,
    ⟨cn1, cn2, cn3⟩, cr, ⟨cr1, cr2⟩, ct, ⟨ct1, ct2, ct3, ⟨ct4, ct5⟩⟩⟩ := e
  simp only at *
  subst_vars
  rfl

theorem mergeAll_skip {b : Config} {l1 l2 : List Config} (hb : b.WF) (h1 : ∀ c ∈ l1, c.WF) :
    mergeAll b (l1 ++ {} :: l2) = mergeAll b (l1 ++ l2) := by
  induction l1 generalizing b with
  | nil => rw [List.nil_append, List.nil_append, mergeAll, mergeConfig_empty_right hb]; rfl
  | cons c l1 ih =>
    rw [List.cons_append, List.cons_append, mergeAll, mergeAll]
    cases hm : mergeConfig b c false with
    | ok m =>
      rw [Res.ok_bind, Res.ok_bind]
      refine ih ?_ (fun c hc => h1 c (by simp [hc]))
      exact ((mergeConfig_ok_iff hb.maps (h1 c (by simp)).maps).1 hm).wf hb
    | err e => rfl
    | panic => rfl

theorem mergeList_skip {l1 l2 : List Config} (h1 : ∀ c ∈ l1, c.WF) (h2 : ∀ c ∈ l2, c.WF) :
    mergeList (l1 ++ {} :: l2) = mergeList (l1 ++ l2) := by
  cases l1 with
  | nil =>
    cases l2 with
    | nil => rfl
    | cons c l2 =>
      simp only [List.nil_append, mergeList]
      rw [mergeAll, mergeConfig_empty_left (h2 c (by simp))]
      rfl
  | cons c l1 => exact mergeAll_skip (h1 c (by simp)) (fun c hc => h1 c (by simp [hc]))

theorem filesRead_append {read : Path → Res Str} {ps qs : List Path} {raws : List (Path × Config)} :
    FilesRead read parse (ps ++ qs) raws ↔
      ∃ r1 r2, raws = r1 ++ r2 ∧ FilesRead read parse ps r1 ∧ FilesRead read parse qs r2 := by
  induction ps generalizing raws with
  | nil =>
    constructor
    · intro h; exact ⟨[], raws, rfl, ⟨rfl, by simp⟩, h⟩
    · rintro ⟨r1, r2, rfl, ⟨h1, _⟩, h2⟩
      simp at h1
      subst h1
      exact h2
  | cons p ps ih =>
    rw [List.cons_append, filesRead_cons]
    constructor
    · rintro ⟨raw, raws', rfl, h1, h2⟩
      obtain ⟨r1, r2, rfl, h3, h4⟩ := ih.1 h2
      exact ⟨(p, raw) :: r1, r2, rfl, filesRead_cons.2 ⟨raw, r1, rfl, h1, h3⟩, h4⟩
    · rintro ⟨r1, r2, rfl, h1, h2⟩
      obtain ⟨raw, raws', rfl, h3, h4⟩ := filesRead_cons.1 h1
      exact ⟨raw, raws' ++ r2, rfl, h3, ih.2 ⟨raws', r2, rfl, h4, h2⟩⟩

theorem empty_setPath (p : Path) : ({} : Config).setPath p = {} := rfl

theorem loadPaths_skip (hparse : ∀ s c, parse s = .ok c → c.WF) {pre post : List Path} {p : Path} {text : Str} {e c : Config}
    (hread : fs.read p = .ok text) (hempty : parse text = .ok e) (hnothing : SetsNothing e) :
    loadPaths fs parse (pre ++ p :: post) = .ok c ↔ loadPaths fs parse (pre ++ post) = .ok c := by
  rw [loadPaths_ok, loadPaths_ok]
  constructor
  · rintro ⟨raws, h1, h2⟩
    obtain ⟨r1, r2, rfl, h3, h4⟩ := filesRead_append.1 h1
    obtain ⟨raw, r2, rfl, ⟨text', t1, t2⟩, h5⟩ := filesRead_cons.1 h4
    rw [hread] at t1; cases t1
    rw [hempty] at t2; cases t2
    refine ⟨r1 ++ r2, filesRead_append.2 ⟨r1, r2, rfl, h3, h5⟩, ?_⟩
    rw [eq_empty_of_setsNothing (hparse _ _ hempty) hnothing] at h2
    simp only [located, List.map_append, List.map_cons, empty_setPath] at h2 ⊢
    exact (mergeList_skip (located_wf hparse h3) (located_wf hparse h5)).symm.trans h2
  · rintro ⟨raws, h1, h2⟩
    obtain ⟨r1, r2, rfl, h3, h5⟩ := filesRead_append.1 h1
    refine ⟨r1 ++ (p, e) :: r2, filesRead_append.2 ⟨r1, _, rfl, h3, filesRead_cons.2 ⟨e, r2, rfl, ⟨text, hread, hempty⟩, h5⟩⟩, ?_⟩
    rw [eq_empty_of_setsNothing (hparse _ _ hempty) hnothing]
    simp only [located, List.map_append, List.map_cons, empty_setPath] at h2 ⊢
    exact (mergeList_skip (located_wf hparse h3) (located_wf hparse h5)).trans h2

/-! ### locality -/

theorem joinAll_append {V : Type} (m : Merger V) (a : Option V) (l1 l2 : List (Option V)) :
    joinAll m a (l1 ++ l2) = (joinAll m a l1) >>= fun r => joinAll m r l2 := by
  induction l1 generalizing a with
  | nil => rfl
  | cons b l1 ih =>
    rw [List.cons_append, joinAll, joinAll]
    cases mergeOpt m a b false <;> simp [ih]

theorem joinAll_nones {V : Type} (m : Merger V) (a : Option V) {l : List (Option V)} (h : ∀ x ∈ l, x = none) :
    joinAll m a l = .ok a := by
  induction l with
  | nil => rfl
  | cons b l ih =>
    rw [h b (by simp), joinAll_skip]
    exact ih fun x hx => h x (by simp [hx])

theorem mergeList_joinAll {V : Type} {m : Merger V} {get : Config → Option V}
    (hm : ∀ a b r, MergedFields a b r false → mergeOpt m (get a) (get b) false = .ok (get r)) (h0 : get {} = none)
    {c : Config} {cs : List Config} (h : mergeList cs = .ok c) (hcs : ∀ c ∈ cs, c.WF) :
    joinAll m none (cs.map get) = .ok (get c) := by
  cases cs with
  | nil => cases h; rw [h0]; rfl
  | cons b cs =>
    rw [List.map_cons, joinAll_none]
    exact mergeAll_joinAll hm h (hcs _ (by simp)) (fun c hc => hcs c (by simp [hc]))

theorem map_congr_pointwise {α V : Type} {get : α → V} {cs ds : List α} (h : Pointwise (fun x y => get x = get y) cs ds) :
    cs.map get = ds.map get := by
  induction h with
  | nil => rfl
  | cons h _ ih => rw [List.map_cons, List.map_cons, h, ih]

/-- The result at one key is a function of the entries at that key. -/
theorem tableKey_local {k : TableKey} {cs ds : List Config} {c d : Config} (hc : mergeList cs = .ok c) (hd : mergeList ds = .ok d)
    (hcs : ∀ c ∈ cs, c.WF) (hds : ∀ c ∈ ds, c.WF) (h : Pointwise (fun x y => k.Same x y) cs ds) : k.Same c d := by
  have key : ∀ {V : Type} {m : Merger V} {get : Config → Option V},
      (∀ a b r, MergedFields a b r false → mergeOpt m (get a) (get b) false = .ok (get r)) → get {} = none →
      Pointwise (fun x y => get x = get y) cs ds → get c = get d := by
    intro V m get hm h0 e
    have hc' := mergeList_joinAll hm h0 hc hcs
    have hd' := mergeList_joinAll hm h0 hd hds
    rw [map_congr_pointwise e, hd'] at hc'
    injection hc' with hc'
    exact hc'.symm
  cases k with
  | alias k => exact key (m := mergeStringList) (get := fun c => c.alias.get k) (fun a b r h => h.alias k) rfl h
  | env k => exact key (m := mergeEnvConfigValue) (get := fun c => c.env.get k) (fun a b r h => h.env k) rfl h
  | registries k => exact key (m := mergeRegistries) (get := fun c => c.registries.get k) (fun a b r h => h.registries k) rfl h
  | target k => exact key (m := mergeTarget) (get := fun c => c.target.get k) (fun a b r h => h.target k) rfl h

theorem tableKey_setPath {k : TableKey} (p : Path) {a b : Config} (h : k.Same a b) : k.Same (a.setPath p) (b.setPath p) := by
  cases k <;> simp only [TableKey.Same, Config.setPath, BMap.get_mapVals] at h ⊢ <;> rw [h]

theorem tableKey_only {k : TableKey} {pre post : List (Path × Config)} {p : Path} {raw : Config} {c : Config}
    (hc : mergeList (located (pre ++ (p, raw) :: post)) = .ok c) (hcs : ∀ c ∈ located (pre ++ (p, raw) :: post), c.WF)
    (honly : ∀ x ∈ pre ++ post, k.present x.2 = false) : k.Same c (raw.setPath p) := by
  have key : ∀ {V : Type} {m : Merger V} {get : Config → Option V},
      (∀ a b r, MergedFields a b r false → mergeOpt m (get a) (get b) false = .ok (get r)) → get {} = none →
      (∀ x ∈ pre ++ post, get (x.2.setPath x.1) = none) → get c = get (raw.setPath p) := by
    intro V m get hm h0 e
    have hc' := mergeList_joinAll hm h0 hc hcs
    rw [located, List.map_map, List.map_append, joinAll_append, joinAll_nones, Res.ok_bind, List.map_cons, joinAll_none,
      joinAll_nones] at hc'
    · injection hc' with hc'
      exact hc'.symm
    · intro x hx
      obtain ⟨y, hy, rfl⟩ := List.mem_map.1 hx
      exact e y (by simp [hy])
    · intro x hx
      obtain ⟨y, hy, rfl⟩ := List.mem_map.1 hx
      exact e y (by simp [hy])
  have none_of : ∀ x ∈ pre ++ post, k.present (x.2.setPath x.1) = false := fun x hx => by
    rw [present_setPath]; exact honly x hx
  cases k with
  | alias k =>
    exact key (m := mergeStringList) (get := fun c => c.alias.get k) (fun a b r h => h.alias k) rfl
      (fun x hx => by simpa [TableKey.present] using none_of x hx)
  | env k =>
    exact key (m := mergeEnvConfigValue) (get := fun c => c.env.get k) (fun a b r h => h.env k) rfl
      (fun x hx => by simpa [TableKey.present] using none_of x hx)
  | registries k =>
    exact key (m := mergeRegistries) (get := fun c => c.registries.get k) (fun a b r h => h.registries k) rfl
      (fun x hx => by simpa [TableKey.present] using none_of x hx)
  | target k =>
    exact key (m := mergeTarget) (get := fun c => c.target.get k) (fun a b r h => h.target k) rfl
      (fun x hx => by simpa [TableKey.present] using none_of x hx)

end CC
