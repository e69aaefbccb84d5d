import Verif.Spec.Serde
import Verif.Lemmas.Lists
import Verif.Lemmas.BMap
import Verif.Lemmas.Merge
/-
Lemmas on serialization.
-/
namespace CC

theorem BMap.get_append {V : Type} (a b : BMap V) (k : Str) :
    BMap.get (a ++ b) k = (BMap.get a k).or (BMap.get b k) := by
  induction a with
  | nil => rfl
  | cons e a ih =>
    obtain ⟨k', v⟩ := e
    simp only [List.cons_append, BMap.get]
    split
    · rfl
    · exact ih

theorem get_serField {α : Type} (k : String) (o : Option α) (f : α → Toml) (k' : Str) :
    BMap.get (serField k o f) k' = if k.toList = k' then o.map f else none := by
  cases o with
  | none => simp [serField, BMap.get]
  | some a => simp [serField, BMap.get]

theorem get_serSection (k : String) (b : Bool) (t : Toml) (k' : Str) :
    BMap.get (serSection k b t) k' = if k.toList = k' then (if b then none else some t) else none := by
  cases b <;> simp [serSection, BMap.get]

/-! ### Reading -/

theorem deField_rel {α : Type} {t : List (Str × Toml)} {k : String} {f : Toml → Res α} {o : Option α}
    (h : deField t k f = .ok o) : OptionRel (fun v a => f v = .ok a) (BMap.get t k.toList) o := by
  unfold deField at h
  generalize BMap.get t k.toList = x at h
  cases x with
  | none => cases Res.ok.inj h; exact .none
  | some v =>
    simp only [Res.bind_eq_ok] at h
    obtain ⟨a, ha, h⟩ := h
    cases Res.ok.inj h
    exact .some ha

theorem deField_of_rel {α : Type} {t : List (Str × Toml)} {k : String} {f : Toml → Res α} {o : Option α}
    (h : OptionRel (fun v a => f v = .ok a) (BMap.get t k.toList) o) : deField t k f = .ok o := by
  unfold deField
  generalize BMap.get t k.toList = x at h
  cases h with
  | none => rfl
  | some ha => simp [ha]

theorem deSection_inv {α : Type} {t : List (Str × Toml)} {k : String} {d x : α} {f : Toml → Res α}
    (h : deSection t k d f = .ok x) :
    (BMap.get t k.toList = none ∧ x = d) ∨ ∃ v, BMap.get t k.toList = some v ∧ f v = .ok x := by
  unfold deSection at h
  generalize BMap.get t k.toList = y at h
  cases y with
  | none => exact .inl ⟨rfl, (Res.ok.inj h).symm⟩
  | some v => exact .inr ⟨v, rfl, h⟩

theorem deVal_eq {α : Type} {f : Toml → Res α} {t : Toml} {v : Val α} (h : deVal f t = .ok v) :
    f t = .ok v.val ∧ v.defn = none := by
  simp only [deVal, Res.bind_eq_ok] at h
  obtain ⟨a, ha, h⟩ := h
  cases Res.ok.inj h
  exact ⟨ha, rfl⟩

theorem deStr_eq {t : Toml} {s : Str} (h : deStr t = .ok s) : t = .str s := by
  cases t <;> first | (cases Res.ok.inj h; rfl) | (exact absurd h (by simp [deStr, deErr]))

theorem deBool_eq {t : Toml} {s : Bool} (h : deBool t = .ok s) : t = .bool s := by
  cases t <;> first | (cases Res.ok.inj h; rfl) | (exact absurd h (by simp [deBool, deErr]))

theorem deI32_eq {t : Toml} {i : Int} (h : deI32 t = .ok i) :
    t = .int i ∧ -2147483648 ≤ i ∧ i ≤ 2147483647 := by
  cases t with
  | int j =>
    simp only [deI32] at h
    split at h
    · cases Res.ok.inj h; exact ⟨rfl, by assumption⟩
    · cases h
  | _ => cases h

theorem deU32_eq {t : Toml} {n : Nat} (h : deU32 t = .ok n) : t = .int n ∧ n ≤ 4294967295 := by
  cases t with
  | int j =>
    simp only [deU32] at h
    split at h
    · rename_i hj
      cases Res.ok.inj h
      refine ⟨?_, by omega⟩
      rw [Int.toNat_of_nonneg hj.1]
    · cases h
  | _ => cases h

theorem deElems_strs {l : List Toml} {vs : List (Val Str)} (h : deElems (deVal deStr) l = .ok vs) :
    l = (vs.map Val.val).map .str ∧ ∀ v ∈ vs, v.defn = none := by
  induction l generalizing vs with
  | nil => cases Res.ok.inj h; exact ⟨rfl, by simp⟩
  | cons t l ih =>
    simp only [deElems, Res.bind_eq_ok] at h
    obtain ⟨a, ha, as, has, h⟩ := h
    cases Res.ok.inj h
    obtain ⟨h1, h2⟩ := ih has
    obtain ⟨h3, h4⟩ := deVal_eq ha
    have h3 := deStr_eq h3
    subst h3
    refine ⟨by rw [h1]; rfl, ?_⟩
    intro v hv
    rcases List.mem_cons.1 hv with rfl | hv
    · exact h4
    · exact h2 v hv

theorem deElems_of_strs (l : List (Val Str)) :
    deElems (deVal deStr) (l.map (serVal .str)) = .ok (l.map fun v => { val := v.val, defn := none }) := by
  induction l with
  | nil => rfl
  | cons v l ih => simp only [List.map, deElems, ih]; rfl

/-- The inversion of `StringOrArray.de`. -/
theorem StringOrArray.de_eq {t : Toml} {x : StringOrArray} (h : StringOrArray.de t = .ok x) :
    (∃ s, t = .str s ∧ x = .string ⟨s, .none⟩) ∨
    ∃ vs : List (Val Str), t = .arr ((vs.map Val.val).map .str) ∧ (∀ v ∈ vs, v.defn = none) ∧ x = .array vs := by
  cases t with
  | str s => exact .inl ⟨s, rfl, (Res.ok.inj h).symm⟩
  | arr l =>
    simp only [StringOrArray.de, deList, Res.bind_eq_ok] at h
    obtain ⟨vs, hv, h⟩ := h
    cases Res.ok.inj h
    obtain ⟨h1, h2⟩ := deElems_strs hv
    exact .inr ⟨vs, by rw [h1], h2, rfl⟩
  | _ => cases h

/-- The location was not set. -/
def NoDefn {α : Type} (v : Val α) : Prop := v.defn = none

theorem map_mk_val (ws : List Str) (d : Option Definition) :
    (ws.map fun w => ({ val := w, defn := d } : Val Str)).map Val.val = ws := by
  induction ws with
  | nil => rfl
  | cons w ws ih => simp only [List.map, ih]

theorem Flags.de_eq {t : Toml} {x : Flags} (h : Flags.de t = .ok x) :
    TomlList true t x.repr (x.flags.map Val.val) ∧ ∀ v ∈ x.flags, v.defn = none := by
  simp only [Flags.de, Res.bind_eq_ok] at h
  obtain ⟨y, hy, h⟩ := h
  rcases StringOrArray.de_eq hy with ⟨s, rfl, rfl⟩ | ⟨vs, rfl, h2, rfl⟩
  · cases Res.ok.inj h
    simp only [Flags.fromSpaceSeparated, map_mk_val]
    refine ⟨wordsIn_eq ▸ .words s rfl, ?_⟩
    intro v hv; simp only [List.mem_map] at hv; obtain ⟨_, _, rfl⟩ := hv; rfl
  · cases Res.ok.inj h
    exact ⟨.array _, h2⟩

theorem StringList.de_eq {t : Toml} {x : StringList} (h : StringList.de t = .ok x) :
    TomlList true t x.repr (x.list.map Val.val) ∧ ∀ v ∈ x.list, v.defn = none := by
  simp only [StringList.de, Res.bind_eq_ok] at h
  obtain ⟨y, hy, h⟩ := h
  rcases StringOrArray.de_eq hy with ⟨s, rfl, rfl⟩ | ⟨vs, rfl, h2, rfl⟩
  · cases Res.ok.inj h
    simp only [StringList.fromString, map_mk_val]
    refine ⟨wordsIn_eq ▸ .words s rfl, ?_⟩
    intro v hv; simp only [List.mem_map] at hv; obtain ⟨_, _, rfl⟩ := hv; rfl
  · cases Res.ok.inj h
    exact ⟨.array _, h2⟩

theorem PathAndArgs.de_eq {t : Toml} {x : PathAndArgs} (h : PathAndArgs.de t = .ok x) :
    TomlList true t x.repr ((x.path :: x.args).map Val.val) ∧ ∀ v ∈ x.path :: x.args, v.defn = none := by
  simp only [PathAndArgs.de, Res.bind_eq_ok] at h
  obtain ⟨y, hy, h⟩ := h
  rcases StringOrArray.de_eq hy with ⟨s, rfl, rfl⟩ | ⟨vs, rfl, h2, rfl⟩
  · simp only [PathAndArgs.fromString] at h
    generalize hs : splitSpaceSeparated s = ws at h
    cases ws with
    | nil => cases h
    | cons w ws =>
      cases Res.ok.inj h
      simp only [List.map_cons, map_mk_val]
      refine ⟨?_, ?_⟩
      · rw [← hs]; exact wordsIn_eq ▸ .words s rfl
      · intro v hv
        rcases List.mem_cons.1 hv with rfl | hv
        · rfl
        · simp only [List.mem_map] at hv; obtain ⟨_, _, rfl⟩ := hv; rfl
  · cases vs with
    | nil => cases h
    | cons v vs =>
      cases Res.ok.inj h
      exact ⟨.array _, h2⟩

theorem deEntries_rel {V : Type} {f : Toml → Res V} :
    ∀ {l : List (Str × Toml)} {m m' : BMap V}, deEntries f m l = .ok m' → (l.map Prod.fst).Nodup → m.Sorted →
    m'.Sorted ∧ ∀ k, (BMap.get l k = none ∧ BMap.get m' k = BMap.get m k) ∨
      ∃ v a, BMap.get l k = some v ∧ f v = .ok a ∧ BMap.get m' k = some a := by
  intro l
  induction l with
  | nil => intro m m' h _ hs; cases Res.ok.inj h; exact ⟨hs, fun k => .inl ⟨rfl, rfl⟩⟩
  | cons e l ih =>
    obtain ⟨k0, t0⟩ := e
    intro m m' h hn hs
    simp only [deEntries, Res.bind_eq_ok] at h
    obtain ⟨a, ha, h⟩ := h
    simp only [List.map_cons, List.nodup_cons] at hn
    obtain ⟨h1, h2⟩ := ih h hn.2 (hs.insert k0 a)
    refine ⟨h1, fun k => ?_⟩
    simp only [BMap.get]
    by_cases hk : k0 = k
    · subst hk
      simp only [if_true]
      rcases h2 k0 with ⟨h3, h4⟩ | ⟨v, b, h3, _, _⟩
      · refine .inr ⟨t0, a, rfl, ha, ?_⟩
        rw [h4, BMap.get_insert, if_pos rfl]
      · exact absurd (List.mem_map_of_mem (f := Prod.fst) (BMap.mem_of_get h3)) hn.1
    · simp only [hk, if_false]
      rcases h2 k with ⟨h3, h4⟩ | h3
      · refine .inl ⟨h3, ?_⟩
        rw [h4, BMap.get_insert, if_neg (by first | exact hk | exact fun h => hk h.symm)]
      · exact .inr h3

theorem deMap_rel {V : Type} {f : Toml → Res V} {t : Toml} {m : BMap V} (h : deMap f t = .ok m)
    (hd : ∀ l, t = .tbl l → (l.map Prod.fst).Nodup) :
    m.Sorted ∧ ∃ l, t = .tbl l ∧ ∀ k, OptionRel (fun v a => f v = .ok a) (BMap.get l k) (BMap.get m k) := by
  cases t with
  | tbl l =>
    obtain ⟨h1, h2⟩ := deEntries_rel (show deEntries f [] l = .ok m from h) (hd l rfl) BMap.sorted_nil
    refine ⟨h1, l, rfl, fun k => ?_⟩
    rcases h2 k with ⟨h3, h4⟩ | ⟨v, a, h3, h4, h5⟩
    · rw [h3, h4]; exact .none
    · rw [h3, h5]; exact .some h4
  | _ => cases h

theorem deEntries_sorted {V : Type} {f : Toml → Res V} :
    ∀ {l : List (Str × Toml)} {m m' : BMap V}, deEntries f m l = .ok m' → m.Sorted → m'.Sorted := by
  intro l
  induction l with
  | nil => intro m m' h hs; cases Res.ok.inj h; exact hs
  | cons e l ih =>
    obtain ⟨k0, t0⟩ := e
    intro m m' h hs
    simp only [deEntries, Res.bind_eq_ok] at h
    obtain ⟨a, ha, h⟩ := h
    exact ih h (hs.insert k0 a)

theorem deEntries_mem {V : Type} {f : Toml → Res V} :
    ∀ {l : List (Str × Toml)} {m m' : BMap V}, deEntries f m l = .ok m' → m.Sorted →
    ∀ k v, BMap.get m' k = some v → BMap.get m k = some v ∨ ∃ t, f t = .ok v := by
  intro l
  induction l with
  | nil => intro m m' h _ k v hv; cases Res.ok.inj h; exact .inl hv
  | cons e l ih =>
    obtain ⟨k0, t0⟩ := e
    intro m m' h hs k v hv
    simp only [deEntries, Res.bind_eq_ok] at h
    obtain ⟨a, ha, h⟩ := h
    rcases ih h (hs.insert k0 a) k v hv with h1 | h1
    · rw [BMap.get_insert] at h1
      split at h1
      · cases h1; exact .inr ⟨t0, ha⟩
      · exact .inl h1
    · exact .inr h1

theorem deMap_mem {V : Type} {f : Toml → Res V} {t : Toml} {m : BMap V} (h : deMap f t = .ok m) :
    m.Sorted ∧ ∀ k v, BMap.get m k = some v → ∃ t, f t = .ok v := by
  cases t with
  | tbl l =>
    refine ⟨deEntries_sorted h BMap.sorted_nil, fun k v hv => ?_⟩
    rcases deEntries_mem h BMap.sorted_nil k v hv with h1 | h1
    · cases h1
    · exact h1
  | _ => cases h

end CC
