import Verif.Model.BMap
/-
Lemmas on the sorted association lists that model `BTreeMap<String, V>`.
-/
namespace CC

theorem strLt_irrefl (a : Str) : strLt a a = false := by
  induction a with
  | nil => rfl
  | cons c cs ih => simp [strLt, ih]

theorem char_toNat_inj {a b : Char} (h : a.toNat = b.toNat) : a = b :=
  Char.ext (UInt32.toNat_inj.1 h)

theorem strLt_trans {a b c : Str} (h1 : strLt a b = true) (h2 : strLt b c = true) : strLt a c = true := by
  induction a generalizing b c with
  | nil =>
    cases c with
    | nil => cases b <;> simp [strLt] at h2
    | cons _ _ => rfl
  | cons x xs ih =>
    cases b with
    | nil => simp [strLt] at h1
    | cons y ys =>
      cases c with
      | nil => simp [strLt] at h2
      | cons z zs =>
        simp only [strLt] at h1 h2 ⊢
        by_cases hxy : x.toNat < y.toNat
        · by_cases hyz : y.toNat < z.toNat
          · rw [if_pos (by omega)]
          · rw [if_neg hyz] at h2
            split at h2
            · rename_i h; subst h; rw [if_pos hxy]
            · cases h2
        · rw [if_neg hxy] at h1
          split at h1
          · rename_i h
            subst h
            by_cases hyz : x.toNat < z.toNat
            · rw [if_pos hyz]
            · rw [if_neg hyz] at h2 ⊢
              split at h2
              · rename_i h
                subst h
                rw [if_pos rfl]
                exact ih h1 h2
              · cases h2
          · cases h1

theorem strLt_total (a b : Str) : strLt a b = true ∨ a = b ∨ strLt b a = true := by
  induction a generalizing b with
  | nil => cases b <;> simp [strLt]
  | cons x xs ih =>
    cases b with
    | nil => simp [strLt]
    | cons y ys =>
      simp only [strLt]
      rcases Nat.lt_trichotomy x.toNat y.toNat with h | h | h
      · left; rw [if_pos h]
      · have := char_toNat_inj h
        subst this
        simp only [Nat.lt_irrefl, if_false, if_true, List.cons.injEq, true_and]
        exact ih ys
      · right; right; rw [if_pos h]

theorem strLt_asymm {a b : Str} (h : strLt a b = true) : strLt b a = false := by
  cases hb : strLt b a with
  | false => rfl
  | true =>
    have := strLt_trans h hb
    rw [strLt_irrefl] at this; cases this

theorem strLt_ne {a b : Str} (h : strLt a b = true) : a ≠ b := by
  intro he
  rw [he, strLt_irrefl] at h; cases h

namespace BMap
variable {V W : Type}

@[simp] theorem get_nil (k : Str) : get ([] : BMap V) k = none := rfl

theorem get_insert (m : BMap V) (k k' : Str) (v : V) :
    get (insert k v m) k' = if k = k' then some v else get m k' := by
  induction m with
  | nil => simp [insert, get]
  | cons e m ih =>
    obtain ⟨ke, ve⟩ := e
    simp only [insert]
    split
    · rename_i h
      subst h
      simp only [get]
      split <;> rfl
    · split
      · simp only [get]
      · rename_i h _
        simp only [get, ih]
        split
        · rename_i h2
          subst h2
          rw [if_neg h]
        · rfl

theorem get_eq_none_of_lt {m : BMap V} {k : Str} (h : ∀ e ∈ m, strLt k e.1 = true) : get m k = none := by
  induction m with
  | nil => rfl
  | cons e m ih =>
    obtain ⟨ke, ve⟩ := e
    simp only [get]
    rw [if_neg, ih]
    · intro x hx; exact h x (by simp [hx])
    · exact fun he => strLt_ne (h (ke, ve) (by simp)) he.symm

theorem Sorted.tail {e : Str × V} {m : BMap V} (h : Sorted (e :: m)) : Sorted m := List.Pairwise.of_cons h

theorem Sorted.head {e : Str × V} {m : BMap V} (h : Sorted (e :: m)) : ∀ x ∈ m, strLt e.1 x.1 = true :=
  (List.pairwise_cons.1 h).1

theorem sorted_nil : Sorted ([] : BMap V) := List.Pairwise.nil

theorem mem_insert {m : BMap V} {k : Str} {v : V} {e : Str × V} (h : e ∈ insert k v m) :
    e = (k, v) ∨ e ∈ m := by
  induction m with
  | nil => simp [insert] at h; exact .inl h
  | cons x m ih =>
    obtain ⟨kx, vx⟩ := x
    simp only [insert] at h
    split at h
    · rcases List.mem_cons.1 h with h | h
      · exact .inl h
      · exact .inr (by simp [h])
    · split at h
      · rcases List.mem_cons.1 h with h | h
        · exact .inl h
        · exact .inr h
      · rcases List.mem_cons.1 h with h | h
        · exact .inr (by simp [h])
        · rcases ih h with h | h
          · exact .inl h
          · exact .inr (by simp [h])

theorem Sorted.insert {m : BMap V} (h : Sorted m) (k : Str) (v : V) : Sorted (insert k v m) := by
  induction m with
  | nil => simp [BMap.insert, Sorted]
  | cons x m ih =>
    obtain ⟨kx, vx⟩ := x
    simp only [BMap.insert]
    split
    · rename_i he
      subst he
      exact List.pairwise_cons.2 ⟨h.head, h.tail⟩
    · rename_i hne
      split
      · rename_i hlt
        refine List.pairwise_cons.2 ⟨?_, h⟩
        intro y hy
        rcases List.mem_cons.1 hy with hy | hy
        · subst hy; exact hlt
        · exact strLt_trans hlt (h.head y hy)
      · rename_i hnlt
        refine List.pairwise_cons.2 ⟨?_, ih h.tail⟩
        intro y hy
        rcases mem_insert hy with hy | hy
        · subst hy
          rcases strLt_total k kx with h1 | h1 | h1
          · exact absurd h1 hnlt
          · exact absurd h1 hne
          · exact h1
        · exact h.head y hy

theorem mem_of_get {m : BMap V} {k : Str} {v : V} (h : get m k = some v) : (k, v) ∈ m := by
  induction m with
  | nil => simp at h
  | cons e m ih =>
    obtain ⟨ke, ve⟩ := e
    simp only [get] at h
    split at h
    · rename_i hk
      injection h with h
      subst hk; subst h; simp
    · exact List.mem_cons_of_mem _ (ih h)

theorem get_of_mem {m : BMap V} (hs : Sorted m) {k : Str} {v : V} (h : (k, v) ∈ m) : get m k = some v := by
  induction m with
  | nil => simp at h
  | cons e m ih =>
    obtain ⟨ke, ve⟩ := e
    simp only [get]
    rcases List.mem_cons.1 h with h | h
    · injection h with h1 h2
      subst h1; subst h2; simp
    · rw [if_neg (strLt_ne (hs.head _ h))]
      exact ih hs.tail h

theorem mem_iff_get {m : BMap V} (hs : Sorted m) {k : Str} {v : V} : (k, v) ∈ m ↔ get m k = some v :=
  ⟨get_of_mem hs, mem_of_get⟩

/-- Two `BTreeMap`s with the same entries are equal. -/
theorem ext {a b : BMap V} (ha : Sorted a) (hb : Sorted b) (h : ∀ k, get a k = get b k) : a = b := by
  induction a generalizing b with
  | nil =>
    cases b with
    | nil => rfl
    | cons e b =>
      have := h e.1
      simp [get] at this
  | cons x a ih =>
    obtain ⟨kx, vx⟩ := x
    cases b with
    | nil =>
      have := h kx
      simp [get] at this
    | cons y b =>
      obtain ⟨ky, vy⟩ := y
      have hna : ∀ k, strLt k kx = true → get ((kx, vx) :: a) k = none := by
        intro k hk
        apply get_eq_none_of_lt
        intro e he
        rcases List.mem_cons.1 he with he | he
        · subst he; exact hk
        · exact strLt_trans hk (ha.head e he)
      have hnb : ∀ k, strLt k ky = true → get ((ky, vy) :: b) k = none := by
        intro k hk
        apply get_eq_none_of_lt
        intro e he
        rcases List.mem_cons.1 he with he | he
        · subst he; exact hk
        · exact strLt_trans hk (hb.head e he)
      have hk : kx = ky := by
        rcases strLt_total kx ky with h1 | h1 | h1
        · have := h kx
          rw [hnb kx h1] at this
          simp [get] at this
        · exact h1
        · have := h ky
          rw [hna ky h1] at this
          simp [get] at this
      subst hk
      have hv : vx = vy := by
        have := h kx
        simpa [get] using this
      subst hv
      congr 1
      apply ih ha.tail hb.tail
      intro k
      have := h k
      simp only [get] at this
      by_cases hk : kx = k
      · subst hk
        rw [get_eq_none_of_lt ha.head, get_eq_none_of_lt hb.head]
      · simpa [hk] using this

theorem get_mapVals (f : V → W) (m : BMap V) (k : Str) : get (mapVals f m) k = (get m k).map f := by
  induction m with
  | nil => rfl
  | cons e m ih =>
    obtain ⟨ke, ve⟩ := e
    have ih' : get (List.map (fun x => match x with | (k, v) => (k, f v)) m) k = (get m k).map f := ih
    simp only [mapVals, List.map_cons, get]
    split
    · rfl
    · exact ih'

theorem Sorted.mapVals {m : BMap V} (h : Sorted m) (f : V → W) : Sorted (mapVals f m) := by
  unfold Sorted BMap.mapVals
  rw [List.pairwise_map]
  exact h

theorem get_isSome_iff {m : BMap V} {k : Str} : (get m k).isSome = true ↔ k ∈ keys m := by
  induction m with
  | nil => simp [keys]
  | cons e m ih =>
    obtain ⟨ke, ve⟩ := e
    have ih' : (get m k).isSome = true ↔ k ∈ List.map Prod.fst m := ih
    simp only [get, keys, List.map_cons, List.mem_cons]
    split
    · rename_i h; subst h; simp
    · rename_i h
      rw [ih']
      constructor
      · exact .inr
      · rintro (h' | h')
        · exact absurd h'.symm h
        · exact h'

end BMap
end CC
