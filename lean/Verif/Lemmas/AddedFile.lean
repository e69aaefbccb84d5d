import Verif.Lemmas.Load
import Verif.Lemmas.Walk
import Verif.Spec.AddedFile
/-
Adding a config file to a hierarchy.
-/
namespace CC

variable {fs fs' : Fs} {f : Path}

theorem AddedFile.config_other (h : AddedFile fs fs' f) {d g : Path} (hg : IsConfigOf fs'.ex d g) (hne : g ≠ f) :
    IsConfigOf fs.ex d g := by
  rcases hg with ⟨rfl, h1⟩ | ⟨rfl, h1, h2⟩
  · exact .inl ⟨rfl, (h.others _ hne).1 ▸ h1⟩
  · refine .inr ⟨rfl, (h.others _ hne).1 ▸ h1, ?_⟩
    by_cases e : Path.join d "config".toList = f
    · rw [e]; exact h.absent
    · rw [← (h.others _ e).1]; exact h2

theorem AddedFile.config_new (h : AddedFile fs fs' f) {d : Path} (hg : IsConfigOf fs'.ex d f) (g : Path) : ¬ IsConfigOf fs.ex d g := by
  intro hc
  have hne : g ≠ f := by
    rintro rfl
    rcases hc with ⟨_, h1⟩ | ⟨_, h1, _⟩ <;> (rw [h.absent] at h1; cases h1)
  rcases hc with ⟨rfl, h1⟩ | ⟨rfl, h1, h2⟩
  · rw [← (h.others _ hne).1] at h1
    rcases hg with ⟨e, _⟩ | ⟨_, _, h3⟩
    · exact hne e.symm
    · rw [h1] at h3; cases h3
  · rcases hg with ⟨e, _⟩ | ⟨e, _⟩
    · rw [h.hides d e] at h1; cases h1
    · exact hne e.symm

theorem AddedFile.config_missing (h : AddedFile fs fs' f) {d : Path} (hg : ∀ g, ¬ IsConfigOf fs'.ex d g) (g : Path) :
    ¬ IsConfigOf fs.ex d g := by
  intro hc
  have hne : g ≠ f := by
    rintro rfl
    rcases hc with ⟨_, h1⟩ | ⟨_, h1, _⟩ <;> (rw [h.absent] at h1; cases h1)
  rcases hc with ⟨rfl, h1⟩ | ⟨rfl, h1, h2⟩
  · exact hg _ (.inl ⟨rfl, (h.others _ hne).1 ▸ h1⟩)
  · by_cases e : Path.join d "config".toList = f
    · exact hg f (.inl ⟨e.symm, h.present⟩)
    · exact hg _ (.inr ⟨rfl, (h.others _ hne).1 ▸ h1, (h.others _ e).1 ▸ h2⟩)

theorem IsConfigOf.unique {ex : Path → Bool} {d f g : Path} (h : IsConfigOf ex d f) (h' : IsConfigOf ex d g) : f = g := by
  rcases h with ⟨rfl, h1⟩ | ⟨rfl, _, h1⟩ <;> rcases h' with ⟨rfl, h2⟩ | ⟨rfl, _, h2⟩
  · rfl
  · rw [h1] at h2; cases h2
  · rw [h1] at h2; cases h2
  · rfl

theorem AddedFile.configs (h : AddedFile fs fs' f) {dirs a b : List Path} (ha : ConfigsOf fs.ex dirs a) (hb : ConfigsOf fs'.ex dirs b) :
    a = b.filter (· ≠ f) := by
  induction ha generalizing b with
  | nil => cases hb; rfl
  | @found dir dirs g gs hg _ ih =>
    cases hb with
    | @found _ _ g' gs' hg' hb =>
      by_cases e : g' = f
      · subst e
        exact absurd hg (h.config_new hg' g)
      · rw [List.filter_cons_of_pos (by simpa using e), ← ih hb, IsConfigOf.unique hg (h.config_other hg' e)]
    | missing hm hb => exact absurd hg (h.config_missing hm g)
  | @missing dir dirs gs hm _ ih =>
    cases hb with
    | @found _ _ g' gs' hg' hb =>
      by_cases e : g' = f
      · rw [List.filter_cons_of_neg (by simpa using e), ← ih hb]
      · exact absurd (h.config_other hg' e) (hm g')
    | missing _ hb => exact ih hb

theorem searchDirs_unique {cwd : Path} {home : Option Path} {d d' : List Path} (h : SearchDirs cwd home d) (h' : SearchDirs cwd home d') :
    d = d' := by
  cases home with
  | none => exact Eq.trans h (Eq.symm h')
  | some x =>
    rcases h with ⟨⟨a, ha, he⟩, h⟩ | ⟨hn, h⟩ <;> rcases h' with ⟨⟨a', ha', he'⟩, h'⟩ | ⟨hn', h'⟩
    · rw [h, h']
    · exact absurd he (hn' a ha)
    · exact absurd he' (hn a' ha')
    · rw [h, h']

theorem filesRead_filter {parse : Str → Res Config} (h : AddedFile fs fs' f) {paths : List Path} {raws : List (Path × Config)}
    (hr : FilesRead fs'.read parse paths raws) : FilesRead fs.read parse (paths.filter (· ≠ f)) (raws.filter (·.1 ≠ f)) := by
  refine ⟨?_, fun p raw hm => ?_⟩
  · rw [← hr.1, List.filter_map]; rfl
  · rw [List.mem_filter] at hm
    obtain ⟨text, h1, h2⟩ := hr.2 p raw hm.1
    exact ⟨text, (h.others p (by simpa using hm.2)).2 ▸ h1, h2⟩

theorem firstSome_filter {α : Type} (f : Path) (g : Config → Option (Val α)) (raws : List (Path × Config)) :
    firstSome (raws.map fun x => (g x.2).map (Val.foundIn x.1)) =
        firstSome ((raws.filter (·.1 ≠ f)).map fun x => (g x.2).map (Val.foundIn x.1)) ∨
      ∃ v, firstSome (raws.map fun x => (g x.2).map (Val.foundIn x.1)) = some v ∧ v.isFrom f = true := by
  induction raws with
  | nil => exact .inl rfl
  | cons x raws ih =>
    by_cases e : x.1 = f
    · rw [List.filter_cons_of_neg (by simpa using e)]
      cases hg : g x.2 with
      | none => simp only [List.map_cons, hg, Option.map_none, firstSome]; exact ih
      | some v =>
        refine .inr ⟨Val.foundIn x.1 v, ?_, by simp [Val.isFrom, Val.foundIn, e]⟩
        simp only [List.map_cons, hg, Option.map_some, firstSome]
    · rw [List.filter_cons_of_pos (by simpa using e)]
      cases hg : g x.2 with
      | none => simp only [List.map_cons, hg, Option.map_none, firstSome]; exact ih
      | some v => left; simp only [List.map_cons, hg, Option.map_some, firstSome]

theorem firstSome_append {α : Type} (a b : List (Option α)) : firstSome (a ++ b) = (firstSome a).or (firstSome b) := by
  induction a with
  | nil => rfl
  | cons x a ih => cases x with
    | none => exact ih
    | some x => rfl

theorem firstSome_some_mem {α : Type} {l : List (Option α)} {v : α} (h : firstSome l = some v) : some v ∈ l := by
  induction l with
  | nil => cases h
  | cons x l ih => cases x with
    | none => exact List.mem_cons_of_mem _ (ih h)
    | some x => cases h; exact List.mem_cons_self ..

/-- The elements of a setting in the files, in order. -/
def elemsOf (g : Config → Option (Repr' × List (Val Str))) (raws : List (Path × Config)) : List (Val Str) :=
  ((raws.filterMap fun x => (g x.2).map (allFoundIn x.1)).map Prod.snd).flatten

theorem elemsOf_filter (f : Path) (g : Config → Option (Repr' × List (Val Str))) (raws : List (Path × Config)) :
    (elemsOf g raws).filter (fun v => !v.isFrom f) = elemsOf g (raws.filter (·.1 ≠ f)) := by
  induction raws with
  | nil => rfl
  | cons x raws ih =>
    have hx : elemsOf g (x :: raws) = ((g x.2).elim [] fun y => y.2.map (Val.foundIn x.1)) ++ elemsOf g raws := by
      unfold elemsOf
      cases hg : g x.2 with
      | none => simp [hg]
      | some y => simp [hg, allFoundIn]
    rw [hx, List.filter_append, ih]
    by_cases e : x.1 = f
    · rw [List.filter_cons_of_neg (by simpa using e)]
      have : (((g x.2).elim [] fun y => y.2.map (Val.foundIn x.1)).filter fun v => !v.isFrom f) = [] := by
        rw [List.filter_eq_nil_iff]
        intro v hv
        cases hg : g x.2 with
        | none => rw [hg] at hv; cases hv
        | some y =>
          rw [hg] at hv
          obtain ⟨w, _, rfl⟩ := List.mem_map.1 hv
          simp [Val.isFrom, Val.foundIn, e]
      rw [this, List.nil_append]
    · rw [List.filter_cons_of_pos (by simpa using e)]
      have : (((g x.2).elim [] fun y => y.2.map (Val.foundIn x.1)).filter fun v => !v.isFrom f) =
          (g x.2).elim [] fun y => y.2.map (Val.foundIn x.1) := by
        rw [List.filter_eq_self]
        intro v hv
        cases hg : g x.2 with
        | none => rw [hg] at hv; cases hv
        | some y =>
          rw [hg] at hv
          obtain ⟨w, _, rfl⟩ := List.mem_map.1 hv
          simp [Val.isFrom, Val.foundIn, e]
      rw [this]
      unfold elemsOf
      cases hg : g x.2 with
      | none => simp [hg]
      | some y => simp [hg, allFoundIn]

/-- The settings in the files, in order. -/
abbrev spelledIn (g : Config → Option (Repr' × List (Val Str))) (raws : List (Path × Config)) : List (Repr' × List (Val Str)) :=
  raws.filterMap fun x => (g x.2).map (allFoundIn x.1)

theorem spelledIn_filter_subset (f : Path) (g : Config → Option (Repr' × List (Val Str))) (raws : List (Path × Config)) :
    ∀ x ∈ spelledIn g (raws.filter (·.1 ≠ f)), x ∈ spelledIn g raws := by
  intro x hx
  obtain ⟨y, hy, h⟩ := List.mem_filterMap.1 hx
  exact List.mem_filterMap.2 ⟨y, (List.mem_filter.1 hy).1, h⟩

theorem spelledIn_mem_new {f : Path} {g : Config → Option (Repr' × List (Val Str))} {raws : List (Path × Config)}
    {x : Repr' × List (Val Str)} (hx : x ∈ spelledIn g raws) :
    x ∈ spelledIn g (raws.filter (·.1 ≠ f)) ∨ ∀ v ∈ x.2, v.isFrom f = true := by
  obtain ⟨y, hy, h⟩ := List.mem_filterMap.1 hx
  by_cases e : y.1 = f
  · right
    cases hg : g y.2 with
    | none => rw [hg] at h; cases h
    | some z =>
      rw [hg] at h
      cases h
      intro v hv
      obtain ⟨w, _, rfl⟩ := List.mem_map.1 hv
      simp [Val.isFrom, Val.foundIn, e]
  · exact .inl (List.mem_filterMap.2 ⟨y, List.mem_filter.2 ⟨hy, by simpa using e⟩, h⟩)

/-- The first of the strings is unchanged, or comes from the new file. -/
theorem spelledIn_head (f : Path) (g : Config → Option (Repr' × List (Val Str))) (raws : List (Path × Config)) :
    (spelledIn g raws).head? = (spelledIn g (raws.filter (·.1 ≠ f))).head? ∨
      ∃ x, (spelledIn g raws).head? = some x ∧ ∀ v ∈ x.2, v.isFrom f = true := by
  induction raws with
  | nil => exact .inl rfl
  | cons x raws ih =>
    by_cases e : x.1 = f
    · rw [List.filter_cons_of_neg (by simpa using e)]
      cases hg : g x.2 with
      | none => simp only [spelledIn, List.filterMap_cons, hg, Option.map_none]; exact ih
      | some y =>
        refine .inr ⟨allFoundIn x.1 y, ?_, ?_⟩
        · simp only [spelledIn, List.filterMap_cons, hg, Option.map_some, List.head?_cons]
        · intro v hv
          obtain ⟨w, _, rfl⟩ := List.mem_map.1 hv
          simp [Val.isFrom, Val.foundIn, e]
    · rw [List.filter_cons_of_pos (by simpa using e)]
      cases hg : g x.2 with
      | none => simp only [spelledIn, List.filterMap_cons, hg, Option.map_none]; exact ih
      | some y => left; simp only [spelledIn, List.filterMap_cons, hg, Option.map_some, List.head?_cons]

end CC
