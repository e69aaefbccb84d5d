import Verif.Lemmas.Str
/-
Lemmas on the path model.
-/
namespace CC
namespace Path

theorem isAbsolute_iff (s : Path) : isAbsolute s = true ↔ ∃ p ps, splitOn '/' s = [] :: p :: ps := by
  cases s with
  | nil => simp [isAbsolute, splitOn]
  | cons c cs =>
    by_cases h : c = '/'
    · subst h
      rw [splitOn_sep]
      cases hs : splitOn '/' cs with
      | nil => exact absurd hs (splitOn_ne_nil _ _)
      | cons p ps => simp [isAbsolute]
    · constructor
      · intro ha
        exfalso
        unfold isAbsolute at ha
        split at ha
        · rename_i heq; injection heq with h1 _; exact h h1
        · cases ha
      · rintro ⟨p, ps, h2⟩
        simp only [splitOn, h, if_false] at h2
        split at h2 <;> simp at h2

theorem kept_nil : kept [] = [] := by decide

theorem getLast?_eq_some_iff' {d : Path} {c : Char} (h : d.getLast? = some c) : ∃ e, d = e ++ [c] := by
  exact List.getLast?_eq_some_iff.1 h

theorem join_relative (d x : Path) (h : isAbsolute x = false) :
    (d = [] ∧ join d x = x) ∨ (∃ e, d = e ++ ['/'] ∧ join d x = e ++ '/' :: x) ∨
      (d ≠ [] ∧ join d x = d ++ '/' :: x) := by
  unfold join
  rw [h]
  simp only [Bool.false_eq_true, if_false]
  split
  · rename_i h1
    left
    exact ⟨List.getLast?_eq_none_iff.1 h1, rfl⟩
  · rename_i h1
    obtain ⟨e, he⟩ := List.getLast?_eq_some_iff.1 h1
    right; left
    exact ⟨e, he, by simp [he]⟩
  · rename_i h1
    right; right
    refine ⟨?_, rfl⟩
    intro h0; rw [h0] at h1; simp at h1

theorem kept_join (d x : Path) (h : isAbsolute x = false) : kept (join d x) = kept d ++ kept x := by
  rcases join_relative d x h with ⟨h1, h2⟩ | ⟨e, h1, h2⟩ | ⟨_, h2⟩
  · rw [h2, h1, kept_nil]; rfl
  · rw [h2, h1]
    unfold kept
    rw [splitOn_append, splitOn_append]
    have : splitOn '/' [] = [[]] := rfl
    simp [this, List.filter_append, junk]
  · rw [h2]
    unfold kept
    rw [splitOn_append, List.filter_append]

theorem splitOn_head_append_sep (e x y : Path) :
    (splitOn '/' (e ++ '/' :: x)).head? = (splitOn '/' (e ++ '/' :: y)).head? := by
  rw [splitOn_append, splitOn_append]
  cases hs : splitOn '/' e with
  | nil => exact absurd hs (splitOn_ne_nil _ _)
  | cons p ps => rfl

theorem isAbsolute_append (e x : Path) (h : e ≠ []) : isAbsolute (e ++ x) = isAbsolute e := by
  cases e with
  | nil => exact absurd rfl h
  | cons c cs =>
    simp only [List.cons_append, isAbsolute]
    split
    · rename_i heq; injection heq with h1 _; subst h1; rfl
    · rename_i hn
      split
      · rename_i heq; injection heq with h1 _; exact absurd (by rw [h1]) (hn (cs ++ x))
      · rfl

theorem lead_join (d x : Path) (h : isAbsolute x = false) (hx : lead x = []) : lead (join d x) = lead d := by
  rcases join_relative d x h with ⟨h1, h2⟩ | ⟨e, h1, h2⟩ | ⟨h1, h2⟩
  · rw [h2, h1, hx]; decide
  · rw [h2, h1]
    unfold lead
    have hh := splitOn_head_append_sep e x []
    rw [hh]
    have ha : isAbsolute (e ++ '/' :: x) = isAbsolute (e ++ ['/']) := by
      cases e with
      | nil => rfl
      | cons c cs =>
        rw [isAbsolute_append _ _ (by simp), isAbsolute_append _ _ (by simp)]
    rw [ha]
  · rw [h2]
    unfold lead
    rw [isAbsolute_append _ _ h1, splitOn_append]
    cases hs : splitOn '/' d with
    | nil => exact absurd hs (splitOn_ne_nil _ _)
    | cons p ps => rfl

theorem lead_join_ne (d x : Path) (h : isAbsolute x = false) (hd : d ≠ []) : lead (join d x) = lead d := by
  rcases join_relative d x h with ⟨h1, _⟩ | ⟨e, h1, h2⟩ | ⟨h1, h2⟩
  · exact absurd h1 hd
  · rw [h2, h1]
    unfold lead
    have hh := splitOn_head_append_sep e x []
    rw [hh]
    have ha : isAbsolute (e ++ '/' :: x) = isAbsolute (e ++ ['/']) := by
      cases e with
      | nil => rfl
      | cons c cs =>
        rw [isAbsolute_append _ _ (by simp), isAbsolute_append _ _ (by simp)]
    rw [ha]
  · rw [h2]
    unfold lead
    rw [isAbsolute_append _ _ h1, splitOn_append]
    cases hs : splitOn '/' d with
    | nil => exact absurd hs (splitOn_ne_nil _ _)
    | cons p ps => rfl

theorem filter_kept_toComp (l : List Str) : (l.map toComp).filter (fun c => c ≠ .cur) = l.map toComp := by
  rw [List.filter_eq_self]
  intro c hc
  obtain ⟨p, _, rfl⟩ := List.mem_map.1 hc
  unfold toComp
  split <;> simp

theorem components_join_relative (d x : Path) (h : isAbsolute x = false) (hd : d ≠ []) :
    components (join d x) = components d ++ (components x).filter (fun c => c ≠ .cur) := by
  have hl : (lead x).filter (fun c => c ≠ .cur) = [] := by
    unfold lead
    rw [h]
    simp only [Bool.false_eq_true, if_false]
    split <;> rfl
  unfold components
  rw [lead_join_ne d x h hd, kept_join d x h, List.filter_append, hl, filter_kept_toComp]
  simp

/-- A single ordinary file name. -/
def Simple (x : Str) : Prop := '/' ∉ x ∧ junk x = false ∧ x ≠ "..".toList

theorem Simple.notAbs {x : Str} (h : Simple x) : isAbsolute x = false := by
  cases x with
  | nil => rfl
  | cons c cs =>
    unfold isAbsolute
    split
    · rename_i heq
      injection heq with h1 _
      subst h1
      exact absurd (List.mem_cons_self) h.1
    · rfl

theorem Simple.kept {x : Str} (h : Simple x) : kept x = [x] := by
  unfold Path.kept
  rw [splitOn_of_not_mem _ _ h.1]
  simp [h.2.1]

theorem Simple.lead {x : Str} (h : Simple x) : lead x = [] := by
  unfold Path.lead
  rw [h.notAbs, splitOn_of_not_mem _ _ h.1]
  have : x ≠ ['.'] := by
    intro h0
    have := h.2.1
    rw [h0] at this
    simp [junk] at this
  simp [this]

theorem components_join (d x : Path) (h : Simple x) :
    components (join d x) = components d ++ [.normal x] := by
  unfold components
  rw [lead_join d x h.notAbs h.lead, kept_join d x h.notAbs, h.kept]
  simp only [List.map_append, List.append_assoc, List.map_cons, List.map_nil, toComp]
  rw [if_neg h.2.2]

theorem eqv_iff (a b : Path) : eqv a b = true ↔ components a = components b := by
  simp [eqv]

/-! ### parent and ancestors -/

theorem reverse_dropWhile_junk (l : List Str) :
    ∃ trail, l = (l.reverse.dropWhile junk).reverse ++ trail ∧ (∀ p ∈ trail, junk p = true) ∧
      ∀ p, (l.reverse.dropWhile junk).head? = some p → junk p = false := by
  have aux : ∀ r : List Str, ∃ a, r = a ++ r.dropWhile junk ∧ (∀ p ∈ a, junk p = true) ∧
      ∀ p, (r.dropWhile junk).head? = some p → junk p = false := by
    intro r
    induction r with
    | nil => exact ⟨[], rfl, by simp, by simp⟩
    | cons d ds ih =>
      simp only [List.dropWhile]
      split
      · rename_i hd
        obtain ⟨a, h1, h2, h3⟩ := ih
        refine ⟨d :: a, by simp [← h1], ?_, h3⟩
        intro c hc
        rcases List.mem_cons.1 hc with h | h
        · subst h; exact hd
        · exact h2 c h
      · rename_i hd
        refine ⟨[], rfl, by simp, ?_⟩
        intro p hp; simp at hp; subst hp; exact hd
  obtain ⟨a, h1, h2, h3⟩ := aux l.reverse
  refine ⟨a.reverse, ?_, ?_, h3⟩
  · have := congrArg List.reverse h1
    simpa using this
  · intro p hp; exact h2 p (by simpa using hp)

theorem filter_junk_nil {l : List Str} (h : ∀ p ∈ l, junk p = true) : l.filter (fun p => !junk p) = [] := by
  rw [List.filter_eq_nil_iff]; intro p hp; simp [h p hp]

theorem parent_of_kept_nil (s : Path) (h : kept s = []) :
    parent s = if lead s = [.cur] then some [] else none := by
  have hj : ∀ p ∈ splitOn '/' s, junk p = true := by
    intro p hp
    unfold kept at h
    rw [List.filter_eq_nil_iff] at h
    simpa using h p hp
  have : (splitOn '/' s).reverse.dropWhile junk = [] := by
    obtain ⟨trail, h1, _, h3⟩ := reverse_dropWhile_junk (splitOn '/' s)
    cases hd : (splitOn '/' s).reverse.dropWhile junk with
    | nil => rfl
    | cons q qs =>
      exfalso
      have hq := h3 q (by simp [hd])
      have : q ∈ splitOn '/' s := by
        rw [h1, hd]; simp
      rw [hj q this] at hq; cases hq
  unfold parent lead
  rw [this]
  simp only
  by_cases ha : isAbsolute s = true
  · simp [ha]
  · simp only [ha]
    by_cases hh : (splitOn '/' s).head? = some ['.']
    · simp [hh]
    · simp [hh]

theorem kept_leadStr (s : Path) : kept (leadStr s) = [] ∧ lead (leadStr s) = lead s := by
  unfold leadStr lead
  by_cases ha : isAbsolute s = true
  · simp only [ha, if_true]; decide
  · simp only [ha]
    by_cases hh : (splitOn '/' s).head? = some ['.']
    · simp only [hh, if_true]; decide
    · simp only [hh, if_false]; decide

theorem parent_of_kept (s : Path) (ks : List Str) (k : Str) (h : kept s = ks ++ [k]) :
    ∃ p, parent s = some p ∧ kept p = ks ∧ lead p = lead s := by
  obtain ⟨t1, h1, h2, h3⟩ := reverse_dropWhile_junk (splitOn '/' s)
  cases hd : (splitOn '/' s).reverse.dropWhile junk with
  | nil =>
    exfalso
    rw [hd] at h1
    simp at h1
    have : kept s = [] := by unfold kept; rw [h1]; exact filter_junk_nil h2
    rw [this] at h; simp at h
  | cons q r =>
    rw [hd] at h1 h3
    have hq := h3 q rfl
    simp only [List.reverse_cons] at h1
    have hk : kept s = r.reverse.filter (fun p => !junk p) ++ [q] := by
      unfold kept
      rw [h1]
      simp [List.filter_append, filter_junk_nil h2, hq]
    rw [hk] at h
    obtain ⟨hks, hkq⟩ := List.append_inj' h rfl
    obtain ⟨t2, g1, g2, g3⟩ := reverse_dropWhile_junk r.reverse
    rw [List.reverse_reverse] at g1 g3
    have hpar : parent s = match r.dropWhile junk with
        | [] => some (leadStr s)
        | q => some (joinWith '/' q.reverse) := by
      simp only [parent, hd]
      cases List.dropWhile junk r <;> rfl
    rw [hpar]
    cases hr : r.dropWhile junk with
    | nil =>
      rw [hr] at g1
      simp at g1
      refine ⟨leadStr s, rfl, ?_, (kept_leadStr s).2⟩
      rw [(kept_leadStr s).1, ← hks, ← List.reverse_reverse r, g1]
      simp
      intro p hp
      exact g2 p hp
    | cons q2 r2 =>
      rw [hr] at g1 g3
      have hsplit : splitOn '/' (joinWith '/' (q2 :: r2).reverse) = (q2 :: r2).reverse := by
        apply splitOn_joinWith
        · simp
        · intro p hp
          apply not_mem_of_mem_splitOn '/' s
          rw [h1, g1]
          simp only [List.mem_append]
          exact .inl (.inl (.inl hp))
      refine ⟨_, rfl, ?_, ?_⟩
      · unfold kept
        rw [hsplit, ← hks, g1, List.filter_append, filter_junk_nil g2]
        simp
      · have hq2 := g3 q2 rfl
        have hps : splitOn '/' s = (q2 :: r2).reverse ++ (t2 ++ [q] ++ t1) := by
          rw [h1, g1]; simp
        have hhead : (splitOn '/' (joinWith '/' (q2 :: r2).reverse)).head? = (splitOn '/' s).head? := by
          rw [hsplit, hps]
          cases hrev : (q2 :: r2).reverse with
          | nil => simp at hrev
          | cons a as => rfl
        have habs : isAbsolute (joinWith '/' (q2 :: r2).reverse) = isAbsolute s := by
          rw [Bool.eq_iff_iff, isAbsolute_iff, isAbsolute_iff, hsplit, hps]
          cases hrev : (q2 :: r2).reverse with
          | nil => simp at hrev
          | cons a as =>
            cases as with
            | nil =>
              have : (q2 :: r2) = [a] := by
                have := congrArg List.reverse hrev
                simpa using this
              have hqa : q2 = a := by injection this
              constructor
              · rintro ⟨p, ps, h⟩; simp at h
              · rintro ⟨p, ps, h⟩
                simp at h
                rw [hqa, h.1] at hq2
                simp [junk] at hq2
            | cons b bs => simp
        unfold lead
        rw [habs, hhead]

/-- Number of proper ancestors. -/
def depth (s : Path) : Nat := (kept s).length + (if lead s = [.cur] then 1 else 0)

theorem parent_depth (s p : Path) (h : parent s = some p) : depth s = depth p + 1 := by
  rcases List.eq_nil_or_concat (kept s) with hk | ⟨ks, k, hk⟩
  · rw [parent_of_kept_nil s hk] at h
    split at h
    · rename_i hl
      injection h with h
      subst h
      unfold depth
      rw [hk, hl]
      decide
    · cases h
  · have hk' : kept s = ks ++ [k] := by simpa using hk
    obtain ⟨p', h1, h2, h3⟩ := parent_of_kept s ks k hk'
    rw [h1] at h
    injection h with h
    subst h
    unfold depth
    rw [hk', h2, h3]
    simp; omega

theorem ancestorsFuel_stable (n : Nat) : ∀ (m : Nat) (s : Path), depth s ≤ n → depth s ≤ m →
    ancestorsFuel n s = ancestorsFuel m s := by
  induction n with
  | zero =>
    intro m s h _
    cases m with
    | zero => rfl
    | succ m =>
      simp only [ancestorsFuel]
      cases hp : parent s with
      | none => rfl
      | some p => have := parent_depth s p hp; omega
  | succ n ih =>
    intro m s h1 h2
    cases m with
    | zero =>
      simp only [ancestorsFuel]
      cases hp : parent s with
      | none => rfl
      | some p => have := parent_depth s p hp; omega
    | succ m =>
      simp only [ancestorsFuel]
      cases hp : parent s with
      | none => rfl
      | some p =>
        have := parent_depth s p hp
        simp only
        rw [ih m p (by omega) (by omega)]

theorem depth_le (s : Path) : depth s ≤ (splitOn '/' s).length := by
  unfold depth kept lead
  have hle := List.length_filter_le (fun p => !junk p) (splitOn '/' s)
  by_cases ha : isAbsolute s = true
  · simp [ha]; exact hle
  · simp only [ha]
    cases hs : splitOn '/' s with
    | nil => exact absurd hs (splitOn_ne_nil _ _)
    | cons p ps =>
      by_cases hp : p = ['.']
      · subst hp
        simp [junk]
        exact List.length_filter_le _ _
      · rw [hs] at hle
        simp [hp]
        exact hle

theorem ancestors_eq (s : Path) :
    ancestors s = s :: match parent s with
      | none => []
      | some p => ancestors p := by
  unfold ancestors
  rw [ancestorsFuel]
  cases hp : parent s with
  | none => rfl
  | some p =>
    simp only
    have := parent_depth s p hp
    have := depth_le s
    have := depth_le p
    rw [ancestorsFuel_stable _ ((splitOn '/' p).length + 1) p (by omega) (by omega)]

end Path
end CC
