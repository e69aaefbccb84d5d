import Verif.Model.Lists
import Verif.Spec.Text
/-
Lemmas on splitting, joining and trimming strings.
-/
namespace CC

theorem splitOn_ne_nil (sep : Char) (s : Str) : splitOn sep s ≠ [] := by
  cases s with
  | nil => simp [splitOn]
  | cons c cs =>
    simp only [splitOn]
    split
    · simp
    · split <;> simp

theorem splitOn_sep (sep : Char) (s : Str) : splitOn sep (sep :: s) = [] :: splitOn sep s := by
  simp [splitOn]

theorem splitOn_append (sep : Char) (a b : Str) :
    splitOn sep (a ++ sep :: b) = splitOn sep a ++ splitOn sep b := by
  induction a with
  | nil => simp [splitOn]
  | cons c cs ih =>
    simp only [List.cons_append, splitOn]
    by_cases h : c = sep
    · simp [h, ih]
    · simp only [h, if_false, ih]
      cases hs : splitOn sep cs with
      | nil => exact absurd hs (splitOn_ne_nil _ _)
      | cons p ps => simp

theorem splitOn_of_not_mem (sep : Char) (s : Str) (h : sep ∉ s) : splitOn sep s = [s] := by
  induction s with
  | nil => rfl
  | cons c cs ih =>
    simp only [List.mem_cons, not_or] at h
    simp only [splitOn, ih h.2]
    rw [if_neg (Ne.symm h.1)]

theorem not_mem_of_mem_splitOn (sep : Char) (s p : Str) (h : p ∈ splitOn sep s) : sep ∉ p := by
  induction s generalizing p with
  | nil => simp [splitOn] at h; simp [h]
  | cons c cs ih =>
    simp only [splitOn] at h
    split at h
    · simp at h
      rcases h with h | h
      · simp [h]
      · exact ih p h
    · rename_i hc
      split at h
      · rename_i h0
        exact absurd h0 (splitOn_ne_nil _ _)
      · rename_i q qs hq
        rcases List.mem_cons.1 h with h | h
        · subst h
          simp only [List.mem_cons, not_or]
          exact ⟨Ne.symm hc, ih q (by simp [hq])⟩
        · exact ih p (by simp [hq, h])

theorem joinWith_splitOn (sep : Char) (s : Str) : joinWith sep (splitOn sep s) = s := by
  induction s with
  | nil => rfl
  | cons c cs ih =>
    simp only [splitOn]
    split
    · rename_i h
      subst h
      cases hs : splitOn c cs with
      | nil => exact absurd hs (splitOn_ne_nil _ _)
      | cons p ps => simp [joinWith, ← hs, ih]
    · split
      · rename_i h0
        exact absurd h0 (splitOn_ne_nil _ _)
      · rename_i q qs hq
        rw [hq] at ih
        cases qs with
        | nil => simp [joinWith] at ih ⊢; exact ih
        | cons r rs => simp [joinWith] at ih ⊢; exact ih

theorem splitOn_joinWith (sep : Char) (ps : List Str) (hne : ps ≠ []) (h : ∀ p ∈ ps, sep ∉ p) :
    splitOn sep (joinWith sep ps) = ps := by
  induction ps with
  | nil => exact absurd rfl hne
  | cons p ps ih =>
    cases ps with
    | nil => simp only [joinWith]; exact splitOn_of_not_mem _ _ (h p (by simp))
    | cons q qs =>
      simp only [joinWith]
      rw [splitOn_append, splitOn_of_not_mem _ _ (h p (by simp)), ih (by simp)]
      · rfl
      · intro r hr; exact h r (by simp [hr])

theorem splitOn_length (sep : Char) (s : Str) :
    (splitOn sep s).length = s.count sep + 1 := by
  induction s with
  | nil => rfl
  | cons c cs ih =>
    simp only [splitOn]
    split
    · rename_i h; subst h; simp [ih]
    · rename_i h
      cases hs : splitOn sep cs with
      | nil => exact absurd hs (splitOn_ne_nil _ _)
      | cons p ps =>
        rw [hs] at ih
        simp only [List.length_cons] at ih ⊢
        rw [ih, List.count_cons_of_ne h]

theorem splitOn_append_not_mem (sep : Char) (a b : Str) (h : sep ∉ b) :
    ∃ init last, splitOn sep a = init ++ [last] ∧ splitOn sep (a ++ b) = init ++ [last ++ b] := by
  induction a with
  | nil => exact ⟨[], [], rfl, by simp [splitOn_of_not_mem _ _ h]⟩
  | cons c cs ih =>
    obtain ⟨i, l, h1, h2⟩ := ih
    simp only [List.cons_append, splitOn, h1, h2]
    by_cases hc : c = sep
    · exact ⟨[] :: i, l, by simp [hc], by simp [hc]⟩
    · simp only [hc, if_false]
      cases i with
      | nil => exact ⟨[], c :: l, by simp, by simp⟩
      | cons x xs => exact ⟨(c :: x) :: xs, l, by simp, by simp⟩

theorem splitOn_head_append (sep : Char) (a b : Str) (h : sep ∉ a) :
    ∃ hd tl, splitOn sep b = hd :: tl ∧ splitOn sep (a ++ b) = (a ++ hd) :: tl := by
  induction a with
  | nil =>
    cases hs : splitOn sep b with
    | nil => exact absurd hs (splitOn_ne_nil _ _)
    | cons p ps => exact ⟨p, ps, rfl, by simp [hs]⟩
  | cons c cs ih =>
    simp only [List.mem_cons, not_or] at h
    obtain ⟨hd, tl, h1, h2⟩ := ih h.2
    refine ⟨hd, tl, h1, ?_⟩
    simp only [List.cons_append, splitOn, h2]
    rw [if_neg (Ne.symm h.1)]

/-! ### trimming -/

theorem dropWhile_eq_self_of_head {p : Char → Bool} {s : Str}
    (h : ∀ c, s.head? = some c → p c = false) : s.dropWhile p = s := by
  cases s with
  | nil => rfl
  | cons c cs => simp [List.dropWhile, h c rfl]

theorem head_dropWhile {p : Char → Bool} {s : Str} {c : Char}
    (h : (s.dropWhile p).head? = some c) : p c = false := by
  induction s with
  | nil => simp at h
  | cons d ds ih =>
    simp only [List.dropWhile] at h
    split at h
    · exact ih h
    · rename_i hd
      simp at h
      subst h; exact hd

theorem exists_takeWhile (p : Char → Bool) (s : Str) :
    ∃ a, s = a ++ s.dropWhile p ∧ ∀ c ∈ a, p c = true := by
  induction s with
  | nil => exact ⟨[], rfl, by simp⟩
  | cons d ds ih =>
    simp only [List.dropWhile]
    split
    · rename_i hd
      obtain ⟨a, h1, h2⟩ := ih
      refine ⟨d :: a, by simp [← h1], ?_⟩
      intro c hc
      rcases List.mem_cons.1 hc with h | h
      · subst h; exact hd
      · exact h2 c h
    · exact ⟨[], rfl, by simp⟩

theorem trimEnd_spec (s : Str) :
    ∃ b, s = trimEnd s ++ b ∧ (∀ c ∈ b, isWhitespace c = true) ∧
      ∀ c, (trimEnd s).getLast? = some c → isWhitespace c = false := by
  obtain ⟨a, h1, h2⟩ := exists_takeWhile isWhitespace s.reverse
  refine ⟨a.reverse, ?_, ?_, ?_⟩
  · have := congrArg List.reverse h1
    simpa [trimEnd] using this
  · intro c hc; exact h2 c (by simpa using hc)
  · intro c hc
    simp only [trimEnd, List.getLast?_reverse] at hc
    exact head_dropWhile hc

theorem trim_spec (s : Str) :
    ∃ a b, s = a ++ trim s ++ b ∧ (∀ c ∈ a, isWhitespace c = true) ∧ (∀ c ∈ b, isWhitespace c = true) ∧
      Trimmed (trim s) := by
  obtain ⟨a, ha, haw⟩ := exists_takeWhile isWhitespace s
  obtain ⟨b, hb, hbw, hbl⟩ := trimEnd_spec (trimStart s)
  refine ⟨a, b, ?_, haw, hbw, ?_, hbl⟩
  · rw [List.append_assoc]
    unfold trim
    rw [← hb]
    exact ha
  · intro c hc
    have : (trimStart s).head? = some c := by
      rw [hb]
      unfold trim at hc
      rw [List.head?_append, hc]; rfl
    exact head_dropWhile this

theorem trim_eq_self_iff (s : Str) : trim s = s ↔ Trimmed s := by
  constructor
  · intro h
    have := (trim_spec s).choose_spec.choose_spec.2.2.2
    rw [h] at this
    exact this
  · intro h
    have h1 : trimStart s = s := dropWhile_eq_self_of_head h.1
    unfold trim
    rw [h1]
    unfold trimEnd
    rw [dropWhile_eq_self_of_head]
    · simp
    · intro c hc
      apply h.2
      simpa using hc

theorem trim_trimmed (s : Str) : Trimmed (trim s) := (trim_spec s).choose_spec.choose_spec.2.2.2

theorem trim_trim (s : Str) : trim (trim s) = trim s := (trim_eq_self_iff _).2 (trim_trimmed s)

theorem mem_of_mem_trim {s : Str} {c : Char} (h : c ∈ trim s) : c ∈ s := by
  obtain ⟨a, b, h1, _⟩ := trim_spec s
  rw [h1]; simp [h]

theorem isWhitespace_space : isWhitespace ' ' = true := by decide

theorem filter_trim (s : Str) :
    (trim s).filter (fun c => !isWhitespace c) = s.filter (fun c => !isWhitespace c) := by
  obtain ⟨a, b, h1, ha, hb, _⟩ := trim_spec s
  conv => rhs; rw [h1]
  have e : ∀ l : Str, (∀ c ∈ l, isWhitespace c = true) → l.filter (fun c => !isWhitespace c) = [] := by
    intro l hl
    rw [List.filter_eq_nil_iff]
    intro c hc
    simp [hl c hc]
  simp [List.filter_append, e a ha, e b hb]

/-! ### stripping prefixes -/

theorem stripPrefix_eq_some {p s r : Str} : stripPrefix p s = some r ↔ s = p ++ r := by
  induction p generalizing s with
  | nil => simp [stripPrefix]
  | cons c cs ih =>
    cases s with
    | nil => simp [stripPrefix]
    | cons d ds =>
      simp only [stripPrefix]
      split
      · rename_i h; subst h
        rw [ih]; simp
      · rename_i h
        simp
        intro h'; exact absurd h'.symm h

theorem stripSuffix_eq_some {p s r : Str} : stripSuffix p s = some r ↔ s = r ++ p := by
  unfold stripSuffix
  rw [Option.map_eq_some_iff]
  constructor
  · rintro ⟨a, h, rfl⟩
    rw [stripPrefix_eq_some] at h
    have := congrArg List.reverse h
    simpa using this
  · intro h
    refine ⟨r.reverse, ?_, by simp⟩
    rw [stripPrefix_eq_some, h]; simp

theorem splitOnce_eq_some {sep : Char} {s a b : Str} :
    splitOnce sep s = some (a, b) ↔ s = a ++ sep :: b ∧ sep ∉ a := by
  induction s generalizing a with
  | nil => simp [splitOnce]
  | cons c cs ih =>
    simp only [splitOnce]
    split
    · rename_i h; subst h
      cases a with
      | nil => simp
      | cons d ds =>
        simp
        intro h; subst h; simp
    · rename_i h
      cases a with
      | nil =>
        simp [Option.map_eq_some_iff]
        intro h'; exact absurd h' h
      | cons d ds =>
        simp only [Option.map_eq_some_iff, Prod.mk.injEq, Prod.exists, List.cons.injEq, List.cons_append,
          List.mem_cons, not_or]
        constructor
        · rintro ⟨x, y, h1, ⟨rfl, rfl⟩, rfl⟩
          rw [ih] at h1
          exact ⟨⟨rfl, h1.1⟩, Ne.symm h, h1.2⟩
        · rintro ⟨⟨rfl, h1⟩, h2, h3⟩
          exact ⟨ds, b, ih.2 ⟨h1, h3⟩, ⟨rfl, rfl⟩, rfl⟩

theorem splitOnce_eq_none {sep : Char} {s : Str} : splitOnce sep s = none ↔ sep ∉ s := by
  induction s with
  | nil => simp [splitOnce]
  | cons c cs ih =>
    simp only [splitOnce]
    split
    · rename_i h; subst h; simp
    · rename_i h
      simp [ih, Ne.symm h]

end CC
