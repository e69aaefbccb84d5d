import Verif.Lemmas.Str
/-
Lemmas on flag encoding and splitting.
-/
namespace CC

theorem encodeLoop_ok_nonempty (sep : Char) (fs : List Str) :
    ∀ buf : Str, buf ≠ [] → (∀ f ∈ fs, sep ∉ f) → encodeLoop sep buf fs = .ok (joinWith sep (buf :: fs)) := by
  induction fs with
  | nil => intro buf _ _; rfl
  | cons f fs ih =>
    intro buf hb h
    have hf : f.contains sep = false := by
      simpa using h f (by simp)
    simp only [encodeLoop, hf]
    have hb' : (!buf.isEmpty) = true := by
      cases buf with
      | nil => exact absurd rfl hb
      | cons _ _ => rfl
    simp only [hb', if_true, Bool.false_eq_true, if_false]
    rw [ih _ (by simp) (fun g hg => h g (by simp [hg]))]
    cases fs <;> simp [joinWith]

theorem encodeLoop_ok (sep : Char) (fs : List Str) (h : ∀ f ∈ fs, sep ∉ f) :
    encodeLoop sep [] fs = .ok (joinWith sep (fs.dropWhile List.isEmpty)) := by
  induction fs with
  | nil => rfl
  | cons f fs ih =>
    have hf : f.contains sep = false := by
      simpa using h f (by simp)
    simp only [encodeLoop, hf]
    cases f with
    | nil => simpa [List.dropWhile] using ih (fun g hg => h g (by simp [hg]))
    | cons c cs =>
      simp only [List.isEmpty, Bool.not_true, Bool.false_eq_true, if_false, List.nil_append, List.dropWhile]
      exact encodeLoop_ok_nonempty sep fs _ (by simp) (fun g hg => h g (by simp [hg]))

theorem encodeLoop_eq_err {sep : Char} {fs : List Str} {buf : Str} {e : Err} (h : encodeLoop sep buf fs = .err e) :
    e = .other "flag in rustflags must not contain its separator ({})".toList [sepDebug sep] := by
  induction fs generalizing buf with
  | nil => cases h
  | cons f fs ih =>
    unfold encodeLoop at h
    split at h
    · exact (Res.err.inj h).symm
    · exact ih h

theorem encodeLoop_err (sep : Char) (fs : List Str) (h : ∃ f ∈ fs, sep ∈ f) :
    ∀ buf : Str, ∃ e, encodeLoop sep buf fs = .err e := by
  induction fs with
  | nil => obtain ⟨f, hf, _⟩ := h; simp at hf
  | cons g gs ih =>
    intro buf
    simp only [encodeLoop]
    by_cases hg : sep ∈ g
    · have : g.contains sep = true := by simpa using hg
      simp only [this, if_true]
      exact ⟨_, rfl⟩
    · have : g.contains sep = false := by simpa using hg
      simp only [this, Bool.false_eq_true, if_false]
      apply ih
      obtain ⟨f, hf, hs⟩ := h
      rcases List.mem_cons.1 hf with h' | h'
      · subst h'; exact absurd hs hg
      · exact ⟨f, h', hs⟩

theorem mem_splitSpaceSeparated {s w : Str} (h : w ∈ splitSpaceSeparated s) : Word w := by
  simp only [splitSpaceSeparated, List.mem_filter, List.mem_map] at h
  obtain ⟨⟨p, hp, rfl⟩, hne⟩ := h
  refine ⟨?_, ?_, trim_trimmed p⟩
  · intro h0; rw [h0] at hne; simp at hne
  · intro hs
    exact not_mem_of_mem_splitOn _ _ _ hp (mem_of_mem_trim hs)

theorem map_trim_words (ws : List Str) (h : ∀ w ∈ ws, Word w) : ws.map trim = ws := by
  induction ws with
  | nil => rfl
  | cons w ws ih =>
    simp only [List.map_cons]
    rw [(trim_eq_self_iff w).2 (h w (by simp)).2.2, ih (fun v hv => h v (by simp [hv]))]

theorem dropWhile_words (ws : List Str) (h : ∀ w ∈ ws, Word w) : ws.dropWhile List.isEmpty = ws := by
  cases ws with
  | nil => rfl
  | cons w ws =>
    have : w.isEmpty = false := by
      have := (h w (by simp)).1
      cases w with
      | nil => exact absurd rfl this
      | cons _ _ => rfl
    simp [List.dropWhile, this]

theorem splitSpaceSeparated_join (ws : List Str) (h : ∀ w ∈ ws, Word w) :
    splitSpaceSeparated (joinWith ' ' ws) = ws := by
  unfold splitSpaceSeparated
  cases ws with
  | nil => decide
  | cons w ws =>
    rw [splitOn_joinWith _ _ (by simp) (fun p hp => (h p hp).2.1), map_trim_words _ h]
    rw [List.filter_eq_self]
    intro v hv
    have := (h v hv).1
    cases v with
    | nil => exact absurd rfl this
    | cons _ _ => rfl

theorem joinWith_dropWhile_splitOn (sep : Char) (s : Str) :
    joinWith sep ((splitOn sep s).dropWhile List.isEmpty) = s.dropWhile (· == sep) := by
  induction s with
  | nil => rfl
  | cons c cs ih =>
    by_cases h : c = sep
    · subst h
      rw [splitOn_sep]
      simpa [List.dropWhile] using ih
    · have h1 : (c == sep) = false := by simpa using h
      simp only [List.dropWhile, h1]
      have hj := joinWith_splitOn sep (c :: cs)
      have : (splitOn sep (c :: cs)).dropWhile List.isEmpty = splitOn sep (c :: cs) := by
        simp only [splitOn, h, if_false]
        split <;> simp [List.dropWhile]
      rw [this, hj]

theorem flatten_filter_splitOn (s : Str) :
    ((splitOn ' ' s).map fun p => p.filter fun c => !isWhitespace c).flatten
      = s.filter fun c => !isWhitespace c := by
  induction s with
  | nil => rfl
  | cons c cs ih =>
    simp only [splitOn]
    split
    · rename_i h; subst h
      simp only [List.map_cons, List.flatten_cons, ih]
      simp [List.filter, isWhitespace_space]
    · split
      · rename_i h0; exact absurd h0 (splitOn_ne_nil _ _)
      · rename_i q qs hq
        rw [hq] at ih
        simp only [List.map_cons, List.flatten_cons] at ih ⊢
        rw [List.filter_cons, List.filter_cons]
        split
        · simp [ih]
        · exact ih

theorem flatten_filter_splitSpace (s : Str) :
    (splitSpaceSeparated s).flatten.filter (fun c => !isWhitespace c)
      = s.filter fun c => !isWhitespace c := by
  rw [← flatten_filter_splitOn s]
  unfold splitSpaceSeparated
  induction splitOn ' ' s with
  | nil => rfl
  | cons p ps ih =>
    simp only [List.map_cons, List.filter_cons, List.flatten_cons]
    rw [← ih, ← filter_trim p]
    split
    · simp
    · rename_i h
      have : trim p = [] := by
        cases ht : trim p with
        | nil => rfl
        | cons _ _ => rw [ht] at h; simp at h
      rw [this]; simp

theorem items_splitOn (sep : Char) (s : Str) : Items sep s (splitOn sep s) := by
  have key : ∀ ps : List Str, ps ≠ [] → (∀ p ∈ ps, sep ∉ p) → Items sep (joinWith sep ps) ps := by
    intro ps
    induction ps with
    | nil => intro h; exact absurd rfl h
    | cons p ps ih =>
      intro _ h
      cases ps with
      | nil => exact .last p (h p (by simp))
      | cons q qs =>
        exact .more p _ _ (h p (by simp)) (ih (by simp) (fun x hx => h x (List.mem_cons_of_mem _ hx)))
  have := key (splitOn sep s) (splitOn_ne_nil sep s) (fun p h => not_mem_of_mem_splitOn sep s p h)
  rwa [joinWith_splitOn] at this

theorem splitOn_cut {sep : Char} {p : Str} (s : Str) (h : sep ∉ p) :
    splitOn sep (p ++ sep :: s) = p :: splitOn sep s := by
  obtain ⟨hd, tl, h1, h2⟩ := splitOn_head_append sep p (sep :: s) h
  rw [splitOn_sep] at h1
  injection h1 with h1 h3
  subst h1; subst h3
  simpa using h2

theorem items_unique {sep : Char} {s : Str} {l : List Str} (h : Items sep s l) : l = splitOn sep s := by
  induction h with
  | last p hp => rw [splitOn_of_not_mem sep p hp]
  | more p s l hp _ ih => rw [splitOn_cut _ hp, ih]

theorem trim_blank {p : Str} (h : Blank p) : trim p = [] := by
  obtain ⟨a, b, h1, _, _, h2, _⟩ := trim_spec p
  cases ht : trim p with
  | nil => rfl
  | cons c cs =>
    have := h2 c (by rw [ht]; rfl)
    have hc : c ∈ p := by rw [h1, ht]; simp
    rw [h c hc] at this; cases this

theorem dropWhile_blank_append {a s : Str} (h : Blank a) : trimStart (a ++ s) = trimStart s := by
  induction a with
  | nil => rfl
  | cons c cs ih =>
    have hc : isWhitespace c = true := h c (by simp)
    simp only [trimStart, List.cons_append, List.dropWhile_cons, hc, if_true]
    exact ih (fun x hx => h x (List.mem_cons_of_mem _ hx))

theorem trimEnd_append_blank {s b : Str} (h : Blank b) : trimEnd (s ++ b) = trimEnd s := by
  have : Blank b.reverse := fun c hc => h c (by simpa using hc)
  have := dropWhile_blank_append (s := s.reverse) this
  simp only [trimStart] at this
  simp only [trimEnd, List.reverse_append, this]

theorem trim_around {a w b : Str} (ha : Blank a) (hb : Blank b) (hw : Word w) : trim (a ++ w ++ b) = w := by
  have h1 : trim w = w := (trim_eq_self_iff w).2 hw.2.2
  have h2 : trimStart (w ++ b) = w ++ b := by
    cases w with
    | nil => exact absurd rfl hw.1
    | cons c cs =>
      have := hw.2.2.1 c rfl
      simp [trimStart, List.dropWhile_cons, this]
  have h3 : trimStart w = w := by
    cases w with
    | nil => rfl
    | cons c cs =>
      have := hw.2.2.1 c rfl
      simp [trimStart, List.dropWhile_cons, this]
  unfold trim at h1 ⊢
  rw [List.append_assoc, dropWhile_blank_append ha, h2, trimEnd_append_blank hb]
  rwa [h3] at h1

/-- The words of a piece: the piece trimmed, unless nothing is left. -/
def wordIn (p : Str) : List Str := [trim p].filter fun w => !w.isEmpty

theorem wordIn_unique {p : Str} {ws : List Str} (h : WordIn p ws) : ws = wordIn p := by
  cases h with
  | blank _ h => simp [wordIn, trim_blank h]
  | word a w b ha hb hw =>
    have : w.isEmpty = false := by cases w with | nil => exact absurd rfl hw.1 | cons _ _ => rfl
    simp only [wordIn, trim_around ha hb hw, List.filter, this, Bool.not_false]

theorem wordIn_spec (p : Str) (h : ' ' ∉ p) : WordIn p (wordIn p) := by
  obtain ⟨a, b, h1, ha, hb, ht⟩ := trim_spec p
  unfold wordIn
  cases hp : trim p with
  | nil =>
    rw [hp] at h1
    refine .blank p ?_
    intro c hc
    rw [h1] at hc
    simp only [List.append_nil, List.mem_append] at hc
    exact hc.elim (ha c) (hb c)
  | cons c cs =>
    have hw : Word (trim p) := by
      refine ⟨by simp [hp], fun hc => h (mem_of_mem_trim hc), ht⟩
    have := WordIn.word a (trim p) b ha hb hw
    rw [← h1, hp] at this
    simpa using this

theorem splitSpaceSeparated_eq (s : Str) : splitSpaceSeparated s = ((splitOn ' ' s).map wordIn).flatten := by
  unfold splitSpaceSeparated
  induction splitOn ' ' s with
  | nil => rfl
  | cons p ps ih =>
    simp only [List.map_cons, List.flatten_cons, ← ih, wordIn, List.filter]
    split <;> simp

theorem wordsOf_unique {s : Str} {ws : List Str} (h : WordsOf s ws) : ws = splitSpaceSeparated s := by
  rw [splitSpaceSeparated_eq]
  induction h with
  | last p ws hp hw => rw [splitOn_of_not_mem ' ' p hp, wordIn_unique hw]; simp
  | more p s ws vs hp hw _ ih =>
    rw [splitOn_cut _ hp, ih, wordIn_unique hw]; simp

theorem wordsOf_split (s : Str) : WordsOf s (splitSpaceSeparated s) := by
  rw [splitSpaceSeparated_eq]
  have := items_splitOn ' ' s
  generalize splitOn ' ' s = l at this
  induction this with
  | last p hp =>
    have := WordsOf.last p _ hp (wordIn_spec p hp)
    simpa using this
  | more p s l hp _ ih => simpa using WordsOf.more p s _ _ hp (wordIn_spec p hp) ih

/-! ### The specified words and pieces -/

theorem cutAt_eq (sep : Char) (s : Str) : ∀ piece, ∃ p ps, splitOn sep s = p :: ps ∧
    cutAt sep piece s = (piece.reverse ++ p) :: ps := by
  induction s with
  | nil => intro piece; exact ⟨[], [], rfl, by simp [cutAt]⟩
  | cons c s ih =>
    intro piece
    unfold cutAt splitOn
    by_cases h : c = sep
    · obtain ⟨p, ps, h1, h2⟩ := ih []
      refine ⟨[], p :: ps, by rw [if_pos h, h1], ?_⟩
      rw [if_pos h, h2]
      simp
    · obtain ⟨p, ps, h1, h2⟩ := ih (c :: piece)
      refine ⟨c :: p, ps, by rw [if_neg h, h1], ?_⟩
      rw [if_neg h, h2]
      simp

theorem piecesAt_eq : piecesAt = splitOn := by
  funext sep s
  obtain ⟨p, ps, h1, h2⟩ := cutAt_eq sep s []
  rw [piecesAt, h2, h1]
  rfl

theorem wordsIn_eq : wordsIn = splitSpaceSeparated := by
  funext s
  unfold wordsIn splitSpaceSeparated
  rw [piecesAt_eq]
  show ((splitOn ' ' s).map trim).filter _ = _
  congr 1
  funext w
  cases w <;> rfl

theorem wordIn_nil {s : Str} (h : WordIn s []) : Blank s := by
  cases h; assumption

theorem wordsOf_nil {s : Str} {ws : List Str} (h : WordsOf s ws) : ws = [] → Blank s := by
  induction h with
  | last p ws _ hw => rintro rfl; exact wordIn_nil hw
  | more p s ws vs _ hw _ ih =>
    intro e
    have e := List.append_eq_nil_iff.1 e
    cases e.1
    have h1 := wordIn_nil hw
    have h2 := ih e.2
    intro c hc
    rcases List.mem_append.1 hc with hc | hc
    · exact h1 c hc
    · rcases List.mem_cons.1 hc with rfl | hc
      · decide
      · exact h2 c hc

theorem blank_wordsOf {s : Str} {ws : List Str} (h : WordsOf s ws) : Blank s → ws = [] := by
  have word_not_blank : ∀ {a w b : Str}, Word w → ¬ Blank (a ++ w ++ b) := by
    intro a w b hw hb
    cases w with
    | nil => exact hw.1 rfl
    | cons c w =>
      have h1 := hw.2.2.1 c rfl
      rw [hb c (by simp)] at h1
      cases h1
  have in_nil : ∀ {p : Str} {ws : List Str}, WordIn p ws → Blank p → ws = [] := by
    intro p ws h hb
    cases h with
    | blank => rfl
    | word a w b _ _ hw => exact absurd hb (word_not_blank hw)
  induction h with
  | last p ws _ hw => exact in_nil hw
  | more p s ws vs _ hw _ ih =>
    intro hb
    rw [in_nil hw (fun c hc => hb c (by simp [hc])), ih (fun c hc => hb c (by simp [hc]))]
    rfl

theorem split_nil_iff (s : Str) : splitSpaceSeparated s = [] ↔ Blank s :=
  ⟨wordsOf_nil (wordsOf_split s), blank_wordsOf (wordsOf_split s)⟩

end CC
