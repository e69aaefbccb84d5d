import Verif.Lemmas.Lists
/-
C50, C51, C56: flags and executables with arguments.
-/
namespace CC

/-! ### C50: flags encoded with the unit separator -/

/-- `encode` fails exactly if some flag contains 0x1f, and never panics. -/
theorem C50_encode_fails_iff (f : EFlags) :
    ((∃ e, f.encode = .err e) ↔ ∃ w ∈ f.flags, unitSep ∈ w) ∧ f.encode ≠ .panic := by
  by_cases h : ∃ w ∈ f.flags, unitSep ∈ w
  · obtain ⟨e, he⟩ := encodeLoop_err unitSep f.flags h []
    refine ⟨⟨fun _ => h, fun _ => ⟨e, he⟩⟩, ?_⟩
    show encodeLoop unitSep [] f.flags ≠ .panic
    rw [he]; simp
  · have h' : ∀ w ∈ f.flags, unitSep ∉ w := fun w hw hs => h ⟨w, hw, hs⟩
    have he : f.encode = _ := encodeLoop_ok unitSep f.flags h'
    refine ⟨⟨?_, fun h2 => absurd h2 h⟩, ?_⟩
    · rintro ⟨e, h2⟩; rw [he] at h2; cases h2
    · rw [he]; simp

/-- The round trip as stated in C50 (`encode` succeeds implies `from_encoded` gives the flags back) does not
hold: a leading empty flag is lost. -/
theorem C50_roundtrip_fails :
    ∃ f s, EFlags.encode f = .ok s ∧ EFlags.fromEncoded s ≠ f :=
  ⟨⟨[[], "a".toList]⟩, "a".toList, by rfl, by decide⟩

/-- Exactly when the round trip gives the flags back: the list is not empty, and does not start with an empty
flag (unless that is the only flag). -/
theorem C50_roundtrip_iff (f : EFlags) (s : Str) (h : f.encode = .ok s) :
    EFlags.fromEncoded s = f ↔ f.flags = [[]] ∨ ∃ w ws, f.flags = w :: ws ∧ w ≠ [] := by
  have hs : ∀ w ∈ f.flags, unitSep ∉ w := by
    intro w hw hc
    obtain ⟨e, he⟩ := ((C50_encode_fails_iff f).1).2 ⟨w, hw, hc⟩
    rw [he] at h; cases h
  have he : f.encode = _ := encodeLoop_ok unitSep f.flags hs
  rw [he] at h
  injection h with h
  subst h
  obtain ⟨fl⟩ := f
  simp only [EFlags.fromEncoded, splitEncoded, EFlags.mk.injEq] at hs ⊢
  cases fl with
  | nil => simp only [List.dropWhile, joinWith, splitOn]; simp
  | cons w ws =>
    cases w with
    | cons c cs =>
      simp only [List.dropWhile, List.isEmpty]
      rw [splitOn_joinWith _ _ (by simp) hs]
      simp
    | nil =>
      simp only [List.dropWhile, List.isEmpty]
      constructor
      · intro heq
        by_cases hd : ws.dropWhile List.isEmpty = []
        · rw [hd] at heq
          simp only [joinWith, splitOn] at heq
          exact .inl heq.symm
        · have hmem : ∀ p ∈ ws.dropWhile List.isEmpty, unitSep ∉ p := by
            intro p hp
            exact hs p (List.mem_cons_of_mem _ ((List.dropWhile_sublist _).subset hp))
          rw [splitOn_joinWith _ _ hd hmem] at heq
          have := congrArg List.length heq
          have hle := (List.dropWhile_sublist (p := List.isEmpty) (l := ws)).length_le
          simp at this; omega
      · rintro (h | ⟨w, ws', h, hw⟩)
        · simp only [List.cons.injEq, true_and] at h
          subst h; rfl
        · injection h with h _; exact absurd h.symm hw

/-- C50 for the flags the round trip is meant for: no flag is empty and there is at least one flag.  Missing from
the full claim: lists that are empty or start with an empty flag, for which it fails (`C50_roundtrip_iff`). -/
theorem C50_roundtrip_partial (f : EFlags) (hne : f.flags ≠ []) (hw : ∀ w ∈ f.flags, w ≠ [] ∧ unitSep ∉ w) :
    ∃ s, f.encode = .ok s ∧ EFlags.fromEncoded s = f := by
  have he : f.encode = _ := encodeLoop_ok unitSep f.flags (fun w h => (hw w h).2)
  refine ⟨_, he, (C50_roundtrip_iff f _ he).2 (.inr ?_)⟩
  cases hf : f.flags with
  | nil => exact absurd hf hne
  | cons w ws => exact ⟨w, ws, rfl, (hw w (by simp [hf])).1⟩

/-- The other direction: re-encoding the flags read from an encoded string always succeeds and gives the string
back up to leading separators. -/
theorem C50_reencode (s : Str) :
    (EFlags.fromEncoded s).encode = .ok (s.dropWhile (· == unitSep)) := by
  have he : (EFlags.fromEncoded s).encode = _ :=
    encodeLoop_ok unitSep (splitEncoded s) (fun w h => not_mem_of_mem_splitOn _ _ _ h)
  rw [he]
  simp only [splitEncoded, joinWith_dropWhile_splitOn]

-- hypotheses of the round trip theorems are met by a list with inner empty flags and spaces
example : (EFlags.mk ["--cfg a".toList, [], "-C".toList]).encode
    = .ok ("--cfg a".toList ++ [unitSep, unitSep] ++ "-C".toList) := by rfl
example : ∃ w ∈ (EFlags.mk ["a".toList, [unitSep]]).flags, unitSep ∈ w := ⟨[unitSep], by simp, by simp⟩

/-- What `from_encoded` reads: the pieces between the separators, empty ones included. -/
theorem C50_decode (s : Str) (l : List Str) :
    (EFlags.fromEncoded s).flags = l ↔ Items (Char.ofNat 0x1f) s l :=
  ⟨fun h => h ▸ items_splitOn _ s, fun h => (items_unique h).symm⟩

/-- The pieces used in the statements about variables and documents are these. -/
theorem C50_pieces (sep : Char) (s : Str) (l : List Str) : piecesAt sep s = l ↔ Items sep s l := by
  rw [piecesAt_eq]
  exact ⟨fun h => h ▸ items_splitOn _ s, fun h => (items_unique h).symm⟩

/-- What `encode` writes for flags without a leading empty one: a text whose pieces are the flags. -/
theorem C50_encode (f : EFlags) (s : Str) (h : f.encode = .ok s) (w : Str) (ws : List Str) (hf : f.flags = w :: ws)
    (hw : w ≠ []) : Items (Char.ofNat 0x1f) s f.flags := by
  have := (C50_roundtrip_iff f s h).2 (.inr ⟨w, ws, hf, hw⟩)
  exact (C50_decode s f.flags).1 (congrArg EFlags.flags this)

-- the text `a 0x1f 0x1f b` consists of the flags `a`, the empty flag, and `b`
example : Items (Char.ofNat 0x1f) ("a".toList ++ unitSep :: ([] ++ unitSep :: "b".toList)) ["a".toList, [], "b".toList] :=
  .more _ _ _ (by decide) (.more _ _ _ (by decide) (.last _ (by decide)))

/-! ### C51: space separated flags -/

/-- `from_space_separated` yields only words, and no visible character is lost or reordered. -/
theorem C51_split_words (s : Str) :
    (∀ w ∈ (EFlags.fromSpaceSeparated s).flags, Word w) ∧
    (EFlags.fromSpaceSeparated s).flags.flatten.filter (fun c => !isWhitespace c)
      = s.filter (fun c => !isWhitespace c) :=
  ⟨fun _ h => mem_splitSpaceSeparated h, flatten_filter_splitSpace s⟩

/-- `encode_space_separated` fails exactly if a flag contains a space, and never panics. -/
theorem C51_encode_fails_iff (f : EFlags) :
    ((∃ e, f.encodeSpaceSeparated = .err e) ↔ ∃ w ∈ f.flags, ' ' ∈ w) ∧ f.encodeSpaceSeparated ≠ .panic := by
  by_cases h : ∃ w ∈ f.flags, ' ' ∈ w
  · obtain ⟨e, he⟩ := encodeLoop_err ' ' f.flags h []
    refine ⟨⟨fun _ => h, fun _ => ⟨e, he⟩⟩, ?_⟩
    show encodeLoop ' ' [] f.flags ≠ .panic
    rw [he]; simp
  · have h' : ∀ w ∈ f.flags, ' ' ∉ w := fun w hw hs => h ⟨w, hw, hs⟩
    have he : f.encodeSpaceSeparated = _ := encodeLoop_ok ' ' f.flags h'
    refine ⟨⟨?_, fun h2 => absurd h2 h⟩, ?_⟩
    · rintro ⟨e, h2⟩; rw [he] at h2; cases h2
    · rw [he]; simp

/-- Flags made of words round-trip. -/
theorem C51_roundtrip (f : EFlags) (h : ∀ w ∈ f.flags, Word w) :
    ∃ s, f.encodeSpaceSeparated = .ok s ∧ EFlags.fromSpaceSeparated s = f := by
  have he : f.encodeSpaceSeparated = _ := encodeLoop_ok ' ' f.flags (fun w hw => (h w hw).2.1)
  refine ⟨_, he, ?_⟩
  obtain ⟨fl⟩ := f
  simp only [EFlags.fromSpaceSeparated, EFlags.mk.injEq] at h ⊢
  rw [dropWhile_words _ h, splitSpaceSeparated_join _ h]

/-- Exactly the lists of words round-trip. -/
theorem C51_roundtrip_iff (f : EFlags) (s : Str) (he : f.encodeSpaceSeparated = .ok s) :
    EFlags.fromSpaceSeparated s = f ↔ ∀ w ∈ f.flags, Word w := by
  constructor
  · intro h w hw
    rw [← h] at hw
    exact (C51_split_words s).1 w hw
  · intro h
    obtain ⟨t, h1, h2⟩ := C51_roundtrip f h
    rw [h1] at he
    injection he with he
    rw [← he]; exact h2

/-- Reading a string, encoding, and reading again gives the same flags. -/
theorem C51_reencode (s : Str) :
    ∃ t, (EFlags.fromSpaceSeparated s).encodeSpaceSeparated = .ok t ∧
      EFlags.fromSpaceSeparated t = EFlags.fromSpaceSeparated s :=
  C51_roundtrip _ (C51_split_words s).1

/-- A string that is words separated by single spaces is read as exactly these words. -/
theorem C51_reads_words (ws : List Str) (h : ∀ w ∈ ws, Word w) :
    (EFlags.fromSpaceSeparated (joinWith ' ' ws)).flags = ws := splitSpaceSeparated_join ws h

/-- What `from_space_separated` reads: the words of the text, in order. -/
theorem C51_words (s : Str) (ws : List Str) : (EFlags.fromSpaceSeparated s).flags = ws ↔ WordsOf s ws :=
  ⟨fun h => h ▸ wordsOf_split s, fun h => (wordsOf_unique h).symm⟩

/-- The words used in the statements about variables and documents are these. -/
theorem C51_wordsIn (s : Str) (ws : List Str) : wordsIn s = ws ↔ WordsOf s ws := by
  rw [wordsIn_eq]
  exact C51_words s ws

-- two spaces, and a tab after a word, are not part of any word
example : WordsOf ("a".toList ++ ' ' :: ("".toList ++ ' ' :: "b\t".toList)) ["a".toList, "b".toList] := by
  have ha : Word "a".toList :=
    ⟨by decide, by decide, by intro c hc; simp at hc; subst hc; decide, by intro c hc; simp at hc; subst hc; decide⟩
  have hb : Word "b".toList :=
    ⟨by decide, by decide, by intro c hc; simp at hc; subst hc; decide, by intro c hc; simp at hc; subst hc; decide⟩
  exact .more _ _ [_] _ (by decide) (.word [] _ [] (by simp [Blank]) (by simp [Blank]) ha)
    (.more _ _ [] _ (by decide) (.blank _ (by simp [Blank]))
      (.last _ _ (by decide) (.word [] _ "\t".toList (by simp [Blank]) (by unfold Blank; decide) hb)))

example : ∀ w ∈ (EFlags.mk ["-C".toList, "a\tb".toList]).flags, Word w := by
  simp only [List.mem_cons, List.not_mem_nil, or_false, forall_eq_or_imp, forall_eq]
  refine ⟨⟨by decide, by decide, ?_, ?_⟩, ⟨by decide, by decide, ?_, ?_⟩⟩ <;>
    (intro c hc; simp at hc; subst hc; decide)

/-! ### C56: executables with arguments need a program -/

/-- A string value is rejected exactly if it consists of white space only; otherwise the program is its first word
and the arguments the other words, all carrying the given location. -/
theorem C56_string (s : Str) (d : Option Definition) :
    (PathAndArgs.fromString s d = none ↔ ∀ c ∈ s, isWhitespace c = true) ∧
    ∀ p, PathAndArgs.fromString s d = some p →
      (EFlags.fromSpaceSeparated s).flags = p.path.val :: p.args.map Val.val ∧
      p.path.defn = d ∧ (∀ a ∈ p.args, a.defn = d) ∧ p.repr = .string := by
  constructor
  · unfold PathAndArgs.fromString
    constructor
    · intro h c hc
      cases hw : isWhitespace c with
      | true => rfl
      | false =>
        have hf := flatten_filter_splitSpace s
        split at h
        · rename_i h0
          rw [h0] at hf
          have : c ∈ s.filter (fun c => !isWhitespace c) := by
            simp [hc, hw]
          rw [← hf] at this
          simp at this
        · cases h
    · intro h
      cases hs : splitSpaceSeparated s with
      | nil => rfl
      | cons w ws =>
        exfalso
        have hf := flatten_filter_splitSpace s
        have hn : s.filter (fun c => !isWhitespace c) = [] := by
          rw [List.filter_eq_nil_iff]; intro c hc; simp [h c hc]
        rw [hn, hs] at hf
        obtain ⟨h1, _, h3, _⟩ := mem_splitSpaceSeparated (s := s) (w := w) (by simp [hs])
        cases w with
        | nil => exact h1 rfl
        | cons c cs =>
          have := h3 c rfl
          simp [this] at hf
  · intro p hp
    unfold PathAndArgs.fromString at hp
    simp only [EFlags.fromSpaceSeparated]
    split at hp
    · cases hp
    · rename_i p' as hs
      injection hp with hp
      subst hp
      have hid : (Val.val ∘ fun w => ({ val := w, defn := d } : Val Str)) = id := rfl
      simp [hs, hid]

/-- An array value is rejected exactly if it is empty; otherwise the program is the first element and the arguments
are the remaining elements, kept as they are. -/
theorem C56_array (l : List (Val Str)) :
    (PathAndArgs.fromArray l = none ↔ l = []) ∧
    ∀ p, PathAndArgs.fromArray l = some p → l = p.path :: p.args ∧ p.repr = .array := by
  cases l with
  | nil => exact ⟨by simp [PathAndArgs.fromArray], by intro p h; cases h⟩
  | cons x xs =>
    refine ⟨by simp [PathAndArgs.fromArray], ?_⟩
    intro p h
    simp only [PathAndArgs.fromArray, Option.some.injEq] at h
    subst h; exact ⟨rfl, rfl⟩

example : PathAndArgs.fromString " qemu -L  /x ".toList none
    = some ⟨⟨"qemu".toList, none⟩, [⟨"-L".toList, none⟩, ⟨"/x".toList, none⟩], .string⟩ := by decide

theorem sample_words : ∀ w ∈ (EFlags.mk ["-C".toList, "a".toList]).flags, Word w := by
  simp only [List.mem_cons, List.not_mem_nil, or_false, forall_eq_or_imp, forall_eq]
  refine ⟨⟨by decide, by decide, ?_, ?_⟩, ⟨by decide, by decide, ?_, ?_⟩⟩ <;>
    (intro c hc; simp at hc; subst hc; decide)

/-- The statements on samples. -/
example : ∃ e, (EFlags.mk ["a".toList, [unitSep]]).encode = .err e :=
  (C50_encode_fails_iff _).1.2 ⟨[unitSep], by simp, by simp⟩

example : ∃ s, (EFlags.mk ["--cfg a".toList, "-C".toList]).encode = .ok s ∧
    EFlags.fromEncoded s = EFlags.mk ["--cfg a".toList, "-C".toList] := C50_roundtrip_partial _ (by simp) (by decide)

example : EFlags.fromEncoded "a".toList ≠ EFlags.mk [[], "a".toList] := fun h => by
  rcases (C50_roundtrip_iff (EFlags.mk [[], "a".toList]) "a".toList (by rfl)).1 h with h | ⟨w, ws, h, hw⟩
  · cases h
  · cases h; exact hw rfl

example : (EFlags.fromEncoded ("a".toList ++ unitSep :: ([] ++ unitSep :: "b".toList))).flags = ["a".toList, [], "b".toList] :=
  (C50_decode _ _).2 (by rw [← C50_pieces]; decide)

example : ∃ e, (EFlags.mk ["-C".toList, "a b".toList]).encodeSpaceSeparated = .err e :=
  (C51_encode_fails_iff _).1.2 ⟨"a b".toList, by simp, by simp⟩

example : ∃ s, (EFlags.mk ["-C".toList, "a".toList]).encodeSpaceSeparated = .ok s ∧
    EFlags.fromSpaceSeparated s = EFlags.mk ["-C".toList, "a".toList] := C51_roundtrip _ sample_words

example : EFlags.fromSpaceSeparated "a ".toList ≠ EFlags.mk ["a".toList, []] := fun h => by
  have := (C51_roundtrip_iff (EFlags.mk ["a".toList, []]) "a ".toList (by rfl)).1 h [] (by simp)
  exact this.1 rfl

example : (EFlags.fromSpaceSeparated "-C a".toList).flags = ["-C".toList, "a".toList] :=
  C51_reads_words ["-C".toList, "a".toList] sample_words

example : WordsOf "  -C  a ".toList ["-C".toList, "a".toList] := (C51_words _ _).1 (by decide)

example : ∃ t, (EFlags.fromSpaceSeparated "  -C  a ".toList).encodeSpaceSeparated = .ok t ∧
    EFlags.fromSpaceSeparated t = EFlags.fromSpaceSeparated "  -C  a ".toList := C51_reencode _

example : ∀ w ∈ (EFlags.fromSpaceSeparated "  -C  a ".toList).flags, Word w := (C51_split_words _).1

example : PathAndArgs.fromString " \t ".toList none = none := (C56_string _ _).1.2 (by decide)

/-- C51: the characters that are dropped at the ends of words are those with the Unicode property White_Space. -/
theorem C51_white_space (c : Char) : (EFlags.fromSpaceSeparated [c]).flags = [] ↔ WhiteSpace c := by
  have h : isWhitespace c = true ↔ WhiteSpace c := by
    unfold isWhitespace WhiteSpace
    generalize c.toNat = n
    simp only [Bool.or_eq_true, Bool.and_eq_true, decide_eq_true_eq, beq_iff_eq, List.mem_cons, List.not_mem_nil, or_false]
    omega
  rw [← h, C51_words, ← C51_wordsIn]
  unfold wordsIn piecesAt
  by_cases hc : c = ' '
  · subst hc; decide
  · cases hw : isWhitespace c <;> simp [cutAt, hc, stripped, hw]

/-- The next line character (U+0085) is dropped, the zero-width space (U+200B) is kept. -/
example : (EFlags.fromSpaceSeparated [Char.ofNat 0x85]).flags = [] ∧ (EFlags.fromSpaceSeparated [Char.ofNat 0x200B]).flags ≠ [] := by
  rw [ne_eq, C51_white_space, C51_white_space]; unfold WhiteSpace; decide

end CC
