import Verif.Lemmas.Target
/-
Target strings: C16, C17.
-/
namespace CC

/-! ### C16 -/

/-- C16: a string that does not name a spec file is the triple itself. -/
theorem C16_triple (s : Str) (h : ¬ NamesSpecFile s) : TargetTriple.ofStr s = .ok ⟨s, none⟩ := by
  unfold TargetTriple.ofStr TargetTriple.new
  have : isSpecPath s = false := by rw [← Bool.not_eq_true, isSpecPath_iff]; exact h
  rw [this]; rfl

/-- C16: a string that names a spec file keeps the path, and its triple is the file stem. -/
theorem C16_spec_file (s f stem : Str) (h : NamesSpecFile s) (hf : EndsInFile s f) (hs : IsStem f stem) :
    TargetTriple.ofStr s = .ok ⟨stem, some s⟩ := by
  unfold TargetTriple.ofStr TargetTriple.new
  rw [isSpecPath_iff.2 h, if_pos rfl, fileStem_iff.2 ⟨f, hf, hs⟩]
  rfl

/-- The stem of a file name exists and is unique, so that the two theorems above determine the result. -/
theorem C16_stem_unique (f : Str) : ∃ stem, IsStem f stem ∧ ∀ stem', IsStem f stem' → stem' = stem := by
  cases h : Path.rsplitDot f with
  | none =>
    rw [rsplitDot_eq_none] at h
    refine ⟨f, Or.inr ⟨rfl, fun a ext _ e => by rw [e] at h; simp at h⟩, ?_⟩
    rintro stem' (⟨ext, _, _, e⟩ | ⟨e, _⟩)
    · rw [e] at h; simp at h
    · exact e
  | some p =>
    obtain ⟨a, b⟩ := p
    have hr := rsplitDot_eq_some.1 h
    have uniq : ∀ a' b', '.' ∉ b' → f = a' ++ '.' :: b' → a' = a := by
      intro a' b' hb e
      have h2 : Path.rsplitDot f = some (a', b') := rsplitDot_eq_some.2 ⟨e, hb⟩
      rw [h] at h2
      exact (congrArg Prod.fst (Option.some.inj h2)).symm
    by_cases ha : a = []
    · refine ⟨f, Or.inr ⟨rfl, fun a' ext he e => by rw [uniq a' ext he e]; exact ha⟩, ?_⟩
      rintro stem' (⟨ext, h1, h2, e⟩ | ⟨e, _⟩)
      · exact absurd ((uniq _ _ h1 e).trans ha) h2
      · exact e
    · refine ⟨a, Or.inl ⟨b, hr.2, ha, hr.1⟩, ?_⟩
      rintro stem' (⟨ext, h1, h2, e⟩ | ⟨e, h1⟩)
      · exact uniq _ _ h1 e
      · exact absurd (h1 a b hr.2 hr.1) ha

/-- C16: the conversion from a string panics exactly if the string contains a slash and does not end in a file name. -/
theorem C16_panics_iff (s : Str) : TargetTriple.ofStr s = .panic ↔ '/' ∈ s ∧ ¬ ∃ f, EndsInFile s f := by
  unfold TargetTriple.ofStr TargetTriple.new
  by_cases h : isSpecPath s = true
  · rw [if_pos h]
    cases hf : Path.fileName s with
    | none =>
      have hst : Path.fileStem s = none := by unfold Path.fileStem; rw [hf]; rfl
      rw [hst]
      refine ⟨fun _ => ⟨?_, ?_⟩, fun _ => rfl⟩
      · refine Classical.byContradiction fun hs => ?_
        rw [fileName_of_spec_noSlash h hs] at hf
        cases hf
      · rintro ⟨f, h1⟩
        rw [← fileName_iff, hf] at h1
        cases h1
    | some f =>
      have hst : (Path.fileStem s).isSome = true := by rw [fileStem_isSome, hf]; rfl
      obtain ⟨stem, hst⟩ := Option.isSome_iff_exists.1 hst
      rw [hst]
      simp only [Res.unwrap, Res.ok_bind, resolveSpecPath, reduceCtorEq, false_iff]
      rintro ⟨_, h2⟩
      exact h2 ⟨f, fileName_iff.1 hf⟩
  · rw [if_neg h]
    simp only [reduceCtorEq, false_iff]
    rintro ⟨h1, _⟩
    exact h (isSpecPath_iff.2 (Or.inl h1))

/-- C16 is false as stated: the conversion panics for some strings. -/
theorem C16_no_panic_fails : TargetTriple.ofStr "/".toList = .panic ∧ TargetTriple.ofStr "a/..".toList = .panic ∧
    TargetTriple.ofStr "./".toList = .panic := ⟨rfl, rfl, rfl⟩

/-- C16, no panics.  Missing: strings with a slash that do not end in a file name (see `C16_panics_iff`). -/
theorem C16_no_panic_partial (s : Str) (h : '/' ∈ s → ∃ f, EndsInFile s f) : ∃ t, TargetTriple.ofStr s = .ok t := by
  by_cases hs : NamesSpecFile s
  · have : ∃ f, EndsInFile s f := by
      by_cases hsl : '/' ∈ s
      · exact h hsl
      · exact ⟨s, fileName_iff.1 (fileName_of_spec_noSlash (isSpecPath_iff.2 hs) hsl)⟩
    obtain ⟨f, hf⟩ := this
    obtain ⟨stem, hst, _⟩ := C16_stem_unique f
    exact ⟨_, C16_spec_file s f stem hs hf hst⟩
  · exact ⟨_, C16_triple s hs⟩

example : ¬ NamesSpecFile "x86_64-unknown-linux-gnu".toList := by rw [← isSpecPath_iff]; decide
example : ¬ NamesSpecFile ".json".toList := by rw [← isSpecPath_iff]; decide
example : NamesSpecFile "targets/avr.v1.json".toList ∧ EndsInFile "targets/avr.v1.json".toList "avr.v1.json".toList ∧
    IsStem "avr.v1.json".toList "avr.v1".toList :=
  ⟨Or.inl (by decide), by unfold EndsInFile; decide, Or.inl ⟨"json".toList, by decide, by decide, by decide⟩⟩
example : '/' ∈ "a/b/".toList ∧ EndsInFile "a/b/".toList "b".toList := by unfold EndsInFile; decide

/-! ### C17 -/

/-- C17: targets compare equal exactly if they are passed to rustc as the same string. -/
theorem C17_eq_iff (a b : TargetTriple) : a.beq b = true ↔ a.cliTarget = b.cliTarget := by
  unfold TargetTriple.beq; exact beq_iff_eq

/-- C17: targets that compare equal, however they were made, are the same target: same triple name, same spec path. -/
theorem C17_equal_same (a b : TargetTriple) (ha : Constructed a) (hb : Constructed b) (h : a.beq b = true) : a = b := by
  rw [C17_eq_iff] at h
  have h1 := ofStr_cliTarget ha
  have h2 := ofStr_cliTarget hb
  rw [h, h2] at h1
  exact (Res.ok.inj h1).symm

/-- C17: the order agrees with equality, is antisymmetric and transitive. -/
theorem C17_order (a b c : TargetTriple) : (a.cmp b = .eq ↔ a.beq b = true) ∧ (a.cmp b = .lt ↔ b.cmp a = .gt) ∧
    (a.cmp b = .lt → b.cmp c = .lt → a.cmp c = .lt) := by
  have lt_iff : ∀ a b : TargetTriple, a.cmp b = .lt ↔ strLt a.cliTarget b.cliTarget = true := by
    intro a b
    unfold TargetTriple.cmp
    split
    · simp [*]
    · split <;> simp [*]
  have eq_iff : ∀ a b : TargetTriple, a.cmp b = .eq ↔ a.cliTarget = b.cliTarget := by
    intro a b
    unfold TargetTriple.cmp
    split
    · rename_i h
      simp only [reduceCtorEq, false_iff]
      exact strLt_ne h
    · split
      · rename_i h; simpa using h
      · rename_i h; simpa using h
  refine ⟨by rw [eq_iff, C17_eq_iff], ?_, ?_⟩
  · rw [lt_iff]
    constructor
    · intro h
      unfold TargetTriple.cmp
      rw [if_neg (by rw [strLt_asymm h]; simp), if_neg (by have := strLt_ne h; simpa using fun e => this e.symm)]
    · intro h
      rcases strLt_total a.cliTarget b.cliTarget with h1 | h1 | h1
      · exact h1
      · rw [(eq_iff b a).2 h1.symm] at h; cases h
      · rw [(lt_iff b a).2 h1] at h; cases h
  · rw [lt_iff, lt_iff, lt_iff]; exact strLt_trans

/-- C17: equal targets have the same hash, for every hash function. -/
theorem C17_hash {H : Type} (hash : Str → H) (a b : TargetTriple) (h : a.beq b = true) : a.hashWith hash = b.hashWith hash := by
  rw [C17_eq_iff] at h; unfold TargetTriple.hashWith; rw [h]

/-- C17: serializing and deserializing a target gives the same target; in particular the string passed to rustc determines it. -/
theorem C17_round_trip (t : TargetTriple) (h : Constructed t) : TargetTriple.ofStr t.serialize = .ok t := ofStr_cliTarget h

/-- Two different ways to the same target: from the absolute path, and from a relative path in a config file. -/
example : TargetTriple.new "x/avr.json".toList (some (.path "/w/.cargo/config".toList)) (some "/".toList) =
      .ok ⟨"avr".toList, some "/w/x/avr.json".toList⟩ ∧
    TargetTriple.new "/w/x/avr.json".toList none none = .ok ⟨"avr".toList, some "/w/x/avr.json".toList⟩ := ⟨by rfl, by rfl⟩
/-- Without the hypothesis `Constructed` the claim fails. -/
example : (⟨"a".toList, some "b".toList⟩ : TargetTriple).beq ⟨"b".toList, none⟩ = true := by decide

/-- C16 and C17 applied to samples. -/
example : TargetTriple.ofStr "targets/avr.v1.json".toList = .ok ⟨"avr.v1".toList, some "targets/avr.v1.json".toList⟩ :=
  C16_spec_file _ "avr.v1.json".toList _ (by rw [← isSpecPath_iff]; decide) (by unfold EndsInFile; decide)
    (.inl ⟨"json".toList, by decide, by decide, rfl⟩)

example : TargetTriple.ofStr "x86_64-unknown-linux-gnu".toList = .ok ⟨"x86_64-unknown-linux-gnu".toList, none⟩ :=
  C16_triple _ (by rw [← isSpecPath_iff]; decide)

example : (⟨"b".toList, none⟩ : TargetTriple).beq ⟨"avr".toList, some "b".toList⟩ = true := (C17_eq_iff _ _).2 rfl

/-- The order is that of the strings passed to the compiler, not of the names. -/
example : (⟨"z".toList, some "/a/z.json".toList⟩ : TargetTriple).cmp ⟨"b".toList, none⟩ = .lt := by decide +kernel

end CC
