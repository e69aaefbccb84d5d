import Verif.Spec.Target
import Verif.Lemmas.Path
import Verif.Lemmas.BMap
/-
Target strings and file stems.
-/
namespace CC

theorem rsplitDot_eq_none {s : Str} : Path.rsplitDot s = none ↔ '.' ∉ s := by
  unfold Path.rsplitDot
  rw [Option.map_eq_none_iff, splitOnce_eq_none]
  simp

theorem rsplitDot_eq_some {s a b : Str} : Path.rsplitDot s = some (a, b) ↔ s = a ++ '.' :: b ∧ '.' ∉ b := by
  unfold Path.rsplitDot
  rw [Option.map_eq_some_iff]
  constructor
  · rintro ⟨⟨x, y⟩, h, e⟩
    rw [splitOnce_eq_some] at h
    simp only [Prod.mk.injEq] at e
    obtain ⟨rfl, rfl⟩ := e
    refine ⟨?_, by simpa using h.2⟩
    have := congrArg List.reverse h.1
    simpa using this
  · rintro ⟨rfl, h⟩
    refine ⟨(b.reverse, a.reverse), ?_, by simp⟩
    rw [splitOnce_eq_some]
    exact ⟨by simp, by simpa using h⟩

theorem fileName_some {s f : Str} : Path.fileName s = some f ↔ (Path.kept s).getLast? = some f ∧ f ≠ "..".toList := by
  unfold Path.fileName
  generalize "..".toList = dd
  cases h : (Path.kept s).getLast? with
  | none => simp
  | some p =>
    by_cases hp : p = dd
    · subst hp; simp; rintro rfl; rfl
    · show (if p = dd then none else some p) = some f ↔ _
      rw [if_neg hp]; simp; rintro rfl; exact hp

theorem fileName_iff {s f : Str} : Path.fileName s = some f ↔ EndsInFile s f := by
  rw [fileName_some]
  unfold EndsInFile Path.components
  rcases List.eq_nil_or_concat (Path.kept s) with h | ⟨ks, k, h⟩
  · rw [h]
    simp only [List.getLast?_nil, List.map_nil, List.append_nil]
    constructor
    · rintro ⟨h, _⟩; cases h
    · intro h
      unfold Path.lead at h
      split at h
      · simp at h
      · split at h <;> simp at h
  · rw [h]
    simp only [List.concat_eq_append, List.getLast?_append, List.getLast?_singleton, List.map_append, List.map_cons, List.map_nil,
      Option.some_or, Option.some.injEq, Path.toComp]
    generalize "..".toList = dd
    constructor
    · rintro ⟨rfl, h⟩; rw [if_neg h]
    · intro h
      split at h
      · cases h
      · cases h; exact ⟨rfl, by assumption⟩

theorem fileStem_iff {s t : Str} : Path.fileStem s = some t ↔ ∃ f, EndsInFile s f ∧ IsStem f t := by
  unfold Path.fileStem
  rw [Option.map_eq_some_iff]
  have key : ∀ f, (match Path.rsplitDot f with
      | none => f
      | some (before, _) => if before = [] then f else before) = t ↔ IsStem f t := by
    intro f
    unfold IsStem
    cases h : Path.rsplitDot f with
    | none =>
      rw [rsplitDot_eq_none] at h
      simp only
      constructor
      · rintro rfl
        exact Or.inr ⟨rfl, fun a ext _ e => by rw [e] at h; simp at h⟩
      · rintro (⟨ext, _, _, e⟩ | ⟨e, _⟩)
        · rw [e] at h; simp at h
        · exact e.symm
    | some p =>
      obtain ⟨a, b⟩ := p
      rw [rsplitDot_eq_some] at h
      simp only
      have uniq : ∀ a' b', '.' ∉ b' → f = a' ++ '.' :: b' → a' = a ∧ b' = b := by
        intro a' b' hb e
        have h1 : Path.rsplitDot f = some (a, b) := rsplitDot_eq_some.2 h
        have h2 : Path.rsplitDot f = some (a', b') := rsplitDot_eq_some.2 ⟨e, hb⟩
        rw [h1] at h2
        simp only [Option.some.injEq, Prod.mk.injEq] at h2
        exact ⟨h2.1.symm, h2.2.symm⟩
      by_cases ha : a = []
      · rw [if_pos ha]
        constructor
        · rintro rfl
          exact Or.inr ⟨rfl, fun a' ext he e => by rw [(uniq a' ext he e).1]; exact ha⟩
        · rintro (⟨ext, h1, h2, e⟩ | ⟨e, _⟩)
          · exact absurd ((uniq _ _ h1 e).1.trans ha) h2
          · exact e.symm
      · rw [if_neg ha]
        constructor
        · rintro rfl
          exact Or.inl ⟨b, h.2, ha, h.1⟩
        · rintro (⟨ext, h1, h2, e⟩ | ⟨e, h1⟩)
          · exact (uniq _ _ h1 e).1.symm
          · exact absurd (h1 a b h.2 h.1) ha
  constructor
  · rintro ⟨f, hf, he⟩
    exact ⟨f, fileName_iff.1 hf, (key f).1 he⟩
  · rintro ⟨f, hf, he⟩
    exact ⟨f, fileName_iff.2 hf, (key f).2 he⟩

theorem fileName_noSlash {s : Str} (h : '/' ∉ s) : Path.fileName s =
    if s = [] ∨ s = ['.'] ∨ s = ['.', '.'] then none else some s := by
  unfold Path.fileName Path.kept
  rw [splitOn_of_not_mem '/' s h]
  have e : "..".toList = ['.', '.'] := by decide
  rw [e]
  by_cases h1 : s = []
  · subst h1; decide
  · by_cases h2 : s = ['.']
    · subst h2; decide
    · by_cases h3 : s = ['.', '.']
      · subst h3; decide
      · have hj : Path.junk s = false := by simp [Path.junk, h1, h2]
        simp [hj, h1, h2, h3]

theorem json_toList : ".json".toList = '.' :: "json".toList := by decide

theorem extension_json {s : Str} : Path.extension s = some "json".toList ↔
    ∃ stem, stem ≠ [] ∧ Path.fileName s = some (stem ++ ".json".toList) := by
  unfold Path.extension
  rw [Option.bind_eq_some_iff, json_toList]
  have hd : '.' ∉ "json".toList := by decide
  generalize "json".toList = j at *
  constructor
  · rintro ⟨f, hf, h⟩
    cases hr : Path.rsplitDot f with
    | none => rw [hr] at h; cases h
    | some p =>
      obtain ⟨a, b⟩ := p
      rw [hr] at h
      simp only at h
      split at h
      · cases h
      · rename_i ha
        cases h
        rw [rsplitDot_eq_some] at hr
        exact ⟨a, ha, by rw [hf, hr.1]⟩
  · rintro ⟨stem, h1, h2⟩
    refine ⟨_, h2, ?_⟩
    have hr : Path.rsplitDot (stem ++ '.' :: j) = some (stem, j) := rsplitDot_eq_some.2 ⟨rfl, hd⟩
    rw [hr]
    simp only
    rw [if_neg h1]

theorem isSpecPath_iff {s : Str} : isSpecPath s = true ↔ NamesSpecFile s := by
  unfold isSpecPath NamesSpecFile
  rw [Bool.or_eq_true, Bool.or_eq_true, beq_iff_eq, extension_json]
  simp only [List.contains_iff_mem]
  by_cases hs : '/' ∈ s
  · simp [hs]
  · by_cases hb : '\\' ∈ s
    · simp [hb]
    · simp only [hs, hb, or_false, false_or]
      rw [fileName_noSlash hs]
      have hne : ∀ stem : Str, stem ≠ [] → stem ++ ".json".toList ≠ [] ∧ stem ++ ".json".toList ≠ ['.'] ∧
          stem ++ ".json".toList ≠ ['.', '.'] := by
        intro stem h
        have hl : (stem ++ ".json".toList).length = stem.length + 5 := by rw [List.length_append]; rfl
        refine ⟨?_, ?_, ?_⟩ <;> intro e <;> rw [e] at hl <;> simp at hl
      constructor
      · rintro ⟨stem, h1, h2⟩
        split at h2
        · cases h2
        · exact ⟨stem, h1, Option.some.inj h2⟩
      · rintro ⟨stem, h1, h2⟩
        refine ⟨stem, h1, ?_⟩
        obtain ⟨n1, n2, n3⟩ := hne stem h1
        rw [← h2] at n1 n2 n3
        rw [if_neg (by simp [n1, n2, n3]), ← h2]

theorem fileName_of_spec_noSlash {s : Str} (h : isSpecPath s = true) (hs : '/' ∉ s) : Path.fileName s = some s := by
  rw [isSpecPath_iff] at h
  rw [fileName_noSlash hs, if_neg]
  have hl : ∀ {x : Str}, x = [] ∨ x = ['.'] ∨ x = ['.', '.'] → '\\' ∉ x ∧ x.length < 3 := by
    rintro x (rfl | rfl | rfl) <;> decide
  intro hc
  obtain ⟨h1, h2⟩ := hl hc
  rcases h with h | h | ⟨stem, _, rfl⟩
  · exact hs h
  · exact h1 h
  · rw [List.length_append] at h2
    have : ".json".toList.length = 5 := by decide
    omega

theorem fileName_join {r s : Path} (h : (Path.fileName s).isSome = true) : Path.fileName (Path.join r s) = Path.fileName s := by
  by_cases ha : Path.isAbsolute s = true
  · unfold Path.join; rw [if_pos ha]
  · rw [Bool.not_eq_true] at ha
    unfold Path.fileName at h ⊢
    rw [Path.kept_join r s ha, List.getLast?_append]
    cases hk : (Path.kept s).getLast? with
    | none => rw [hk] at h; simp at h
    | some p => rfl

theorem join_suffix (r s : Path) : ∃ p, Path.join r s = p ++ s := by
  unfold Path.join
  split
  · exact ⟨[], rfl⟩
  · split
    · exact ⟨[], rfl⟩
    · exact ⟨r, rfl⟩
    · exact ⟨r ++ ['/'], by simp⟩

theorem isSpecPath_join {r s : Path} (h : isSpecPath s = true) (hf : (Path.fileName s).isSome = true) :
    isSpecPath (Path.join r s) = true := by
  have h1 : Path.extension (Path.join r s) = Path.extension s := by
    unfold Path.extension; rw [fileName_join hf]
  obtain ⟨p, hp⟩ := join_suffix r s
  unfold isSpecPath at h ⊢
  rw [h1, hp]
  simp only [Bool.or_eq_true, List.contains_iff_mem, List.mem_append] at h ⊢
  rcases h with (h | h) | h
  · exact Or.inl (Or.inl h)
  · exact Or.inl (Or.inr (Or.inr h))
  · exact Or.inr (Or.inr h)

theorem fileStem_join {r s : Path} (hf : (Path.fileName s).isSome = true) : Path.fileStem (Path.join r s) = Path.fileStem s := by
  unfold Path.fileStem; rw [fileName_join hf]

theorem fileStem_isSome {s : Path} : (Path.fileStem s).isSome = (Path.fileName s).isSome := by
  unfold Path.fileStem; simp

/-- What is known of a constructed target. -/
theorem new_ok {s : Str} {d : Option Definition} {cwd : Option Path} {t : TargetTriple} (h : TargetTriple.new s d cwd = .ok t) :
    (isSpecPath s = false ∧ t = ⟨s, none⟩) ∨
    (isSpecPath s = true ∧ ∃ stem p, Path.fileStem s = some stem ∧ t = ⟨stem, some p⟩ ∧
      (p = s ∨ ∃ r, p = Path.join r s)) := by
  unfold TargetTriple.new at h
  cases hs : isSpecPath s with
  | false =>
    rw [hs] at h
    simp only [Bool.false_eq_true, if_false] at h
    exact Or.inl ⟨rfl, (Res.ok.inj h).symm⟩
  | true =>
    rw [hs, if_pos rfl] at h
    right
    refine ⟨rfl, ?_⟩
    cases hf : Path.fileStem s with
    | none => rw [hf] at h; cases h
    | some stem =>
      rw [hf] at h
      simp only [Res.unwrap, Res.ok_bind] at h
      unfold resolveSpecPath at h
      cases d with
      | none => simp only [Res.ok_bind] at h; exact ⟨stem, s, rfl, (Res.ok.inj h).symm, Or.inl rfl⟩
      | some d =>
        simp only at h
        cases hd : d.rootOpt cwd with
        | none => rw [hd] at h; cases h
        | some o =>
          rw [hd] at h
          cases o with
          | none => simp only [Res.ok_bind] at h; exact ⟨stem, s, rfl, (Res.ok.inj h).symm, Or.inl rfl⟩
          | some r => simp only [Res.ok_bind] at h; exact ⟨stem, _, rfl, (Res.ok.inj h).symm, Or.inr ⟨r, rfl⟩⟩

/-- A constructed target can be made from the string that is passed to rustc. -/
theorem ofStr_cliTarget {t : TargetTriple} (h : Constructed t) : TargetTriple.ofStr t.cliTarget = .ok t := by
  obtain ⟨s, d, cwd, h⟩ := h
  rcases new_ok h with ⟨h1, rfl⟩ | ⟨h1, stem, p, h2, rfl, h3⟩
  · show TargetTriple.new s none none = _
    unfold TargetTriple.new
    rw [h1]; rfl
  · have hf : (Path.fileName s).isSome = true := by rw [← fileStem_isSome, h2]; rfl
    have hp : isSpecPath p = true ∧ Path.fileStem p = some stem := by
      rcases h3 with rfl | ⟨r, rfl⟩
      · exact ⟨h1, h2⟩
      · exact ⟨isSpecPath_join h1 hf, by rw [fileStem_join hf, h2]⟩
    show TargetTriple.new p none none = _
    unfold TargetTriple.new
    rw [hp.1, if_pos rfl, hp.2]
    rfl

end CC
