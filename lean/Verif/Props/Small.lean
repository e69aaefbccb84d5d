import Verif.Model.Process
import Verif.Lemmas.Lists
/-
C32, C58, C59: environment names of targets, equality of definitions, process output.
-/
namespace CC

/-! ### C32 -/

theorem asciiUpper_of_range {c : Char} (h : 97 ≤ c.toNat ∧ c.toNat ≤ 122) :
    (asciiUpper c).toNat = c.toNat - 32 := by
  unfold asciiUpper
  rw [if_pos h]
  have hv : (c.toNat - 32).isValidChar := by left; omega
  rw [Char.ofNat, dif_pos hv]
  rfl

theorem asciiUpper_of_not {c : Char} (h : ¬(97 ≤ c.toNat ∧ c.toNat ≤ 122)) : asciiUpper c = c := by
  unfold asciiUpper
  rw [if_neg h]

/-- The characters of the environment name are those of the triple: `-` and `.` become `_`, lower-case ASCII letters
become upper-case, and all others stay. -/
theorem C32_env_name (t : Str) : EnvNameOf t (targetUUpper t) := by
  induction t with
  | nil => exact .nil
  | cons c cs ih =>
    refine .cons ?_ ih
    by_cases h : c = '-' ∨ c = '.'
    · left
      refine ⟨h, ?_⟩
      simp only [h, if_true]; decide
    · simp only [h, if_false]
      right
      by_cases hr : 97 ≤ c.toNat ∧ c.toNat ≤ 122
      · left
        refine ⟨hr.1, hr.2, ?_⟩
        rw [asciiUpper_of_range hr]; omega
      · right
        exact ⟨fun h' => h (.inl h'), fun h' => h (.inr h'), hr, asciiUpper_of_not hr⟩

theorem char_eq_of_toNat {c d : Char} (h : c.toNat = d.toNat) : c = d :=
  Char.ext (UInt32.toNat_inj.1 h)

instance (c : Char) : Decidable (IsDash c) := by unfold IsDash; infer_instance

theorem env_char_eq_iff (c d : Char) :
    asciiUpper (if c = '-' ∨ c = '.' then '_' else c) = asciiUpper (if d = '-' ∨ d = '.' then '_' else d)
      ↔ SameEnvChar c d := by
  have key : ∀ c : Char, asciiUpper (if c = '-' ∨ c = '.' then '_' else c)
      = if IsDash c then '_' else asciiUpper c := by
    intro c
    unfold IsDash
    by_cases h1 : c = '-'
    · subst h1; decide
    · by_cases h2 : c = '.'
      · subst h2; decide
      · by_cases h3 : c = '_'
        · subst h3; decide
        · simp [h1, h2, h3]
  have nd : ∀ c : Char, ¬ IsDash c → asciiUpper c ≠ '_' := by
    intro c hc h
    by_cases hr : 97 ≤ c.toNat ∧ c.toNat ≤ 122
    · have := asciiUpper_of_range hr
      rw [h] at this
      have e : ('_' : Char).toNat = 95 := by decide
      omega
    · rw [asciiUpper_of_not hr] at h
      exact hc (.inr (.inr h))
  have dashN : ∀ c : Char, IsDash c → c.toNat = 45 ∨ c.toNat = 46 ∨ c.toNat = 95 := by
    rintro c (h | h | h) <;> subst h <;> decide
  rw [key, key]
  by_cases hc : IsDash c <;> by_cases hd : IsDash d
  · simp [hc, hd, SameEnvChar]
  · simp only [hc, hd, if_true, if_false]
    constructor
    · intro h; exact absurd h.symm (nd d hd)
    · rintro (h | h | h | h)
      · subst h; exact absurd hc hd
      · exact absurd h.2 hd
      · have := dashN c hc; have := h.1; omega
      · have := dashN c hc
        have h1 := h.1; have h2 := h.2.1; have h3 := h.2.2
        omega
  · simp only [hc, hd, if_true, if_false]
    constructor
    · intro h; exact absurd h (nd c hc)
    · rintro (h | h | h | h)
      · subst h; exact absurd hd hc
      · exact absurd h.1 hc
      · have := dashN d hd
        have h1 := h.1; have h2 := h.2.1; have h3 := h.2.2
        omega
      · have := dashN d hd; have := h.1; omega
  · simp only [hc, hd, if_false]
    constructor
    · intro h
      by_cases rc : 97 ≤ c.toNat ∧ c.toNat ≤ 122 <;> by_cases rd : 97 ≤ d.toNat ∧ d.toNat ≤ 122
      · have h1 := asciiUpper_of_range rc
        have h2 := asciiUpper_of_range rd
        rw [h] at h1
        exact .inl (char_eq_of_toNat (by omega))
      · have h1 := asciiUpper_of_range rc
        rw [h, asciiUpper_of_not rd] at h1
        exact .inr (.inr (.inl ⟨rc.1, rc.2, by omega⟩))
      · have h2 := asciiUpper_of_range rd
        rw [← h, asciiUpper_of_not rc] at h2
        exact .inr (.inr (.inr ⟨rd.1, rd.2, by omega⟩))
      · rw [asciiUpper_of_not rc, asciiUpper_of_not rd] at h
        exact .inl h
    · rintro (h | h | h | h)
      · rw [h]
      · exact absurd h.1 hc
      · have h1 := asciiUpper_of_range ⟨h.1, h.2.1⟩
        have hd' : ¬(97 ≤ d.toNat ∧ d.toNat ≤ 122) := by
          have := h.1; have := h.2.1; have := h.2.2; omega
        rw [asciiUpper_of_not hd']
        apply char_eq_of_toNat
        have := h.2.2; omega
      · have h1 := asciiUpper_of_range ⟨h.1, h.2.1⟩
        have hc' : ¬(97 ≤ c.toNat ∧ c.toNat ≤ 122) := by
          have := h.1; have := h.2.1; have := h.2.2; omega
        rw [asciiUpper_of_not hc']
        apply char_eq_of_toNat
        have := h.2.2; omega

/-- Two triples share their environment names exactly if they agree up to case and `-`/`.`/`_`. -/
theorem C32_shared_iff (a b : Str) : targetUUpper a = targetUUpper b ↔ Pointwise SameEnvChar a b := by
  induction a generalizing b with
  | nil =>
    constructor
    · intro h
      cases b with
      | nil => exact .nil
      | cons d ds => simp [targetUUpper, targetULower] at h
    · intro h; cases h; rfl
  | cons c cs ih =>
    cases b with
    | nil =>
      constructor
      · intro h; simp [targetUUpper, targetULower] at h
      · intro h; cases h
    | cons d ds =>
      have hcons : targetUUpper (c :: cs) = targetUUpper (d :: ds) ↔
          SameEnvChar c d ∧ targetUUpper cs = targetUUpper ds := by
        rw [← env_char_eq_iff]
        simp only [targetUUpper, targetULower, List.map_cons, List.cons.injEq]
      rw [hcons, ih]
      constructor
      · rintro ⟨h1, h2⟩; exact .cons h1 h2
      · intro h; cases h with | cons h1 h2 => exact ⟨h1, h2⟩

example : Pointwise SameEnvChar "thumbv8m.a-B".toList "ThumbV8M-a_b".toList :=
  (C32_shared_iff _ _).1 (by decide)
example : ¬ Pointwise SameEnvChar "a+b".toList "a-b".toList :=
  fun h => absurd ((C32_shared_iff _ _).2 h) (by decide)

/-! ### C58 -/

/-- The kind of location a definition names: file 0, environment 1, command line 2. -/
def kindOf : Definition → Nat
  | .path _ => 0
  | .environment _ => 1
  | .cli _ => 2

/-- Definitions compare equal exactly if they are of the same kind, whatever path or variable they name. -/
theorem C58_definition_eq_iff (a b : Definition) : a.eq b = true ↔ kindOf a = kindOf b := by
  cases a <;> cases b <;> simp [Definition.eq, kindOf]

/-- Definition equality is an equivalence relation. -/
theorem C58_equivalence :
    (∀ a : Definition, a.eq a = true) ∧ (∀ a b : Definition, a.eq b = true → b.eq a = true) ∧
    (∀ a b c : Definition, a.eq b = true → b.eq c = true → a.eq c = true) := by
  refine ⟨?_, ?_, ?_⟩
  · intro a; rw [C58_definition_eq_iff]
  · intro a b h; rw [C58_definition_eq_iff] at *; exact h.symm
  · intro a b c h1 h2; rw [C58_definition_eq_iff] at *; exact h1.trans h2

/-- Values compare equal exactly if their contents do and they are both undefined or defined by the same kind of
location: the file or variable is irrelevant. -/
theorem C58_value_eq_iff {α : Type} (eqT : α → α → Bool) (a b : Val α) :
    a.eq eqT b = true ↔ eqT a.val b.val = true ∧ a.defn.map kindOf = b.defn.map kindOf := by
  obtain ⟨va, da⟩ := a
  obtain ⟨vb, db⟩ := b
  unfold Val.eq
  cases da with
  | none => cases db <;> simp
  | some x =>
    cases db with
    | none => simp
    | some y =>
      have := C58_definition_eq_iff x y
      cases h : x.eq y <;> simp [h] at this ⊢
      · intro _; exact this
      · intro _; exact this

example : (Val.mk 1 (some (.path "/a".toList))).eq (· == ·) (Val.mk 1 (some (.path "/b".toList))) = true := by decide
example : (Val.mk 1 (some (.path "A".toList))).eq (· == ·) (Val.mk 1 (some (.environment "A".toList))) = false := by
  decide

/-! ### C59 -/

theorem popLineEnds_spec (r : Str) :
    ∃ b, r = b ++ popLineEnds r ∧ (∀ c ∈ b, IsLineEnd c) ∧ ∀ c, (popLineEnds r).head? = some c → ¬ IsLineEnd c := by
  induction r using popLineEnds.induct with
  | case1 cs ih =>
    obtain ⟨b, h1, h2, h3⟩ := ih
    simp only [popLineEnds]
    refine ⟨'\n' :: b, by simp [← h1], ?_, h3⟩
    intro c hc
    rcases List.mem_cons.1 hc with h | h
    · exact .inl h
    · exact h2 c h
  | case2 cs ih =>
    obtain ⟨b, h1, h2, h3⟩ := ih
    simp only [popLineEnds]
    refine ⟨'\r' :: b, by simp [← h1], ?_, h3⟩
    intro c hc
    rcases List.mem_cons.1 hc with h | h
    · exact .inr h
    · exact h2 c h
  | case3 cs hn hr =>
    have : popLineEnds cs = cs := by
      unfold popLineEnds
      split
      · exact absurd rfl (hn _)
      · exact absurd rfl (hr _)
      · rfl
    rw [this]
    refine ⟨[], rfl, by simp, ?_⟩
    intro c hc h
    cases cs with
    | nil => simp at hc
    | cons d ds =>
      simp at hc; subst hc
      rcases h with h | h
      · subst h; exact hn _ rfl
      · subst h; exact hr _ rfl

/-- A process that succeeds with text output yields that text up to its trailing line ends, all of which are
removed. -/
theorem C59_output_trimmed (cm : Cmd) (out : Str) :
    ∃ t b, procRead cm (.succeeded (.unicode out)) = .ok t ∧ out = t ++ b ∧ (∀ c ∈ b, IsLineEnd c) ∧
      ∀ c, t.getLast? = some c → ¬ IsLineEnd c := by
  obtain ⟨b, h1, h2, h3⟩ := popLineEnds_spec out.reverse
  refine ⟨(popLineEnds out.reverse).reverse, b.reverse, rfl, ?_, ?_, ?_⟩
  · have := congrArg List.reverse h1
    simpa using this
  · intro c hc; exact h2 c (by simpa using hc)
  · intro c hc
    simp only [List.getLast?_reverse] at hc
    exact h3 c hc

/-- Reading a process's output succeeds exactly if it could be started, exited successfully, and printed valid
UTF-8; otherwise there is an error, never a panic. -/
theorem C59_succeeds_iff (cm : Cmd) (o : ProcOut) :
    ((∃ t, procRead cm o = .ok t) ↔ ∃ s, o = .succeeded (.unicode s)) ∧ procRead cm o ≠ .panic := by
  cases o with
  | notStarted w => exact ⟨⟨fun ⟨_, h⟩ => (by cases h), fun ⟨_, h⟩ => (by cases h)⟩, fun h => (by cases h)⟩
  | failed a b c => exact ⟨⟨fun ⟨_, h⟩ => (by cases h), fun ⟨_, h⟩ => (by cases h)⟩, fun h => (by cases h)⟩
  | succeeded s =>
    cases s with
    | unicode s => exact ⟨⟨fun _ => ⟨s, rfl⟩, fun _ => ⟨_, rfl⟩⟩, fun h => (by cases h)⟩
    | invalid s => exact ⟨⟨fun ⟨_, h⟩ => (by cases h), fun ⟨_, h⟩ => (by cases h)⟩, fun h => (by cases h)⟩

example (cm : Cmd) : procRead cm (.succeeded (.unicode "a\n\nb \r\n\n".toList)) = .ok "a\n\nb ".toList := by rfl

/-- C32: dots, dashes and letters of a name. -/
example : EnvNameOf "thumbv8m.main-none".toList "THUMBV8M_MAIN_NONE".toList := C32_env_name "thumbv8m.main-none".toList

/-- C58: files are not distinguished, but variables from files are. -/
example : (Definition.path "/a".toList).eq (.path "/b".toList) = true ∧ (Definition.environment "A".toList).eq (.cli none) = false :=
  ⟨(C58_definition_eq_iff _ _).2 rfl, by rw [Bool.eq_false_iff, ne_eq, C58_definition_eq_iff]; decide⟩

example : (Definition.path "/b".toList).eq (.path "/a".toList) = true :=
  C58_equivalence.2.1 _ _ ((C58_definition_eq_iff (.path "/a".toList) (.path "/b".toList)).2 rfl)

/-- C59: all line ends at the end go, but not other white space before them. -/
example (cm : Cmd) : procRead cm (.succeeded (.unicode "a \n\r\n".toList)) = .ok "a ".toList := rfl

end CC
