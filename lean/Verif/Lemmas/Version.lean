import Verif.Model.Version
import Verif.Spec.Version
import Verif.Lemmas.Str
import Verif.Lemmas.CfgParse
/-
Lines, decimal numbers and version texts.
-/
namespace CC

/-! ### Decimal numbers -/

theorem digitVal_iff {c : Char} {d : Nat} : digitVal c = some d ↔ d < 10 ∧ c = Char.ofNat (48 + d) := by
  unfold digitVal
  constructor
  · intro h
    split at h
    · rename_i hc
      cases h
      refine ⟨by omega, ?_⟩
      have : 48 + (c.toNat - 48) = c.toNat := by omega
      rw [this, Char.ofNat_toNat]
    · cases h
  · rintro ⟨hd, rfl⟩
    have : (Char.ofNat (48 + d)).toNat = 48 + d := by
      have : Nat.isValidChar (48 + d) := by left; omega
      simp [Char.ofNat, this, Char.toNat, Char.ofNatAux]; omega
    rw [this, if_pos (by omega)]
    congr 1; omega

theorem digitsVal_snoc (s : Str) (c : Char) (acc : Nat) :
    digitsVal acc (s ++ [c]) = (digitsVal acc s).bind fun n => (digitVal c).map fun d => n * 10 + d := by
  induction s generalizing acc with
  | nil =>
    simp only [List.nil_append, digitsVal]
    cases digitVal c <;> rfl
  | cons x xs ih =>
    simp only [List.cons_append, digitsVal]
    cases digitVal x with
    | none => rfl
    | some d => exact ih _

theorem digitsVal_iff {s : Str} (n : Nat) : (s ≠ [] ∧ digitsVal 0 s = some n) ↔ Decimal s n := by
  constructor
  · rintro ⟨h1, h2⟩
    obtain ⟨r, rfl⟩ : ∃ r, s = List.reverse r := ⟨s.reverse, by simp⟩
    induction r generalizing n with
    | nil => exact absurd rfl h1
    | cons c r ih =>
      rw [List.reverse_cons] at h2 ⊢
      generalize r.reverse = s at *
      rw [digitsVal_snoc] at h2
      cases hs : digitsVal 0 s with
      | none => rw [hs] at h2; cases h2
      | some m =>
        rw [hs] at h2
        cases hc : digitVal c with
        | none => rw [hc] at h2; cases h2
        | some d =>
          rw [hc] at h2
          simp only [Option.map_some, Option.bind_some, Option.some.injEq] at h2
          obtain ⟨hd, rfl⟩ := digitVal_iff.1 hc
          by_cases he : s = []
          · subst he
            cases hs
            have : n = d := by omega
            subst this
            exact .digit _ hd
          · have := Decimal.snoc s m d (ih m he hs) hd
            rw [← h2, Nat.mul_comm m 10]; exact this
  · intro h
    induction h with
    | digit d hd =>
      refine ⟨by simp, ?_⟩
      have := digitVal_iff.2 ⟨hd, rfl⟩
      simp [digitsVal, this]
    | snoc s n d _ hd ih =>
      refine ⟨by simp, ?_⟩
      rw [digitsVal_snoc, ih.2, digitVal_iff.2 ⟨hd, rfl⟩]
      simp [Nat.mul_comm]

theorem Decimal.chars {s : Str} {n : Nat} (h : Decimal s n) : ∀ c ∈ s, ∃ d < 10, c = Char.ofNat (48 + d) := by
  induction h with
  | digit d hd => intro c hc; simp only [List.mem_singleton] at hc; exact ⟨d, hd, hc⟩
  | snoc s n d _ hd ih =>
    intro c hc
    simp only [List.mem_append, List.mem_singleton] at hc
    rcases hc with hc | hc
    · exact ih c hc
    · exact ⟨d, hd, hc⟩

theorem Decimal.not_mem {s : Str} {n : Nat} (h : Decimal s n) {c : Char} (hc : digitVal c = none) : c ∉ s := by
  intro hm
  obtain ⟨d, hd, e⟩ := h.chars c hm
  rw [digitVal_iff.2 ⟨hd, e⟩] at hc
  cases hc

theorem Decimal.ne_nil {s : Str} {n : Nat} (h : Decimal s n) : s ≠ [] := ((digitsVal_iff n).2 h).1

theorem parseU32_iff {s : Str} {n : Nat} : parseU32 s = some n ↔ IsU32 s n := by
  have key : ∀ ds : Str, (match ds with
      | [] => none
      | _ => match digitsVal 0 ds with
        | some n => if n < 2 ^ 32 then some n else none
        | none => none) = some n ↔ Decimal ds n ∧ n < 4294967296 := by
    intro ds
    rw [← digitsVal_iff]
    cases ds with
    | nil => simp
    | cons c cs =>
      dsimp only
      cases digitsVal 0 (c :: cs) with
      | none => simp
      | some m =>
        dsimp only
        split
        · rename_i h
          simp only [Option.some.injEq, ne_eq, reduceCtorEq, not_false_eq_true, true_and]
          constructor
          · rintro rfl; exact ⟨rfl, h⟩
          · exact And.left
        · rename_i h
          simp only [reduceCtorEq, Option.some.injEq, ne_eq, not_false_eq_true, true_and, false_iff]
          rintro ⟨rfl, h2⟩
          exact h h2
  unfold parseU32 IsU32
  by_cases hp : ∃ r, s = '+' :: r
  · obtain ⟨r, rfl⟩ := hp
    refine (key r).trans ?_
    constructor
    · rintro ⟨h1, h2⟩; exact ⟨Or.inr ⟨r, rfl, h1⟩, h2⟩
    · rintro ⟨h1 | ⟨r', e, h1⟩, h2⟩
      · exact absurd (List.mem_cons_self) (h1.not_mem (c := '+') (by decide))
      · cases e; exact ⟨h1, h2⟩
  · have : dropPlus s = s := by
      unfold dropPlus
      split
      · exact absurd ⟨_, rfl⟩ hp
      · rfl
    rw [this]
    refine (key s).trans ?_
    constructor
    · rintro ⟨h1, h2⟩; exact ⟨Or.inl h1, h2⟩
    · rintro ⟨h1 | ⟨r', e, h1⟩, h2⟩
      · exact ⟨h1, h2⟩
      · exact absurd ⟨_, e⟩ hp

theorem IsU32.not_mem {s : Str} {n : Nat} (h : IsU32 s n) {c : Char} (hc : digitVal c = none) (hp : c ≠ '+') : c ∉ s := by
  rcases h.1 with h1 | ⟨r, rfl, h1⟩
  · exact h1.not_mem hc
  · intro hm
    rcases List.mem_cons.1 hm with rfl | hm
    · exact hp rfl
    · exact h1.not_mem hc hm

/-! ### Lines -/

theorem rawLines_lastLine (l : Str) (h : l ≠ []) (hn : '\n' ∉ l) : rawLines l = [(l, false)] := by
  induction l with
  | nil => exact absurd rfl h
  | cons c cs ih =>
    have hc : c ≠ '\n' := fun e => hn (by simp [e])
    unfold rawLines
    rw [if_neg hc]
    by_cases hcs : cs = []
    · subst hcs; rfl
    · rw [ih hcs (fun hm => hn (by simp [hm]))]

theorem rawLines_lf (l s : Str) (hn : '\n' ∉ l) : rawLines (l ++ '\n' :: s) = (l, true) :: rawLines s := by
  induction l with
  | nil => simp [rawLines]
  | cons c cs ih =>
    have hc : c ≠ '\n' := fun e => hn (by simp [e])
    show rawLines (c :: (cs ++ '\n' :: s)) = _
    rw [rawLines, if_neg hc, ih (fun hm => hn (by simp [hm]))]

theorem chompCr_lf (l : Str) (h : l.getLast? ≠ some '\r') : chompCr (l, true) = l := by
  unfold chompCr
  simp only [if_true]
  split
  · rename_i r hr
    refine absurd ?_ h
    rw [← List.head?_reverse, hr]; rfl
  · rfl

theorem chompCr_crlf (l : Str) : chompCr (l ++ ['\r'], true) = l := by
  unfold chompCr; simp

theorem LinesOf.eq {s : Str} {ls : List Str} (h : LinesOf s ls) : lines s = ls := by
  unfold lines
  induction h with
  | nil => rfl
  | last l h1 h2 => rw [rawLines_lastLine l h1 h2]; rfl
  | lf l s ls h1 h2 _ ih => rw [rawLines_lf l s h1, List.map_cons, ih, chompCr_lf l h2]
  | crlf l s ls h1 _ ih =>
    have : l ++ '\r' :: '\n' :: s = (l ++ ['\r']) ++ '\n' :: s := by simp
    rw [this, rawLines_lf _ s (by simp [h1]), List.map_cons, ih, chompCr_crlf]

theorem linesOf_lines (s : Str) : LinesOf s (lines s) := by
  generalize hn : s.length = n
  induction n using Nat.strongRecOn generalizing s with
  | ind n ih =>
    by_cases hm : '\n' ∈ s
    · cases ho : splitOnce '\n' s with
      | none => exact absurd hm (splitOnce_eq_none.1 ho)
      | some p =>
        obtain ⟨a, b⟩ := p
        obtain ⟨rfl, ha⟩ := splitOnce_eq_some.1 ho
        have hb : LinesOf b (lines b) := ih b.length (by rw [← hn]; simp; omega) b rfl
        by_cases hr : a.getLast? = some '\r'
        · obtain ⟨l, rfl⟩ := List.getLast?_eq_some_iff.1 hr
          have : l ++ ['\r'] ++ '\n' :: b = l ++ '\r' :: '\n' :: b := by simp
          rw [this]
          have h2 := LinesOf.crlf l b (lines b) (fun h => ha (by simp [h])) hb
          rw [h2.eq]; exact h2
        · have h2 := LinesOf.lf a b (lines b) ha hr hb
          rw [h2.eq]; exact h2
    · by_cases he : s = []
      · subst he; exact .nil
      · have h2 := LinesOf.last s he hm
        rw [h2.eq]; exact h2

theorem linesOf_iff {s : Str} {ls : List Str} : LinesOf s ls ↔ lines s = ls :=
  ⟨LinesOf.eq, fun h => h ▸ linesOf_lines s⟩

theorem findLine_iff {p rest : Str} {ls : List Str} :
    findLine p ls = some rest ↔ ∃ before after, ls = before ++ (p ++ rest) :: after ∧ ∀ l ∈ before, ¬ p <+: l := by
  induction ls with
  | nil => simp [findLine]
  | cons l ls ih =>
    unfold findLine
    cases hs : stripPrefix p l with
    | some r =>
      rw [stripPrefix_eq_some] at hs
      subst hs
      simp only [Option.some.injEq]
      constructor
      · rintro rfl; exact ⟨[], ls, rfl, by simp⟩
      · rintro ⟨before, after, e, h⟩
        cases before with
        | nil => simp only [List.nil_append, List.cons.injEq] at e; exact List.append_cancel_left e.1
        | cons b bs =>
          simp only [List.cons_append, List.cons.injEq] at e
          exact absurd ⟨r, e.1⟩ (h b (by simp))
    | none =>
      have hl : ¬ p <+: l := by
        rintro ⟨r, rfl⟩
        rw [stripPrefix_eq_some.2 rfl] at hs; cases hs
      dsimp only
      rw [ih]
      constructor
      · rintro ⟨before, after, e, h⟩
        refine ⟨l :: before, after, by rw [e]; rfl, ?_⟩
        intro x hx
        rcases List.mem_cons.1 hx with rfl | hx
        · exact hl
        · exact h x hx
      · rintro ⟨before, after, e, h⟩
        cases before with
        | nil =>
          simp only [List.nil_append, List.cons.injEq] at e
          exact absurd ⟨rest, e.1.symm⟩ hl
        | cons b bs =>
          simp only [List.cons_append, List.cons.injEq] at e
          exact ⟨bs, after, e.2, fun x hx => h x (by simp [hx])⟩

theorem findLine_lines {p rest out : Str} : findLine p (lines out) = some rest ↔ FirstLine out p rest := by
  rw [findLine_iff]
  unfold FirstLine
  constructor
  · rintro ⟨b, a, h1, h2⟩; exact ⟨b, a, linesOf_iff.2 h1, h2⟩
  · rintro ⟨b, a, h1, h2⟩; exact ⟨b, a, linesOf_iff.1 h1, h2⟩

/-! ### Releases -/

theorem splitN3_two {v a b : Str} : splitN 3 '.' v = [a, b] ↔ v = a ++ '.' :: b ∧ '.' ∉ a ∧ '.' ∉ b := by
  unfold splitN
  cases h1 : splitOnce '.' v with
  | none =>
    simp only [List.cons.injEq, reduceCtorEq, and_false, false_iff]
    rintro ⟨rfl, _⟩
    exact splitOnce_eq_none.1 h1 (by simp)
  | some p =>
    obtain ⟨x, y⟩ := p
    obtain ⟨rfl, hx⟩ := splitOnce_eq_some.1 h1
    dsimp only
    unfold splitN
    cases h2 : splitOnce '.' y with
    | none =>
      simp only [List.cons.injEq, and_true]
      constructor
      · rintro ⟨rfl, rfl⟩; exact ⟨rfl, hx, splitOnce_eq_none.1 h2⟩
      · rintro ⟨e, ha, hb⟩
        have := splitOnce_eq_some.2 ⟨e, ha⟩
        rw [h1] at this
        simpa using this
    | some q =>
      obtain ⟨z, u⟩ := q
      obtain ⟨rfl, hz⟩ := splitOnce_eq_some.1 h2
      dsimp only
      unfold splitN
      simp only [List.cons.injEq, reduceCtorEq, and_false, false_iff]
      rintro ⟨e, ha, hb⟩
      have := splitOnce_eq_some.2 ⟨e, ha⟩
      rw [h1] at this
      simp only [Option.some.injEq, Prod.mk.injEq] at this
      rw [← this.2] at hb
      exact hb (by simp)

theorem splitN3_three {v a b c : Str} :
    splitN 3 '.' v = [a, b, c] ↔ v = a ++ '.' :: (b ++ '.' :: c) ∧ '.' ∉ a ∧ '.' ∉ b := by
  unfold splitN
  cases h1 : splitOnce '.' v with
  | none =>
    simp only [List.cons.injEq, reduceCtorEq, and_false, false_iff]
    rintro ⟨rfl, _⟩
    exact splitOnce_eq_none.1 h1 (by simp)
  | some p =>
    obtain ⟨x, y⟩ := p
    obtain ⟨rfl, hx⟩ := splitOnce_eq_some.1 h1
    dsimp only
    unfold splitN
    cases h2 : splitOnce '.' y with
    | none =>
      simp only [List.cons.injEq, reduceCtorEq, and_false, false_iff]
      rintro ⟨e, ha, hb⟩
      have := splitOnce_eq_some.2 ⟨e, ha⟩
      rw [h1] at this
      simp only [Option.some.injEq, Prod.mk.injEq] at this
      rw [this.2] at h2
      exact splitOnce_eq_none.1 h2 (by simp)
    | some q =>
      obtain ⟨z, u⟩ := q
      obtain ⟨rfl, hz⟩ := splitOnce_eq_some.1 h2
      dsimp only
      unfold splitN
      simp only [List.cons.injEq, and_true]
      constructor
      · rintro ⟨rfl, rfl, rfl⟩; exact ⟨rfl, hx, hz⟩
      · rintro ⟨e, ha, hb⟩
        have := splitOnce_eq_some.2 ⟨e, ha⟩
        rw [h1] at this
        simp only [Option.some.injEq, Prod.mk.injEq] at this
        have h3 := splitOnce_eq_some.2 ⟨this.2, hb⟩
        rw [h2] at h3
        simp only [Option.some.injEq, Prod.mk.injEq] at h3
        exact ⟨this.1, h3.1, h3.2⟩

/-- The version part and the channel of a release. -/
def IsChannel (tail : Str) (nightly : Bool) : Prop :=
  (tail = [] ∧ nightly = false) ∨
    ∃ ch, tail = '-' :: ch ∧ (nightly = true ↔ ch = "nightly".toList ∨ ch = "dev".toList)

theorem parseRelease_split (version tail : Str) (hv : '-' ∉ version) (n : Bool) (ht : IsChannel tail n) :
    parseRelease (version ++ tail) = match splitN 3 '.' version with
      | [a, b] => (parseU32 a).bind fun major => (parseU32 b).bind fun minor => some (major, minor, none, n)
      | [a, b, c] => (parseU32 a).bind fun major => (parseU32 b).bind fun minor => (parseU32 c).bind fun patch =>
          some (major, minor, some patch, n)
      | _ => none := by
  unfold parseRelease
  rcases ht with ⟨rfl, rfl⟩ | ⟨ch, rfl, hn⟩
  · rw [List.append_nil, splitOnce_eq_none.2 hv]
    rfl
  · rw [splitOnce_eq_some.2 ⟨rfl, hv⟩]
    have : (decide (ch = "nightly".toList ∨ ch = "dev".toList)) = n := by
      generalize "nightly".toList = x at *
      generalize "dev".toList = y at *
      cases n with
      | true => simpa using hn
      | false => simpa using hn
    rw [← this]
    rfl

theorem exists_channel (s : Str) : ∃ version tail n, s = version ++ tail ∧ '-' ∉ version ∧ IsChannel tail n := by
  cases h : splitOnce '-' s with
  | none => exact ⟨s, [], false, by simp, splitOnce_eq_none.1 h, Or.inl ⟨rfl, rfl⟩⟩
  | some p =>
    obtain ⟨a, b⟩ := p
    obtain ⟨rfl, ha⟩ := splitOnce_eq_some.1 h
    exact ⟨a, '-' :: b, decide (b = "nightly".toList ∨ b = "dev".toList), rfl, ha, Or.inr ⟨b, rfl, by simp⟩⟩

theorem parseRelease_iff {s : Str} {major minor : Nat} {patch : Option Nat} {n : Bool} :
    parseRelease s = some (major, minor, patch, n) ↔ IsRelease s major minor patch n := by
  constructor
  · intro h
    obtain ⟨version, tail, n', rfl, hv, ht⟩ := exists_channel s
    rw [parseRelease_split version tail hv n' ht] at h
    split at h
    · rename_i a b hs
      obtain ⟨rfl, ha, hb⟩ := splitN3_two.1 hs
      cases h1 : parseU32 a with
      | none => rw [h1] at h; cases h
      | some x =>
        cases h2 : parseU32 b with
        | none => rw [h1, h2] at h; cases h
        | some y =>
          rw [h1, h2] at h
          simp only [Option.bind_some, Option.some.injEq, Prod.mk.injEq] at h
          obtain ⟨rfl, rfl, rfl, rfl⟩ := h
          exact ⟨a, b, tail, parseU32_iff.1 h1, parseU32_iff.1 h2, Or.inl ⟨rfl, by simp⟩, ht⟩
    · rename_i a b c hs
      obtain ⟨rfl, ha, hb⟩ := splitN3_three.1 hs
      cases h1 : parseU32 a with
      | none => rw [h1] at h; cases h
      | some x =>
        cases h2 : parseU32 b with
        | none => rw [h1, h2] at h; cases h
        | some y =>
          cases h3 : parseU32 c with
          | none => rw [h1, h2, h3] at h; cases h
          | some z =>
            rw [h1, h2, h3] at h
            simp only [Option.bind_some, Option.some.injEq, Prod.mk.injEq] at h
            obtain ⟨rfl, rfl, rfl, rfl⟩ := h
            exact ⟨a, b, tail, parseU32_iff.1 h1, parseU32_iff.1 h2, Or.inr ⟨c, z, rfl, parseU32_iff.1 h3, by simp⟩, ht⟩
    · cases h
  · rintro ⟨a, b, tail, ha, hb, hs, ht⟩
    have dash : ∀ {s : Str} {n : Nat}, IsU32 s n → '-' ∉ s := fun h => h.not_mem (by decide) (by decide)
    have dot : ∀ {s : Str} {n : Nat}, IsU32 s n → '.' ∉ s := fun h => h.not_mem (by decide) (by decide)
    rcases hs with ⟨rfl, rfl⟩ | ⟨c, p, rfl, hc, rfl⟩
    · have e : a ++ '.' :: (b ++ tail) = (a ++ '.' :: b) ++ tail := by simp
      rw [e, parseRelease_split _ tail (by simp [dash ha, dash hb]) n ht, splitN3_two.2 ⟨rfl, dot ha, dot hb⟩]
      dsimp only
      rw [parseU32_iff.2 ha, parseU32_iff.2 hb]; rfl
    · have e : a ++ '.' :: (b ++ '.' :: (c ++ tail)) = (a ++ '.' :: (b ++ '.' :: c)) ++ tail := by simp
      rw [e, parseRelease_split _ tail (by simp [dash ha, dash hb, dash hc]) n ht, splitN3_three.2 ⟨rfl, dot ha, dot hb⟩]
      dsimp only
      rw [parseU32_iff.2 ha, parseU32_iff.2 hb, parseU32_iff.2 hc]; rfl

theorem parseVersion_iff {out : Str} {major minor : Nat} {patch : Option Nat} {n : Bool} :
    parseVersion out = some (major, minor, patch, n) ↔
      ∃ rest, FirstLine out "release: ".toList rest ∧ IsRelease rest major minor patch n := by
  unfold parseVersion
  rw [Option.bind_eq_some_iff]
  constructor
  · rintro ⟨r, h1, h2⟩; exact ⟨r, findLine_lines.1 h1, parseRelease_iff.1 h2⟩
  · rintro ⟨r, h1, h2⟩; exact ⟨r, findLine_lines.2 h1, parseRelease_iff.2 h2⟩

end CC
