import Verif.Spec.CfgExpr
import Verif.Lemmas.Str
/-
Helper lemmas: byte slices, and the lexer of cfg expressions.
-/
namespace CC

@[simp] theorem utf8Len_nil : utf8Len [] = 0 := rfl
@[simp] theorem utf8Len_cons (c : Char) (s : Str) : utf8Len (c :: s) = c.utf8Size + utf8Len s := rfl
theorem utf8Len_append (a b : Str) : utf8Len (a ++ b) = utf8Len a + utf8Len b := by
  induction a with
  | nil => simp
  | cons c a ih => simp [ih, Nat.add_assoc]

theorem sliceFrom_cons (c : Char) (s : Str) (n : Nat) (h : 0 < n) :
    sliceFrom (c :: s) n = if c.utf8Size ≤ n then sliceFrom s (n - c.utf8Size) else none := by
  obtain ⟨m, rfl⟩ : ∃ m, n = m + 1 := ⟨n - 1, by omega⟩
  rfl

theorem sliceTo_cons (c : Char) (s : Str) (n : Nat) (h : 0 < n) :
    sliceTo (c :: s) n = if c.utf8Size ≤ n then (sliceTo s (n - c.utf8Size)).map (c :: ·) else none := by
  obtain ⟨m, rfl⟩ : ∃ m, n = m + 1 := ⟨n - 1, by omega⟩
  rfl

theorem sliceFrom_zero (s : Str) : sliceFrom s 0 = some s := by cases s <;> rfl
theorem sliceTo_zero (s : Str) : sliceTo s 0 = some [] := by cases s <;> rfl

theorem sliceFrom_append (a b : Str) (n : Nat) : sliceFrom (a ++ b) (utf8Len a + n) = sliceFrom b n := by
  induction a with
  | nil => simp
  | cons c a ih =>
    have := Char.utf8Size_pos c
    rw [List.cons_append, utf8Len_cons, sliceFrom_cons _ _ _ (by omega)]
    rw [if_pos (by omega), show c.utf8Size + utf8Len a + n - c.utf8Size = utf8Len a + n by omega, ih]

theorem sliceFrom_append_self (a b : Str) : sliceFrom (a ++ b) (utf8Len a) = some b := by
  have := sliceFrom_append a b 0
  rwa [Nat.add_zero, sliceFrom_zero] at this

theorem sliceTo_append_self (a b : Str) : sliceTo (a ++ b) (utf8Len a) = some a := by
  induction a with
  | nil => simp [sliceTo_zero]
  | cons c a ih =>
    have := Char.utf8Size_pos c
    rw [List.cons_append, utf8Len_cons, sliceTo_cons _ _ _ (by omega)]
    rw [if_pos (by omega), show c.utf8Size + utf8Len a - c.utf8Size = utf8Len a by omega, ih]
    rfl

theorem slice_append (a b c : Str) : slice (a ++ b ++ c) (utf8Len a) (utf8Len a + utf8Len b) = some b := by
  unfold slice
  rw [if_pos (by omega), List.append_assoc, sliceFrom_append_self]
  simp only [Option.bind_some]
  rw [show utf8Len a + utf8Len b - utf8Len a = utf8Len b by omega, sliceTo_append_self]

theorem strFind_append {p : Char → Bool} (a : Str) (c : Char) (b : Str) (ha : ∀ x ∈ a, p x = false) (hc : p c = true) :
    strFind p (a ++ c :: b) = some (utf8Len a) := by
  induction a with
  | nil => simp [strFind, hc]
  | cons x a ih =>
    have hx := ha x (by simp)
    rw [List.cons_append]
    simp only [strFind, hx, Bool.false_eq_true, if_false, ih fun y hy => ha y (by simp [hy]), Option.map_some, utf8Len_cons]

theorem strFind_none {p : Char → Bool} (a : Str) (ha : ∀ x ∈ a, p x = false) : strFind p a = none := by
  induction a with
  | nil => rfl
  | cons x a ih =>
    have hx := ha x (by simp)
    simp only [strFind, hx, Bool.false_eq_true, if_false, ih fun y hy => ha y (by simp [hy]), Option.map_none]

/-- Either no character satisfies `p`, or there is a first one. -/
theorem split_first (p : Char → Bool) (s : Str) :
    (∀ x ∈ s, p x = false) ∨ ∃ a c b, s = a ++ c :: b ∧ (∀ x ∈ a, p x = false) ∧ p c = true := by
  induction s with
  | nil => left; simp
  | cons x s ih =>
    cases hx : p x with
    | true => right; exact ⟨[], x, s, rfl, by simp, hx⟩
    | false =>
      rcases ih with h | ⟨a, c, b, h, ha, hc⟩
      · left; intro y hy; rcases List.mem_cons.1 hy with rfl | hy
        · exact hx
        · exact h y hy
      · right
        refine ⟨x :: a, c, b, by rw [h]; rfl, ?_, hc⟩
        intro y hy; rcases List.mem_cons.1 hy with rfl | hy
        · exact hx
        · exact ha y hy

theorem char_le_iff (a b : Char) : a ≤ b ↔ a.toNat ≤ b.toNat := by
  rw [Char.le_def, UInt32.le_iff_toNat_le]; rfl

theorem isIdentStart_iff (c : Char) : isIdentStart c = true ↔ IdentStart c := by
  unfold isIdentStart IdentStart
  simp only [char_le_iff, Bool.or_eq_true, Bool.and_eq_true, decide_eq_true_eq, beq_iff_eq]
  have : ('a'.toNat = 97) ∧ ('z'.toNat = 122) ∧ ('A'.toNat = 65) ∧ ('Z'.toNat = 90) := by decide
  rw [this.1, this.2.1, this.2.2.1, this.2.2.2, or_assoc, or_comm, or_assoc]

theorem isIdentRest_iff (c : Char) : isIdentRest c = true ↔ IdentRest c := by
  unfold isIdentRest IdentRest
  rw [Bool.or_eq_true, isIdentStart_iff]
  simp only [char_le_iff, Bool.and_eq_true, decide_eq_true_eq]
  have : ('0'.toNat = 48) ∧ ('9'.toNat = 57) := by decide
  rw [this.1, this.2]

theorem utf8Size_of_lt {c : Char} (h : c.toNat < 128) : c.utf8Size = 1 := by
  unfold Char.utf8Size
  have : c.val ≤ 127 := by rw [UInt32.le_iff_toNat_le]; show c.toNat ≤ 127; omega
  simp [this]

theorem utf8Size_identStart {c : Char} (h : IdentStart c) : c.utf8Size = 1 := by
  rw [← isIdentStart_iff] at h
  unfold isIdentStart at h
  simp only [Bool.or_eq_true, Bool.and_eq_true, decide_eq_true_eq, beq_iff_eq] at h
  rcases h with (h | h) | h
  · subst h; decide
  · exact utf8Size_of_lt (by omega)
  · exact utf8Size_of_lt (by omega)

theorem utf8Len_eq_zero {s : Str} : utf8Len s = 0 ↔ s = [] := by
  cases s with
  | nil => simp
  | cons c s => have := Char.utf8Size_pos c; simp; omega

theorem Token.len_eq (t : Token) : t.len = utf8Len t.text := by
  cases t with
  | key s => rfl
  | value s =>
    simp only [Token.len, Token.text, utf8Len_cons, utf8Len_append, utf8Len_nil]
    have : '"'.utf8Size = 1 := by decide
    omega
  | _ => decide

theorem Token.text_ne_nil {t : Token} (h : t.WF) : t.text ≠ [] := by
  cases t with
  | key s => obtain ⟨⟨c, r, rfl, -⟩, -⟩ := h; simp [Token.text]
  | _ => simp [Token.text]

/-- Skipping white space. -/
theorem skipWs_append {l : Lexer} {w r : Str} (h : l.inner = w ++ r) (hw : ∀ c ∈ w, isWhitespace c = true)
    (hr : ∀ c, r.head? = some c → isWhitespace c = false) :
    l.skipWs = some { l with inner := r, offset := l.offset + utf8Len w } := by
  unfold Lexer.skipWs
  have hf : (strFind (fun c => !isWhitespace c) l.inner).getD (utf8Len l.inner) = utf8Len w := by
    rw [h]
    cases r with
    | nil =>
      rw [List.append_nil, strFind_none]
      · rfl
      · intro x hx; simp [hw x hx]
    | cons c r =>
      rw [strFind_append w c r]
      · rfl
      · intro x hx; simp [hw x hx]
      · simp [hr c rfl]
  dsimp only
  rw [hf, h, sliceFrom_append_self]
  rfl

theorem identRest_not_ws {c : Char} (h : IdentStart c) : isWhitespace c = false := by
  rw [← isIdentStart_iff] at h
  unfold isIdentStart at h
  simp only [Bool.or_eq_true, Bool.and_eq_true, decide_eq_true_eq, beq_iff_eq] at h
  rcases h with (h | h) | h
  · subst h; decide
  · unfold isWhitespace; simp; omega
  · unfold isWhitespace; simp; omega

theorem identStart_ne {c : Char} (h : IdentStart c) : c ≠ '=' ∧ c ≠ '(' ∧ c ≠ ')' ∧ c ≠ ',' ∧ c ≠ '"' := by
  rw [← isIdentStart_iff] at h
  refine ⟨?_, ?_, ?_, ?_, ?_⟩ <;> rintro rfl <;> revert h <;> decide

/-- Recognising a word. -/
theorem recognise_word {l : Lexer} {c : Char} {r rest : Str} (h : l.inner = c :: (r ++ rest)) (hc : IdentStart c)
    (hr : ∀ d ∈ r, IdentRest d) (hb : ∀ d, rest.head? = some d → ¬ IdentRest d) :
    l.recognise = (if c :: r = "all".toList then some (.ok .all)
          else if c :: r = "any".toList then some (.ok .any)
          else if c :: r = "not".toList then some (.ok .not)
          else some (.ok (.key (c :: r)))) := by
  obtain ⟨n1, n2, n3, n4, n5⟩ := identStart_ne hc
  have hs : c.utf8Size = 1 := utf8Size_identStart hc
  have h1 : sliceFrom l.inner 1 = some (r ++ rest) := by
    rw [h, sliceFrom_cons _ _ _ (by omega), hs]; simp [sliceFrom_zero]
  have h2 : subStr l.inner (r ++ rest) = some (c :: r) := by
    unfold subStr
    cases rest with
    | nil =>
      rw [List.append_nil, strFind_none]
      · rw [h, List.append_nil]
      · intro x hx; simp [(isIdentRest_iff x).2 (hr x hx)]
    | cons d rest =>
      rw [strFind_append r d rest]
      · have := sliceTo_append_self (c :: r) (d :: rest)
        rw [utf8Len_cons, hs, Nat.add_comm] at this
        rw [h]; exact this
      · intro x hx; simp [(isIdentRest_iff x).2 (hr x hx)]
      · have := hb d rfl
        rw [← isIdentRest_iff] at this
        simpa using this
  unfold Lexer.recognise
  rw [h]
  simp only [n1, n2, n3, n4, n5, if_false, (isIdentStart_iff c).2 hc, if_true]
  rw [← h, h1]
  simp only [h2]

theorem recognise_token {l : Lexer} {t : Token} {rest : Str} (h : l.inner = t.text ++ rest) (ht : t.WF)
    (hb : t.IsWord → ∀ c, rest.head? = some c → ¬ IdentRest c) : l.recognise = some (.ok t) := by
  cases t with
  | key s =>
    obtain ⟨⟨c, r, rfl, hc, hr⟩, m1, m2, m3⟩ := ht
    rw [recognise_word (by rw [h]; rfl) hc hr (hb trivial)]
    rw [if_neg (show ¬ c :: r = "all".toList from m1), if_neg (show ¬ c :: r = "any".toList from m2),
      if_neg (show ¬ c :: r = "not".toList from m3)]
  | value v =>
    have hv : '"' ∉ v := ht
    have hi : l.inner = '"' :: (v ++ '"' :: rest) := by rw [h]; simp [Token.text]
    have h1 : sliceFrom l.inner 1 = some (v ++ '"' :: rest) := by
      rw [hi, sliceFrom_cons _ _ _ (by omega), show '"'.utf8Size = 1 by decide]; simp [sliceFrom_zero]
    have h2 : strFind (· == '"') (v ++ '"' :: rest) = some (utf8Len v) := by
      refine strFind_append v '"' rest (fun x hx => ?_) (by simp)
      simp; rintro rfl; exact hv hx
    have h3 : slice l.inner 1 (utf8Len v + 1) = some v := by
      have := slice_append ['"'] v ('"' :: rest)
      rw [show utf8Len ['"'] = 1 by decide, Nat.add_comm 1] at this
      rw [hi]; simpa using this
    unfold Lexer.recognise
    rw [hi]
    simp only [show ('"' = '=') = False by simp, show ('"' = '(') = False by simp, show ('"' = ')') = False by simp,
      show ('"' = ',') = False by simp, if_false, if_true]
    rw [← hi, h1]
    simp only [h2, h3]
  | equals => unfold Lexer.recognise; rw [h]; rfl
  | openParen => unfold Lexer.recognise; rw [h]; rfl
  | closeParen => unfold Lexer.recognise; rw [h]; rfl
  | comma => unfold Lexer.recognise; rw [h]; rfl
  | all =>
    have := recognise_word (l := l) (c := 'a') (r := ['l', 'l']) (rest := rest) (by rw [h]; rfl)
      (by rw [← isIdentStart_iff]; decide) (by intro d hd; rw [← isIdentRest_iff]; revert d; decide) (hb trivial)
    rw [this]; rfl
  | any =>
    have := recognise_word (l := l) (c := 'a') (r := ['n', 'y']) (rest := rest) (by rw [h]; rfl)
      (by rw [← isIdentStart_iff]; decide) (by intro d hd; rw [← isIdentRest_iff]; revert d; decide) (hb trivial)
    rw [this]; rfl
  | not =>
    have := recognise_word (l := l) (c := 'n') (r := ['o', 't']) (rest := rest) (by rw [h]; rfl)
      (by rw [← isIdentStart_iff]; decide) (by intro d hd; rw [← isIdentRest_iff]; revert d; decide) (hb trivial)
    rw [this]; rfl

theorem Token.head_not_ws {t : Token} (h : t.WF) (rest : Str) (c : Char) (hc : (t.text ++ rest).head? = some c) :
    isWhitespace c = false := by
  cases t with
  | key s =>
    obtain ⟨⟨d, r, rfl, hd, -⟩, -⟩ := h
    simp [Token.text] at hc
    subst hc
    exact identRest_not_ws hd
  | _ => simp [Token.text] at hc; subst hc; decide

/-- The lexer yields a token that is there. -/
theorem next_token {l : Lexer} {w rest : Str} {t : Token} (h : l.inner = w ++ t.text ++ rest)
    (hw : ∀ c ∈ w, isWhitespace c = true) (ht : t.WF) (hb : t.IsWord → ∀ c, rest.head? = some c → ¬ IdentRest c) :
    l.next = some (.ok (⟨t, ⟨l.offset + utf8Len w, l.offset + utf8Len w + t.len⟩⟩,
      ⟨rest, l.original, l.offset + utf8Len w + t.len⟩)) := by
  have h' : l.inner = w ++ (t.text ++ rest) := by rw [h, List.append_assoc]
  unfold Lexer.next
  rw [skipWs_append h' hw (Token.head_not_ws ht rest)]
  simp only
  rw [recognise_token (t := t) (rest := rest) rfl ht hb]
  simp only
  rw [Token.len_eq, sliceFrom_append_self]

theorem next_end {l : Lexer} (h : ∀ c ∈ l.inner, isWhitespace c = true) : l.next = none := by
  unfold Lexer.next
  rw [skipWs_append (w := l.inner) (r := []) (by simp) h (by simp)]
  rfl

/-- A text starts with white space and a token, or is white space, or the lexer reports an error. -/
theorem next_cases (l : Lexer) (hoff : l.offset + utf8Len l.inner = utf8Len l.original) :
    (∀ c ∈ l.inner, isWhitespace c = true) ∨
    (∃ (w : Str) (t : Token) (rest : Str), l.inner = w ++ t.text ++ rest ∧ (∀ c ∈ w, isWhitespace c = true) ∧ t.WF ∧
      (t.IsWord → ∀ c, rest.head? = some c → ¬ IdentRest c)) ∨
    (∃ a b r, l.next = some (cfgErr l.original a b r) ∧ a ≤ b ∧ b ≤ utf8Len l.original) := by
  rcases split_first (fun c => !isWhitespace c) l.inner with hw | ⟨w, c, r, hi, hw, hc⟩
  · left; intro c hc; simpa using hw c hc
  right
  have hw : ∀ c ∈ w, isWhitespace c = true := fun c hc => by simpa using hw c hc
  have hc : isWhitespace c = false := by simpa using hc
  have hsk := skipWs_append hi hw (by intro x hx; simp at hx; subst hx; exact hc)
  have hlen : l.offset + utf8Len w + c.utf8Size + utf8Len r = utf8Len l.original := by
    rw [← hoff, hi, utf8Len_append, utf8Len_cons]; omega
  have simpleTok : ∀ (t : Token), t.text = [c] → t.WF → ¬ t.IsWord →
      ∃ (w : Str) (t : Token) (rest : Str), l.inner = w ++ t.text ++ rest ∧ (∀ c ∈ w, isWhitespace c = true) ∧ t.WF ∧
      (t.IsWord → ∀ c, rest.head? = some c → ¬ IdentRest c) := by
    intro t h1 h2 h3
    exact ⟨w, t, r, by rw [hi, h1]; simp, hw, h2, fun h => absurd h h3⟩
  by_cases e1 : c = '='
  · subst e1; exact Or.inl (simpleTok .equals rfl trivial id)
  by_cases e2 : c = '('
  · subst e2; exact Or.inl (simpleTok .openParen rfl trivial id)
  by_cases e3 : c = ')'
  · subst e3; exact Or.inl (simpleTok .closeParen rfl trivial id)
  by_cases e4 : c = ','
  · subst e4; exact Or.inl (simpleTok .comma rfl trivial id)
  by_cases e5 : c = '"'
  · subst e5
    rcases split_first (· == '"') r with hq | ⟨v, d, r', hr, hv, hd⟩
    · right
      refine ⟨l.offset + utf8Len w, utf8Len l.original, .unclosedQuotes, ?_, by omega, Nat.le_refl _⟩
      unfold Lexer.next
      rw [hsk]
      have h1 : sliceFrom ('"' :: r) 1 = some r := by
        rw [sliceFrom_cons _ _ _ (by omega), show '"'.utf8Size = 1 by decide]; simp [sliceFrom_zero]
      simp only [Lexer.recognise, if_true, show ('"' = '=') = False by simp, show ('"' = '(') = False by simp,
        show ('"' = ')') = False by simp, show ('"' = ',') = False by simp, if_false, h1, strFind_none r hq, cfgErr]
    · left
      have hd : d = '"' := by simpa using hd
      subst hd
      refine ⟨w, .value v, r', by rw [hi, hr]; simp [Token.text], hw, ?_, fun h => h.elim⟩
      intro hm; simpa using hv _ hm
  by_cases e6 : IdentStart c
  · left
    rcases split_first (fun c => !isIdentRest c) r with hq | ⟨v, d, r', hr, hv, hd⟩
    · have hq' : ∀ x ∈ r, IdentRest x := fun x hx => (isIdentRest_iff x).1 (by simpa using hq x hx)
      have : ∃ t : Token, t.text = c :: r ∧ t.WF := by
        by_cases m1 : c :: r = Token.all.text
        · exact ⟨.all, m1.symm, trivial⟩
        by_cases m2 : c :: r = Token.any.text
        · exact ⟨.any, m2.symm, trivial⟩
        by_cases m3 : c :: r = Token.not.text
        · exact ⟨.not, m3.symm, trivial⟩
        exact ⟨.key (c :: r), rfl, ⟨c, r, rfl, e6, hq'⟩, m1, m2, m3⟩
      obtain ⟨t, h1, h2⟩ := this
      exact ⟨w, t, [], by rw [hi, h1]; simp, hw, h2, by simp⟩
    · have hq' : ∀ x ∈ v, IdentRest x := fun x hx => (isIdentRest_iff x).1 (by simpa using hv x hx)
      have : ∃ t : Token, t.text = c :: v ∧ t.WF := by
        by_cases m1 : c :: v = Token.all.text
        · exact ⟨.all, m1.symm, trivial⟩
        by_cases m2 : c :: v = Token.any.text
        · exact ⟨.any, m2.symm, trivial⟩
        by_cases m3 : c :: v = Token.not.text
        · exact ⟨.not, m3.symm, trivial⟩
        exact ⟨.key (c :: v), rfl, ⟨c, v, rfl, e6, hq'⟩, m1, m2, m3⟩
      obtain ⟨t, h1, h2⟩ := this
      refine ⟨w, t, d :: r', by rw [hi, h1, hr]; simp, hw, h2, fun _ x hx => ?_⟩
      simp at hx
      subst hx
      rw [← isIdentRest_iff]; simpa using hd
  · right
    have hcs := Char.utf8Size_pos c
    refine ⟨l.offset + utf8Len w, l.offset + utf8Len w + 1,
      .unexpected ["<key>".toList, "all".toList, "any".toList, "not".toList], ?_, by omega, by omega⟩
    unfold Lexer.next
    rw [hsk]
    have e6' : isIdentStart c = false := by
      rw [← Bool.not_eq_true, isIdentStart_iff]; exact e6
    simp only [Lexer.recognise, e1, e2, e3, e4, e5, e6', if_false, cfgErr, Bool.false_eq_true]

/-- The tokens of the rest of a text, with their positions; `off` is the position of the rest. -/
inductive Lexes : Nat → Str → List LexerToken → Prop where
  | nil (off : Nat) (w : Str) : (∀ c ∈ w, isWhitespace c = true) → Lexes off w []
  | cons (off : Nat) (w : Str) (t : Token) (rest : Str) (lts : List LexerToken) : (∀ c ∈ w, isWhitespace c = true) → t.WF →
      (t.IsWord → ∀ c, rest.head? = some c → ¬ IdentRest c) → Lexes (off + utf8Len w + t.len) rest lts →
      Lexes off (w ++ t.text ++ rest) (⟨t, ⟨off + utf8Len w, off + utf8Len w + t.len⟩⟩ :: lts)

theorem Lexes.reads {off : Nat} {s : Str} {lts : List LexerToken} (h : Lexes off s lts) : ReadsAs s (lts.map (·.token)) := by
  induction h with
  | nil off w h => exact .nil w h
  | cons off w t rest lts h1 h2 h3 _ ih => exact .cons w t rest _ h1 h2 h3 ih

theorem ReadsAs.lexes {s : Str} {ts : List Token} (h : ReadsAs s ts) (off : Nat) :
    ∃ lts, Lexes off s lts ∧ lts.map (·.token) = ts := by
  induction h generalizing off with
  | nil w h => exact ⟨[], .nil _ w h, rfl⟩
  | cons w t rest ts h1 h2 h3 _ ih =>
    obtain ⟨lts, h4, h5⟩ := ih (off + utf8Len w + t.len)
    exact ⟨_, .cons off w t rest lts h1 h2 h3 h4, by simp [h5]⟩

/-- The text determines the tokens. -/
theorem Lexes.unique {off : Nat} {s : Str} {l m : List LexerToken} (h : Lexes off s l) (h' : Lexes off s m) : l = m := by
  induction h generalizing m with
  | nil off w hw =>
    cases h' with
    | nil => rfl
    | cons _ w' t rest lts a b c d =>
      have e1 := next_end (l := ⟨w' ++ t.text ++ rest, [], off⟩) hw
      have e2 := next_token (l := ⟨w' ++ t.text ++ rest, [], off⟩) rfl a b c
      rw [e1] at e2; cases e2
  | cons off w t rest lts h1 h2 h3 h4 ih =>
    have e1 := next_token (l := ⟨w ++ t.text ++ rest, [], off⟩) rfl h1 h2 h3
    generalize hs : w ++ t.text ++ rest = s at h' e1
    cases h' with
    | nil _ _ hw => rw [next_end hw] at e1; cases e1
    | cons _ w' t' rest' lts' a b c d =>
      have e2 := next_token (l := ⟨w' ++ t'.text ++ rest', [], off⟩) rfl a b c
      rw [e1] at e2
      simp only [Option.some.injEq, Res.ok.injEq, Prod.mk.injEq, LexerToken.mk.injEq, Span.mk.injEq, Lexer.mk.injEq] at e2
      obtain ⟨⟨rfl, e3, e4⟩, rfl, -, e5⟩ := e2
      rw [← e5] at d
      rw [ih d, e4, e3]

theorem ReadsAs.unique {s : Str} {ts us : List Token} (h : ReadsAs s ts) (h' : ReadsAs s us) : ts = us := by
  obtain ⟨l, hl, rfl⟩ := h.lexes 0
  obtain ⟨m, hm, rfl⟩ := h'.lexes 0
  rw [hl.unique hm]

/-- Every token lies in the text and is spelled there. -/
theorem Lexes.spelled {off : Nat} {s : Str} {lts : List LexerToken} (h : Lexes off s lts) {pre : Str} (hp : utf8Len pre = off) :
    ∀ lt ∈ lts, slice (pre ++ s) lt.span.start lt.span.stop = some lt.token.text ∧ off ≤ lt.span.start ∧
      lt.span.stop = lt.span.start + lt.token.len ∧ lt.span.stop ≤ off + utf8Len s ∧
      (∀ v, lt.token = .value v → slice (pre ++ s) (lt.span.start + 1) (lt.span.stop - 1) = some v) := by
  induction h generalizing pre with
  | nil => simp
  | cons off w t rest lts h1 h2 h3 h4 ih =>
    intro lt hlt
    have hoff : off + utf8Len (w ++ t.text ++ rest) = off + utf8Len w + t.len + utf8Len rest := by
      rw [utf8Len_append, utf8Len_append, Token.len_eq]; omega
    rcases List.mem_cons.1 hlt with rfl | hlt
    · refine ⟨?_, by simp, rfl, by simp only; omega, ?_⟩
      · have := slice_append (pre ++ w) t.text rest
        simp only [utf8Len_append, hp, ← Token.len_eq] at this
        simpa only [List.append_assoc] using this
      · rintro v rfl
        have := slice_append (pre ++ w ++ ['"']) v ('"' :: rest)
        have hq : utf8Len ['"'] = 1 := by decide
        simp only [utf8Len_append, hp, hq] at this
        simp only [Token.len, Token.text]
        have e : off + utf8Len w + (utf8Len v + 2) - 1 = off + utf8Len w + 1 + utf8Len v := by omega
        rw [e, ← this]
        congr 1
        simp
    · have := ih (pre := pre ++ w ++ t.text) (by rw [utf8Len_append, utf8Len_append, hp, Token.len_eq]) lt hlt
      rw [hoff]
      obtain ⟨a, b, c, d, e⟩ := this
      refine ⟨by simpa using a, by omega, c, d, fun v hv => by simpa using e v hv⟩

theorem Lexes.sorted {off : Nat} {s : Str} {lt : LexerToken} {lts : List LexerToken} (h : Lexes off s (lt :: lts)) :
    ∃ rest, Lexes lt.span.stop rest lts ∧ utf8Len rest + lt.span.stop = off + utf8Len s ∧ off ≤ lt.span.start ∧
      lt.span.start ≤ lt.span.stop ∧ rest.length < s.length := by
  cases h with
  | cons _ w t rest _ h1 h2 h3 h4 =>
    refine ⟨rest, h4, ?_, by simp, by simp, ?_⟩
    · rw [utf8Len_append, utf8Len_append, Token.len_eq]; simp only; omega
    · have := List.length_pos_iff.2 (Token.text_ne_nil h2)
      simp; omega

theorem cfgText_inner {s t : Str} : cfgText s = some t ↔ CfgInner s t := by
  unfold cfgText CfgInner
  have hlen : utf8Len "cfg(".toList = 4 ∧ utf8Len ")".toList = 1 := by decide
  by_cases h : startsWith "cfg(".toList s && endsWith ")".toList s
  · rw [if_pos h]
    rw [Bool.and_eq_true] at h
    obtain ⟨h1, h2⟩ := h
    obtain ⟨r, h1⟩ := Option.isSome_iff_exists.1 h1
    obtain ⟨q, h2⟩ := Option.isSome_iff_exists.1 h2
    rw [stripPrefix_eq_some] at h1
    rw [stripSuffix_eq_some] at h2
    have hr : ∃ m, r = m ++ ")".toList := by
      rcases List.eq_nil_or_concat r with rfl | ⟨m, x, rfl⟩
      · have : (q ++ ")".toList).getLast? = some ')' := by simp
        rw [← h2, h1] at this
        simp at this
      · have e : (s).getLast? = some ')' := by rw [h2]; simp
        rw [h1, List.concat_eq_append, ← List.append_assoc, List.getLast?_append] at e
        simp at e
        exact ⟨m, by rw [e]; simp⟩
    obtain ⟨m, rfl⟩ := hr
    have hs : s = "cfg(".toList ++ m ++ ")".toList := by rw [h1, List.append_assoc]
    have hsl : slice s 4 (utf8Len s - 1) = some m := by
      have := slice_append "cfg(".toList m ")".toList
      rw [← hs, hlen.1] at this
      rw [show utf8Len s - 1 = 4 + utf8Len m by rw [hs, utf8Len_append, utf8Len_append, hlen.1, hlen.2]; omega]
      exact this
    rw [hsl]
    constructor
    · rintro h; cases h; exact Or.inl hs
    · rintro (h | ⟨rfl, h⟩)
      · rw [hs] at h
        have := List.append_cancel_right h
        rw [List.append_cancel_left this]
      · exact absurd ⟨m, hs⟩ h
  · rw [if_neg h]
    have hno : ¬ ∃ r, s = "cfg(".toList ++ r ++ ")".toList := by
      rintro ⟨r, e⟩
      refine h ?_
      rw [Bool.and_eq_true]
      refine ⟨Option.isSome_iff_exists.2 ⟨r ++ ")".toList, stripPrefix_eq_some.2 (by rw [e, List.append_assoc])⟩,
        Option.isSome_iff_exists.2 ⟨"cfg(".toList ++ r, stripSuffix_eq_some.2 e⟩⟩
    constructor
    · intro h; cases h; exact Or.inr ⟨rfl, hno⟩
    · rintro (h | ⟨rfl, -⟩)
      · exact absurd ⟨t, h⟩ hno
      · rfl

theorem cfgText_total (s : Str) : ∃ t, cfgText s = some t := by
  by_cases h : ∃ r, s = "cfg(".toList ++ r ++ ")".toList
  · obtain ⟨r, h⟩ := h
    exact ⟨r, cfgText_inner.2 (Or.inl h)⟩
  · exact ⟨s, cfgText_inner.2 (Or.inr ⟨rfl, h⟩)⟩

/-! ### The loop of the parser, with the tokens made explicit -/

/-- Rounds of the loop for given tokens. -/
def runTokens (checks : Bool) (original : Str) : PState → List LexerToken → Res PState
  | s, [] => .ok s
  | s, lt :: lts => s.step checks original lt >>= fun s => runTokens checks original s lts

theorem parseLoop_lexes {checks : Bool} {original : Str} {fuel : Nat} {l : Lexer} {s : PState} {lts : List LexerToken}
    (h : Lexes l.offset l.inner lts) (hf : l.inner.length < fuel) :
    parseLoop checks original fuel l s = runTokens checks original s lts >>= fun s => s.finish original := by
  induction fuel generalizing l s lts with
  | zero => omega
  | succ fuel ih =>
    obtain ⟨inner, orig, off⟩ := l
    cases h with
    | nil _ _ hw =>
      simp only [parseLoop]
      rw [next_end hw]
      rfl
    | cons _ w t rest lts h1 h2 h3 h4 =>
      simp only [parseLoop, runTokens]
      rw [next_token rfl h1 h2 h3]
      simp only
      cases hst : s.step checks original ⟨t, ⟨off + utf8Len w, off + utf8Len w + t.len⟩⟩ with
      | ok s' =>
        simp only [Res.ok_bind]
        refine ih (l := ⟨rest, orig, off + utf8Len w + t.len⟩) h4 ?_
        have := List.length_pos_iff.2 (Token.text_ne_nil h2)
        have e : (w ++ t.text ++ rest).length = w.length + t.text.length + rest.length := by simp; omega
        have hf' : (w ++ t.text ++ rest).length < fuel + 1 := hf
        simp only; omega
      | err e => rfl
      | panic => rfl

/-- The text starts with tokens that are followed by a lexical error. -/
inductive LexErr : Lexer → List LexerToken → Nat → Nat → Reason → Prop where
  | here (l : Lexer) (a b : Nat) (r : Reason) : l.next = some (cfgErr l.original a b r) → a ≤ b → b ≤ utf8Len l.original →
      LexErr l [] a b r
  | cons (off : Nat) (orig w : Str) (t : Token) (rest : Str) (lts : List LexerToken) (a b : Nat) (r : Reason) :
      (∀ c ∈ w, isWhitespace c = true) → t.WF →
      (t.IsWord → ∀ c, rest.head? = some c → ¬ IdentRest c) → LexErr ⟨rest, orig, off + utf8Len w + t.len⟩ lts a b r →
      LexErr ⟨w ++ t.text ++ rest, orig, off⟩ (⟨t, ⟨off + utf8Len w, off + utf8Len w + t.len⟩⟩ :: lts) a b r

theorem lex_cases (n : Nat) (l : Lexer) (hn : l.inner.length < n) (hoff : l.offset + utf8Len l.inner = utf8Len l.original) :
    (∃ lts, Lexes l.offset l.inner lts) ∨ (∃ lts a b r, LexErr l lts a b r) := by
  induction n generalizing l with
  | zero => omega
  | succ n ih =>
    rcases next_cases l hoff with hw | ⟨w, t, rest, hi, hw, ht, hb⟩ | ⟨a, b, r, hn, hab, hbl⟩
    · exact Or.inl ⟨[], .nil _ _ hw⟩
    · obtain ⟨inner, orig, off⟩ := l
      simp only at hi hn hoff
      subst hi
      have hpos := List.length_pos_iff.2 (Token.text_ne_nil ht)
      simp only [List.length_append] at hn
      have hoff' : off + utf8Len w + t.len + utf8Len rest = utf8Len orig := by
        rw [← hoff, utf8Len_append, utf8Len_append, Token.len_eq]; omega
      rcases ih ⟨rest, orig, off + utf8Len w + t.len⟩ (by simp only; omega) hoff' with ⟨lts, h⟩ | ⟨lts, a, b, r, h⟩
      · exact Or.inl ⟨_, .cons off w t rest lts hw ht hb h⟩
      · exact Or.inr ⟨_, a, b, r, .cons off orig w t rest lts a b r hw ht hb h⟩
    · exact Or.inr ⟨[], a, b, r, .here l a b r hn hab hbl⟩

theorem LexErr.span {l : Lexer} {lts : List LexerToken} {a b : Nat} {r : Reason} (h : LexErr l lts a b r) :
    a ≤ b ∧ b ≤ utf8Len l.original := by
  induction h with
  | here l a b r _ h1 h2 => exact ⟨h1, h2⟩
  | cons off orig w t rest lts a b r _ _ _ _ ih => exact ih

theorem LexErr.not_lexes {l : Lexer} {lts : List LexerToken} {a b : Nat} {r : Reason} (h : LexErr l lts a b r)
    (lts' : List LexerToken) : ¬ Lexes l.offset l.inner lts' := by
  induction h generalizing lts' with
  | here l a b r hn _ _ =>
    intro h
    obtain ⟨inner, orig, off⟩ := l
    cases h with
    | nil _ _ hw => rw [next_end hw] at hn; cases hn
    | cons _ w t rest lts h1 h2 h3 h4 => rw [next_token rfl h1 h2 h3] at hn; cases hn
  | cons off orig w t rest lts a b r h1 h2 h3 h4 ih =>
    intro h
    have e1 := next_token (l := ⟨w ++ t.text ++ rest, orig, off⟩) rfl h1 h2 h3
    simp only at h
    generalize w ++ t.text ++ rest = s at h e1
    cases h with
    | nil _ _ hw => rw [next_end hw] at e1; cases e1
    | cons _ w' t' rest' lts' a b c d =>
      have e2 := next_token (l := ⟨w' ++ t'.text ++ rest', orig, off⟩) rfl a b c
      rw [e1] at e2
      simp only [Option.some.injEq, Res.ok.injEq, Prod.mk.injEq, LexerToken.mk.injEq, Span.mk.injEq, Lexer.mk.injEq] at e2
      obtain ⟨⟨rfl, e3, e4⟩, rfl, -, e5⟩ := e2
      rw [← e5] at d
      exact ih _ d

/-- The tokens before the error are tokens of a part of the text. -/
theorem LexErr.prefix {l : Lexer} {lts : List LexerToken} {a b : Nat} {r : Reason} (h : LexErr l lts a b r) :
    ∃ pre post, l.inner = pre ++ post ∧ Lexes l.offset pre lts := by
  induction h with
  | here l a b r hn _ _ => exact ⟨[], l.inner, rfl, .nil _ _ (by simp)⟩
  | cons off orig w t rest lts a b r h1 h2 h3 h4 ih =>
    obtain ⟨pre, post, h5, h6⟩ := ih
    simp only at h5 h6
    subst h5
    refine ⟨w ++ t.text ++ pre, post, by simp, .cons off w t pre lts h1 h2 (fun hw c hc => h3 hw c ?_) h6⟩
    cases pre with
    | nil => cases hc
    | cons x pre => exact hc

theorem parseLoop_lexErr {checks : Bool} {l : Lexer} {lts : List LexerToken} {a b : Nat} {r : Reason}
    (h : LexErr l lts a b r) {fuel : Nat} (hf : l.inner.length < fuel) (s : PState) :
    parseLoop checks l.original fuel l s = runTokens checks l.original s lts >>= fun _ => cfgErr l.original a b r := by
  induction h generalizing fuel s with
  | here l a b r hn _ _ =>
    obtain ⟨fuel, rfl⟩ : ∃ m, fuel = m + 1 := ⟨fuel - 1, by omega⟩
    simp only [parseLoop]
    rw [hn]
    rfl
  | cons off orig w t rest lts a b r h1 h2 h3 h4 ih =>
    obtain ⟨fuel, rfl⟩ : ∃ m, fuel = m + 1 := ⟨fuel - 1, by omega⟩
    simp only [parseLoop, runTokens]
    rw [next_token rfl h1 h2 h3]
    simp only
    cases s.step checks orig ⟨t, ⟨off + utf8Len w, off + utf8Len w + t.len⟩⟩ with
    | ok s' =>
      simp only [Res.ok_bind]
      refine ih ?_ s'
      have := List.length_pos_iff.2 (Token.text_ne_nil h2)
      simp only [List.length_append] at hf
      simp only; omega
    | err e => rfl
    | panic => rfl

/-- `Expression::parse` on any text. -/
theorem parse_cases (checks : Bool) (text : Str) : ∃ t, CfgInner text t ∧
    ((∃ lts, Lexes 0 t lts ∧ Expression.parse checks text = runTokens checks t {} lts >>= fun s => s.finish t) ∨
     (∃ lts a b r, LexErr ⟨t, t, 0⟩ lts a b r ∧
       Expression.parse checks text = runTokens checks t {} lts >>= fun _ => cfgErr t a b r)) := by
  obtain ⟨t, ht⟩ := cfgText_total text
  refine ⟨t, cfgText_inner.1 ht, ?_⟩
  unfold Expression.parse
  rw [ht]
  simp only
  rcases lex_cases (t.length + 1) ⟨t, t, 0⟩ (by simp) (by simp) with ⟨lts, h⟩ | ⟨lts, a, b, r, h⟩
  · exact Or.inl ⟨lts, h, parseLoop_lexes h (by simp)⟩
  · exact Or.inr ⟨lts, a, b, r, h, parseLoop_lexErr h (by simp) {}⟩

theorem CfgInner.unique {s t u : Str} (h : CfgInner s t) (h' : CfgInner s u) : t = u := by
  rw [← cfgText_inner] at h h'
  rw [h] at h'
  exact Option.some.inj h'

theorem parse_lexes {checks : Bool} {text t : Str} (hi : CfgInner text t) {lts : List LexerToken} (h : Lexes 0 t lts) :
    Expression.parse checks text = runTokens checks t {} lts >>= fun s => s.finish t := by
  unfold Expression.parse
  rw [cfgText_inner.2 hi]
  exact parseLoop_lexes (l := ⟨t, t, 0⟩) h (by simp)

end CC
