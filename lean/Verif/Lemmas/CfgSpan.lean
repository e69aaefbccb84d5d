import Verif.Lemmas.CfgEval
/-
Helper lemmas: panics and error positions of the parser of cfg expressions, and the cfg set printed by rustc.
-/
namespace CC

/-! ### Panics -/

theorem astep_panic {checks : Bool} {a : AState} {t : Token} (h : a.step checks t = .panic) :
    checks = true ∧ startsItem a.last = true ∧ ∃ g ch rest, a.frames = (g, ch) :: rest ∧ fnCount ch % 256 = 255 := by
  have hopen : ∀ f (k : AState → Res AState), (∀ b, k b ≠ .panic) → (a.openFn checks f >>= k) = .panic →
      checks = true ∧ startsItem a.last = true ∧ ∃ g ch rest, a.frames = (g, ch) :: rest ∧ fnCount ch % 256 = 255 := by
    intro f k hk h
    unfold AState.openFn at h
    split at h
    next hs =>
      split at h
      next => exact (hk _ h).elim
      next g ch rest hf =>
        split at h
        next hc => exact ⟨hc.2, hs, g, ch, rest, hf, hc.1⟩
        next => exact (hk _ h).elim
    next => simp [aErr, cfgErr] at h
  unfold AState.step at h
  cases t with
  | key k => simp only at h; split at h <;> simp [aErr, cfgErr] at h
  | value k => simp only at h; split at h <;> simp [aErr, cfgErr] at h
  | equals => simp only at h; split at h <;> simp [aErr, cfgErr] at h
  | openParen => simp only at h; split at h <;> simp [aErr, cfgErr] at h
  | all => exact hopen _ _ (by simp) h
  | any => exact hopen _ _ (by simp) h
  | not => exact hopen _ _ (by simp) h
  | closeParen =>
    simp only [AState.close] at h
    split at h
    · simp [aErr, cfgErr] at h
    · split at h
      · simp [aErr, cfgErr] at h
      · split at h <;> simp [aErr, cfgErr] at h
  | comma =>
    simp only [AState.comma] at h
    split at h
    · simp [aErr, cfgErr] at h
    · split at h <;> simp at h

mutual
theorem Item.opens : ∀ {t : CfgTree} {ts : List Token}, Item true t ts → t.isFn = true → 1 ≤ ts.count .openParen
  | _, _, .flag k, h => by cases h
  | _, _, .keyValue k v, h => by cases h
  | _, _, .fn f args e body _, _ => by
    rw [List.count_cons, List.count_cons]; simp; omega
theorem Body.opens : ∀ {args : List CfgTree} {e : BodyEnd} {ts : List Token}, Body true args e ts →
    fnCount args ≤ ts.count .openParen
  | _, _, _, .start => by simp [fnCount]
  | _, _, _, .item args e p t q h1 h2 h3 => by
    have h0 := Body.opens h1
    rw [fnCount_append, List.count_append]
    cases ht : t.isFn
    · simp only [fnCount, List.countP_cons, ht, List.countP_nil] at h0 ⊢; simp; omega
    · have := Item.opens h3 ht
      simp only [fnCount, List.countP_cons, ht, List.countP_nil] at h0 ⊢; simp; omega
  | _, _, _, .comma args e p h1 h2 => by
    have := Body.opens h1
    rw [List.count_append]; omega
end

theorem run_panic {checks : Bool} {a : AState} {ts us : List Token} (hi : AInv a ts) (h : a.run checks us = .panic) :
    checks = true ∧ 256 ≤ (ts ++ us).count .openParen := by
  induction us generalizing a ts with
  | nil => cases h
  | cons t us ih =>
    simp only [AState.run] at h
    cases hs : a.step checks t with
    | ok b =>
      rw [hs] at h
      have := ih (hi.step hs) h
      simpa using this
    | err e => rw [hs] at h; cases h
    | panic =>
      obtain ⟨h1, h2, g, ch, rest, hf, hc⟩ := astep_panic hs
      refine ⟨h1, ?_⟩
      obtain ⟨_, _, q, p, e, ho, hb, _, ht⟩ := hi.starts h2
      rw [hf] at ho hb
      obtain ⟨q', p', e', _, _, _, hq⟩ := ho
      have h3 := hb.opens
      simp only [topOf] at h3
      rw [ht, hq]
      simp only [List.count_append, List.count_cons, List.count_nil]
      simp
      omega

theorem ReadsAs.opens {s : Str} {ts : List Token} (h : ReadsAs s ts) : ts.count .openParen ≤ s.count '(' := by
  induction h with
  | nil => simp
  | cons w t rest ts h1 h2 h3 _ ih =>
    rw [List.count_cons, List.count_append, List.count_append]
    have : (if t == Token.openParen then 1 else 0) ≤ t.text.count '(' := by
      cases t <;> simp [Token.text]
    omega

theorem CfgInner.count_le {s t : Str} (h : CfgInner s t) (c : Char) : t.count c ≤ s.count c := by
  rcases h with h | ⟨h, _⟩
  · rw [h, List.count_append, List.count_append]; omega
  · rw [h]; exact Nat.le_refl _

theorem runTokens_panic {checks : Bool} {t s : Str} {lts : List LexerToken} (hl : ∀ lt ∈ lts, Spelled t lt)
    (hr : ReadsAs s (lts.map (·.token))) (h : runTokens checks t {} lts = .panic) : checks = true ∧ 256 ≤ s.count '(' := by
  have hsim := sim_run checks (Refines.init t) hl
  rw [h] at hsim
  cases ha : AState.run checks {} (lts.map (·.token)) with
  | ok a => rw [ha] at hsim; exact hsim.elim
  | err e => rw [ha] at hsim; exact hsim.elim
  | panic =>
    have := run_panic AInv.init ha
    have h2 := hr.opens
    simp only [List.nil_append] at this
    exact ⟨this.1, by omega⟩

theorem finish_ne_panic (t : Str) (s : PState) : s.finish t ≠ .panic := by
  unfold PState.finish cfgErr
  split
  · simp
  · split
    · split <;> simp
    · simp only
      split
      · simp
      · generalize s.rootCount + (if s.predKey.isSome then 1 else 0) = n
        split <;> simp

theorem sliceFrom_mono {a b r : Str} {n : Nat} (h : sliceFrom a n = some r) : sliceFrom (a ++ b) n = some (r ++ b) := by
  induction a generalizing n with
  | nil =>
    cases n with
    | zero => simp [sliceFrom] at h; subst h; exact sliceFrom_zero _
    | succ n => simp [sliceFrom] at h
  | cons c a ih =>
    cases n with
    | zero => simp [sliceFrom] at h; subst h; exact sliceFrom_zero _
    | succ n =>
      simp only [List.cons_append, sliceFrom] at h ⊢
      split at h
      next hc => rw [if_pos hc]; exact ih h
      next => cases h

theorem sliceTo_mono {a b r : Str} {n : Nat} (h : sliceTo a n = some r) : sliceTo (a ++ b) n = some r := by
  induction a generalizing n r with
  | nil =>
    cases n with
    | zero => simp [sliceTo] at h; subst h; exact sliceTo_zero _
    | succ n => simp [sliceTo] at h
  | cons c a ih =>
    cases n with
    | zero => simp [sliceTo] at h; subst h; exact sliceTo_zero _
    | succ n =>
      simp only [List.cons_append, sliceTo] at h ⊢
      split at h
      next hc =>
        rw [if_pos hc]
        cases hs : sliceTo a (n + 1 - c.utf8Size) with
        | none => rw [hs] at h; cases h
        | some x => rw [hs] at h; rw [ih hs]; exact h
      next => cases h

theorem slice_mono {a b r : Str} {m n : Nat} (h : slice a m n = some r) : slice (a ++ b) m n = some r := by
  unfold slice at h ⊢
  split at h
  next hc =>
    rw [if_pos hc]
    cases hs : sliceFrom a m with
    | none => rw [hs] at h; cases h
    | some x =>
      rw [hs] at h
      rw [sliceFrom_mono hs]
      exact sliceTo_mono h
  next => cases h

theorem LexErr.spelled {t : Str} {lts : List LexerToken} {a b : Nat} {r : Reason} (h : LexErr ⟨t, t, 0⟩ lts a b r) :
    ∀ lt ∈ lts, Spelled t lt := by
  obtain ⟨pre, post, h1, h2⟩ := h.prefix
  simp only at h1 h2
  intro lt hlt
  have := h2.all_spelled lt hlt
  rw [h1]
  exact ⟨slice_mono this.text, fun v hv => slice_mono (this.value v hv)⟩

theorem parse_panic {checks : Bool} {text : Str} (h : Expression.parse checks text = .panic) :
    checks = true ∧ 256 ≤ text.count '(' := by
  obtain ⟨t, hi, ⟨lts, hl, hp⟩ | ⟨lts, a, b, r, hl, hp⟩⟩ := parse_cases checks text
  · rw [hp] at h
    have hcount := hi.count_le '('
    cases hr : runTokens checks t {} lts with
    | ok s => rw [hr] at h; exact (finish_ne_panic _ _ h).elim
    | err e => rw [hr] at h; cases h
    | panic =>
      have := runTokens_panic hl.all_spelled hl.reads hr
      exact ⟨this.1, by omega⟩
  · rw [hp] at h
    have hcount := hi.count_le '('
    cases hr : runTokens checks t {} lts with
    | ok s => rw [hr] at h; cases h
    | err e => rw [hr] at h; cases h
    | panic =>
      obtain ⟨pre, post, h1, h2⟩ := hl.prefix
      simp only at h1 h2
      have hsp : ∀ lt ∈ lts, Spelled t lt := by
        intro lt hlt
        exact LexErr.spelled hl lt hlt
      have := runTokens_panic hsp h2.reads hr
      have h3 : pre.count '(' ≤ t.count '(' := by rw [h1, List.count_append]; omega
      exact ⟨this.1, by omega⟩

/-! ### Error positions -/

/-- An error of the parser about the text. -/
def GoodErr (original : Str) (e : Err) : Prop :=
  ∃ pe, e = .cfgParse pe ∧ pe.original = original ∧ pe.span.start ≤ pe.span.stop ∧ pe.span.stop ≤ utf8Len original

theorem GoodErr.mk {original : Str} {α : Type} {a b : Nat} {r : Reason} {e : Err} (h : (cfgErr original a b r : Res α) = .err e)
    (h1 : a ≤ b) (h2 : b ≤ utf8Len original) : GoodErr original e := by
  unfold cfgErr at h
  cases h
  exact ⟨_, rfl, rfl, h1, h2⟩

def SpanInv (off : Nat) (s : PState) : Prop :=
  ∀ fs ∈ s.stack, fs.span.start ≤ fs.span.stop ∧ fs.span.stop ≤ off ∧ fs.parensIndex ≤ off

theorem SpanInv.mono {off off' : Nat} {s : PState} (h : SpanInv off s) (hle : off ≤ off') : SpanInv off' s := by
  intro fs hfs
  have := h fs hfs
  exact ⟨this.1, by omega, by omega⟩

/-- The outcome of a round: the positions stay in range. -/
def SpanOut (original : Str) (off : Nat) (r : Res PState) : Prop :=
  (∀ s, r = .ok s → SpanInv off s) ∧ (∀ e, r = .err e → GoodErr original e)

theorem SpanOut.err {original : Str} {off a b : Nat} {r : Reason} (h1 : a ≤ b) (h2 : b ≤ utf8Len original) :
    SpanOut original off (cfgErr original a b r) :=
  ⟨(fun s h => by cases h), fun e h => GoodErr.mk h h1 h2⟩

theorem SpanOut.ok {original : Str} {off : Nat} {s : PState} (h : SpanInv off s) : SpanOut original off (.ok s) :=
  ⟨(fun s' h' => by cases h'; exact h), fun e h => by cases h⟩

theorem SpanOut.panic {original : Str} {off : Nat} : SpanOut original off .panic :=
  ⟨(fun s h => by cases h), fun e h => by cases h⟩

theorem spanOut_openFn {checks : Bool} {original : Str} {off : Nat} {s : PState} {lt : LexerToken} (f : FnName)
    (h : SpanInv off s) (h1 : off ≤ lt.span.start) (h2 : lt.span.start ≤ lt.span.stop) (h3 : lt.span.stop ≤ utf8Len original) :
    SpanOut original lt.span.stop (s.openFn checks original f lt) := by
  have h' : SpanInv lt.span.stop s := h.mono (by omega)
  unfold PState.openFn
  split
  · simp only
    split
    next he =>
      refine SpanOut.ok ?_
      intro fs hfs
      simp at hfs
      subst hfs
      exact ⟨h2, Nat.le_refl _, Nat.zero_le _⟩
    next fs0 rest he =>
      split
      · exact SpanOut.panic
      · refine SpanOut.ok ?_
        intro fs hfs
        simp only [List.mem_cons] at hfs
        rcases hfs with rfl | rfl | hfs
        · exact ⟨h2, Nat.le_refl _, Nat.zero_le _⟩
        · exact h' fs0 (by rw [he]; simp)
        · exact h' fs (by rw [he]; simp [hfs])
  · exact SpanOut.err h2 h3

theorem spanOut_step {checks : Bool} {original : Str} {off : Nat} {s : PState} {lt : LexerToken} (h : SpanInv off s)
    (h1 : off ≤ lt.span.start) (h2 : lt.span.start ≤ lt.span.stop) (h3 : lt.span.stop ≤ utf8Len original) :
    SpanOut original lt.span.stop (s.step checks original lt) := by
  have h' : SpanInv lt.span.stop s := h.mono (by omega)
  unfold PState.step
  have bind : ∀ r : Res PState, SpanOut original lt.span.stop r →
      SpanOut original lt.span.stop (r >>= fun s => .ok { s with last := some lt.token }) := by
    intro r hr
    cases r with
    | ok s => exact SpanOut.ok (hr.1 s rfl)
    | err e => exact ⟨(fun s h => by cases h), fun e' h => by cases h; exact hr.2 e rfl⟩
    | panic => exact SpanOut.panic
  apply bind
  split
  · split
    · exact SpanOut.ok h'
    · exact SpanOut.err h2 h3
  · split
    · exact SpanOut.ok h'
    · exact SpanOut.err h2 h3
  · split
    · exact SpanOut.ok h'
    · exact SpanOut.err h2 h3
  · exact spanOut_openFn _ h h1 h2 h3
  · exact spanOut_openFn _ h h1 h2 h3
  · exact spanOut_openFn _ h h1 h2 h3
  · split
    · split
      next fs0 rest he =>
        refine SpanOut.ok ?_
        intro fs hfs
        simp only [List.mem_cons] at hfs
        rcases hfs with rfl | hfs
        · have := h' fs0 (by rw [he]; simp)
          exact ⟨this.1, this.2.1, h2⟩
        · exact h' fs (by rw [he]; simp [hfs])
      · exact SpanOut.ok h'
    · exact SpanOut.err h2 h3
  · unfold PState.close
    split
    · exact SpanOut.err h2 h3
    · split
      · exact SpanOut.err h2 h3
      next top rest he =>
        have htop := h' top (by rw [he]; simp)
        simp only
        generalize top.predicates.length + (if s.predKey.isSome then 1 else 0) + top.nestLevel = n
        cases hc : closedFunc original top n lt.span.stop with
        | ok f =>
          refine SpanOut.ok ?_
          intro fs hfs
          exact h' fs (by rw [he]; simp at hfs ⊢; exact Or.inr hfs)
        | err e =>
          refine ⟨(fun s h => by cases h), fun e' h => ?_⟩
          cases h
          unfold closedFunc at hc
          split at hc
          · cases hc
          · cases hc
          · split at hc
            · exact GoodErr.mk hc (by omega) h3
            · cases hc
        | panic => exact SpanOut.panic
  · unfold PState.comma
    split
    · exact SpanOut.err h2 h3
    · simp only
      split
      · exact SpanOut.ok h'
      · split
        next fs0 rest he =>
          refine SpanOut.ok ?_
          intro fs hfs
          simp only [List.mem_cons] at hfs
          rcases hfs with rfl | hfs
          · exact h' fs0 (by rw [he]; simp)
          · exact h' fs (by rw [he]; simp [hfs])
        · refine SpanOut.ok ?_
          intro fs hfs
          exact h' fs hfs

theorem spanOut_run {checks : Bool} {original : Str} {off : Nat} {t : Str} {lts : List LexerToken} (hl : Lexes off t lts)
    (hlen : off + utf8Len t ≤ utf8Len original) {s : PState} (h : SpanInv off s) :
    SpanOut original (utf8Len original) (runTokens checks original s lts) := by
  induction lts generalizing off t s with
  | nil => exact SpanOut.ok (h.mono (by omega))
  | cons lt lts ih =>
    obtain ⟨rest, h1, h2, h3, h4, _⟩ := hl.sorted
    have hs := spanOut_step (checks := checks) (original := original) h h3 h4 (by omega)
    simp only [runTokens]
    cases hst : s.step checks original lt with
    | ok s' => exact ih h1 (by omega) (hs.1 s' hst)
    | err e => exact ⟨(fun s h => by cases h), fun e' h => by cases h; exact hs.2 e hst⟩
    | panic => exact SpanOut.panic

theorem finish_span {original : Str} {s : PState} (h : SpanInv (utf8Len original) s) {e : Err}
    (he : s.finish original = .err e) : GoodErr original e := by
  unfold PState.finish at he
  split at he
  · exact GoodErr.mk he (Nat.le_refl _) (Nat.le_refl _)
  · split at he
    next top rest hst =>
      have := h top (by rw [hst]; simp)
      split at he
      · exact GoodErr.mk he this.1 this.2.1
      · exact GoodErr.mk he this.2.2 (Nat.le_refl _)
    · simp only at he
      split at he
      · exact GoodErr.mk he (Nat.zero_le _) (Nat.le_refl _)
      · generalize s.rootCount + (if s.predKey.isSome then 1 else 0) = n at he
        split at he
        · exact GoodErr.mk he (Nat.zero_le _) (Nat.le_refl _)
        · cases he

theorem parse_err {checks : Bool} {text : Str} {e : Err} (h : Expression.parse checks text = .err e) :
    ∃ inner, CfgInner text inner ∧ GoodErr inner e := by
  obtain ⟨t, hi, ⟨lts, hl, hp⟩ | ⟨lts, a, b, r, hl, hp⟩⟩ := parse_cases checks text
  · refine ⟨t, hi, ?_⟩
    rw [hp] at h
    have hs := spanOut_run (checks := checks) (original := t) hl (by omega) (s := {}) (by intro fs h; cases h)
    cases hr : runTokens checks t {} lts with
    | ok s => rw [hr] at h; exact finish_span (hs.1 s hr) h
    | err e' => rw [hr] at h; cases h; exact hs.2 e hr
    | panic => rw [hr] at h; cases h
  · refine ⟨t, hi, ?_⟩
    rw [hp] at h
    obtain ⟨pre, post, h1, h2⟩ := hl.prefix
    simp only at h1 h2
    have hs := spanOut_run (checks := checks) (original := t) h2 (by rw [h1, utf8Len_append]; omega) (s := {})
      (by intro fs h; cases h)
    cases hr : runTokens checks t {} lts with
    | ok s =>
      rw [hr] at h
      have := hl.span
      exact GoodErr.mk h this.1 this.2
    | err e' => rw [hr] at h; cases h; exact hs.2 e hr
    | panic => rw [hr] at h; cases h

/-! ### The cfg set -/

theorem strips_iff {l s : Str} : trim l = s ↔ Strips l s := by
  constructor
  · rintro rfl
    exact trim_spec l
  · rintro ⟨a, b, rfl, ha, hb, ht⟩
    have dw : ∀ (a s : Str), (∀ c ∈ a, isWhitespace c = true) → (a ++ s).dropWhile isWhitespace = s.dropWhile isWhitespace := by
      intro a s ha
      induction a with
      | nil => rfl
      | cons x a ih =>
        rw [List.cons_append, List.dropWhile_cons, if_pos (ha x (by simp))]
        exact ih fun c hc => ha c (by simp [hc])
    cases s with
    | nil =>
      unfold trim trimStart
      rw [List.append_nil, dw a b ha]
      have := dw b [] hb
      rw [List.append_nil] at this
      rw [this]; rfl
    | cons x s =>
      have h1 : trimStart (a ++ x :: s ++ b) = x :: s ++ b := by
        unfold trimStart
        rw [List.append_assoc, dw a _ ha]
        exact dropWhile_eq_self_of_head (fun c hc => ht.1 c (by simpa using hc))
      unfold trim
      rw [h1]
      unfold trimEnd
      rw [List.reverse_append, dw _ _ (by intro c hc; exact hb c (by simpa using hc)), dropWhile_eq_self_of_head]
      · simp
      · intro c hc
        apply ht.2
        rw [List.head?_reverse] at hc
        exact hc

theorem trim_chompCr (l : Str × Bool) : trim (chompCr l) = trim l.1 := by
  unfold chompCr
  split
  · split
    next r hr =>
      have hl : l.1 = r.reverse ++ ['\r'] := by
        have := congrArg List.reverse hr
        simpa using this
      rw [hl]
      symm
      rw [strips_iff]
      obtain ⟨a, b, h1, h2, h3, h4⟩ := trim_spec r.reverse
      refine ⟨a, b ++ ['\r'], ?_, h2, ?_, h4⟩
      · conv => lhs; rw [h1]
        simp
      · intro c hc
        simp only [List.mem_append, List.mem_singleton] at hc
        rcases hc with hc | rfl
        · exact h3 c hc
        · decide
    · rfl
  · rfl

theorem rawLines_line (l rest : Str) (h : '\n' ∉ l) : rawLines (l ++ '\n' :: rest) = (l, true) :: rawLines rest := by
  induction l with
  | nil => simp [rawLines]
  | cons c l ih =>
    simp only [List.mem_cons, not_or] at h
    rw [List.cons_append, rawLines, if_neg (Ne.symm h.1), ih h.2]

theorem rawLines_last (l : Str) (h : '\n' ∉ l) (hne : l ≠ []) : rawLines l = [(l, false)] := by
  induction l with
  | nil => exact (hne rfl).elim
  | cons c l ih =>
    simp only [List.mem_cons, not_or] at h
    rw [rawLines, if_neg (Ne.symm h.1)]
    cases l with
    | nil => rfl
    | cons d l => rw [ih h.2 (by simp)]

theorem rawLines_printed (ls : List Str) (last : Str) (h : ∀ l ∈ ls, '\n' ∉ l) (hl : '\n' ∉ last) :
    rawLines (printed ls last) = ls.map (fun l => (l, true)) ++ (if last = [] then [] else [(last, false)]) := by
  induction ls with
  | nil =>
    unfold printed
    simp only [List.flatMap_nil, List.nil_append, List.map_nil]
    split
    next h => rw [h]; rfl
    next h => exact rawLines_last last hl h
  | cons l ls ih =>
    have e : printed (l :: ls) last = l ++ '\n' :: printed ls last := by
      unfold printed; simp
    rw [e, rawLines_line _ _ (h l (by simp)), ih fun x hx => h x (by simp [hx])]
    rfl

/-- The lines of a printed text, up to white space at the ends. -/
theorem lines_printed (ls : List Str) (last : Str) (h : ∀ l ∈ ls, '\n' ∉ l) (hl : '\n' ∉ last) (s : Str) (hs : s ≠ []) :
    (∃ l ∈ lines (printed ls last), trim l = s) ↔ ∃ l ∈ ls ++ [last], trim l = s := by
  unfold lines
  rw [rawLines_printed ls last h hl]
  constructor
  · rintro ⟨l, hm, rfl⟩
    simp only [List.map_append, List.map_map, List.mem_append, List.mem_map, Function.comp] at hm
    rcases hm with ⟨x, hx, rfl⟩ | ⟨x, hx, rfl⟩
    · exact ⟨x, by simp [hx], by rw [trim_chompCr]⟩
    · split at hx
      · cases hx
      · simp at hx; subst hx
        exact ⟨last, by simp, rfl⟩
  · rintro ⟨l, hm, rfl⟩
    simp only [List.mem_append, List.mem_singleton] at hm
    rcases hm with hm | rfl
    · refine ⟨chompCr (l, true), ?_, trim_chompCr _⟩
      simp only [List.map_append, List.map_map, List.mem_append, List.mem_map, Function.comp]
      exact Or.inl ⟨l, hm, rfl⟩
    · refine ⟨l, ?_, rfl⟩
      have : l ≠ [] := by rintro rfl; exact hs rfl
      simp [this, chompCr]

/-- The set contains the pair. -/
def CfgSet.HasPair (c : CfgSet) (k v : Str) : Prop := ∃ vs, CfgSet.values c.keyValues k = some vs ∧ v ∈ vs

theorem values_addValue (name v k : Str) (l : List (Str × List Str)) (w : Str) :
    (∃ vs, CfgSet.values (CfgSet.addValue name v l) k = some vs ∧ w ∈ vs) ↔
      (∃ vs, CfgSet.values l k = some vs ∧ w ∈ vs) ∨ (k = name ∧ w = v) := by
  induction l with
  | nil =>
    simp only [CfgSet.addValue, CfgSet.values]
    by_cases h : name = k
    · simp [h]
    · simp [h, Ne.symm h]
  | cons e l ih =>
    obtain ⟨k', vs⟩ := e
    simp only [CfgSet.addValue]
    by_cases h : k' = name
    · rw [if_pos h]
      simp only [CfgSet.values]
      by_cases h2 : k' = k
      · rw [if_pos h2, if_pos h2]
        have : k = name := by rw [← h2, h]
        simp only [Option.some.injEq, exists_eq_left', this, true_and]
        split
        next hc =>
          have hc : v ∈ vs := by simpa using hc
          constructor
          · exact Or.inl
          · rintro (h | rfl)
            · exact h
            · exact hc
        next => simp
      · rw [if_neg h2, if_neg h2]
        have : ¬ k = name := by intro e; exact h2 (h.trans e.symm)
        simp [this]
    · rw [if_neg h]
      simp only [CfgSet.values]
      by_cases h2 : k' = k
      · rw [if_pos h2, if_pos h2]
        have : ¬ k = name := by intro e; exact h (h2.trans e)
        simp [this]
      · rw [if_neg h2, if_neg h2]
        exact ih

/-- What a line adds, in terms of its trimmed text. -/
theorem addLine_spec (c : CfgSet) (line : Str) : ∃ c', c.addLine line = some c' ∧
    (∀ f, f ∈ c'.flags ↔ f ∈ c.flags ∨ (trim line = f ∧ f ≠ [] ∧ '=' ∉ f)) ∧
    (∀ k v, c'.HasPair k v ↔ c.HasPair k v ∨ (trim line = k ++ '=' :: '"' :: (v ++ ['"']) ∧ '=' ∉ k ∧ v ≠ [])) := by
  unfold CfgSet.addLine
  simp only
  generalize trim line = t
  by_cases hemp : t = []
  · subst hemp
    refine ⟨c, rfl, fun f => ?_, fun k v => ?_⟩
    · constructor
      · exact Or.inl
      · rintro (h | ⟨h1, h2, _⟩)
        · exact h
        · exact (h2 h1.symm).elim
    · constructor
      · exact Or.inl
      · rintro (h | ⟨h1, _⟩)
        · exact h
        · have := congrArg List.length h1
          simp at this
  rw [if_neg (by simpa using hemp)]
  cases hsp : splitOnce '=' t with
  | none =>
    rw [splitOnce_eq_none] at hsp
    refine ⟨_, rfl, fun f => ?_, fun k v => ?_⟩
    · simp only
      split
      next hc =>
        have hc : t ∈ c.flags := by simpa using hc
        constructor
        · exact Or.inl
        · rintro (h | ⟨rfl, _⟩)
          · exact h
          · exact hc
      next =>
        simp only [List.mem_append, List.mem_singleton]
        constructor
        · rintro (h | rfl)
          · exact Or.inl h
          · exact Or.inr ⟨rfl, hemp, hsp⟩
        · rintro (h | ⟨rfl, _⟩)
          · exact Or.inl h
          · exact Or.inr rfl
    · constructor
      · exact Or.inl
      · rintro (h | ⟨rfl, _⟩)
        · exact h
        · exact (hsp (by simp)).elim
  | some nv =>
    obtain ⟨name, value⟩ := nv
    rw [splitOnce_eq_some] at hsp
    obtain ⟨ht, hname⟩ := hsp
    have hflag : ∀ f, f ∈ c.flags ↔ f ∈ c.flags ∨ (t = f ∧ f ≠ [] ∧ '=' ∉ f) := by
      intro f
      constructor
      · exact Or.inl
      · rintro (h | ⟨rfl, _, h⟩)
        · exact h
        · exact (h (by rw [ht]; simp)).elim
    have hpair : ∀ k v, t = k ++ '=' :: '"' :: (v ++ ['"']) ∧ '=' ∉ k → k = name ∧ value = '"' :: (v ++ ['"']) := by
      rintro k v ⟨h1, h2⟩
      have e1 : splitOnce '=' t = some (name, value) := splitOnce_eq_some.2 ⟨ht, hname⟩
      have e2 : splitOnce '=' t = some (k, '"' :: (v ++ ['"'])) := splitOnce_eq_some.2 ⟨h1, h2⟩
      rw [e1] at e2
      simp only [Option.some.injEq, Prod.mk.injEq] at e2
      exact ⟨e2.1.symm, e2.2⟩
    simp only
    by_cases hq : ∃ v, value = '"' :: (v ++ ['"'])
    · obtain ⟨v, hv⟩ := hq
      have hq1 : utf8Len ['"'] = 1 := by decide
      have hlen : utf8Len value = utf8Len v + 2 := by
        rw [hv]
        have : '"' :: (v ++ ['"']) = ['"'] ++ v ++ ['"'] := by simp
        rw [this, utf8Len_append, utf8Len_append, hq1]; omega
      have hcond : (utf8Len value < 2 || !startsWith ['"'] value || !endsWith ['"'] value) = false := by
        have h1 : startsWith ['"'] value = true := by
          unfold startsWith
          rw [(stripPrefix_eq_some (p := ['"']) (s := value) (r := v ++ ['"'])).2 hv]; rfl
        have h2 : endsWith ['"'] value = true := by
          unfold endsWith
          rw [(stripSuffix_eq_some (p := ['"']) (s := value) (r := '"' :: v)).2 (by rw [hv]; rfl)]; rfl
        rw [h1, h2, hlen]; simp
      rw [if_neg (by rw [hcond]; simp)]
      have hsl : slice value 1 (utf8Len value - 1) = some v := by
        have := slice_append ['"'] v ['"']
        rw [hq1] at this
        rw [hlen, hv]
        have e : utf8Len v + 2 - 1 = 1 + utf8Len v := by omega
        rw [e]
        simpa using this
      rw [hsl]
      simp only
      by_cases hve : v = []
      · rw [if_pos (by simp [hve])]
        refine ⟨c, rfl, hflag, fun k w => ?_⟩
        constructor
        · exact Or.inl
        · rintro (h | ⟨h1, h2, h3⟩)
          · exact h
          · have := (hpair k w ⟨h1, h2⟩).2
            rw [hv, hve] at this
            simp at this
            exact (h3 this).elim
      · rw [if_neg (by simpa using hve)]
        refine ⟨_, rfl, hflag, fun k w => ?_⟩
        have := values_addValue name v k c.keyValues w
        unfold CfgSet.HasPair
        simp only
        rw [this]
        constructor
        · rintro (h | ⟨rfl, rfl⟩)
          · exact Or.inl h
          · exact Or.inr ⟨by rw [ht, hv], hname, hve⟩
        · rintro (h | ⟨h1, h2, h3⟩)
          · exact Or.inl h
          · have h4 := hpair k w ⟨h1, h2⟩
            refine Or.inr ⟨h4.1, ?_⟩
            have := h4.2
            rw [hv] at this
            simpa using this.symm
    · rw [if_pos]
      · refine ⟨c, rfl, hflag, fun k w => ?_⟩
        constructor
        · exact Or.inl
        · rintro (h | ⟨h1, h2, _⟩)
          · exact h
          · exact (hq ⟨w, (hpair k w ⟨h1, h2⟩).2⟩).elim
      · refine Classical.byContradiction fun hc => hq ?_
        simp only [Bool.or_eq_true, decide_eq_true_eq, Bool.not_eq_true', not_or, Bool.not_eq_false] at hc
        obtain ⟨⟨h1, h2⟩, h3⟩ := hc
        obtain ⟨r, h2⟩ := Option.isSome_iff_exists.1 h2
        obtain ⟨q, h3⟩ := Option.isSome_iff_exists.1 h3
        rw [stripPrefix_eq_some] at h2
        rw [stripSuffix_eq_some] at h3
        rcases List.eq_nil_or_concat r with rfl | ⟨v, x, rfl⟩
        · rw [h2] at h1
          exact (h1 (by decide)).elim
        · refine ⟨v, ?_⟩
          have h4 : value = ('"' :: v) ++ [x] := by rw [h2]; simp
          rw [h4] at h3
          have := List.append_inj_right' h3 rfl
          rw [h4, this]; rfl

theorem addLines_spec (c : CfgSet) (ls : List Str) : ∃ c', CfgSet.addLines c ls = some c' ∧
    (∀ f, f ∈ c'.flags ↔ f ∈ c.flags ∨ ∃ l ∈ ls, trim l = f ∧ f ≠ [] ∧ '=' ∉ f) ∧
    (∀ k v, c'.HasPair k v ↔ c.HasPair k v ∨ ∃ l ∈ ls, trim l = k ++ '=' :: '"' :: (v ++ ['"']) ∧ '=' ∉ k ∧ v ≠ []) := by
  induction ls generalizing c with
  | nil => exact ⟨c, rfl, by simp, by simp⟩
  | cons l ls ih =>
    obtain ⟨c1, h1, h2, h3⟩ := addLine_spec c l
    obtain ⟨c2, h4, h5, h6⟩ := ih c1
    refine ⟨c2, by simp [CfgSet.addLines, h1, h4], fun f => ?_, fun k v => ?_⟩
    · rw [h5, h2, or_assoc]; simp
    · rw [h6, h3, or_assoc]; simp

theorem parse_printed (ls : List Str) (last : Str) (h : ∀ l ∈ ls, '\n' ∉ l) (hl : '\n' ∉ last) :
    ∃ c, CfgSet.parse (printed ls last) = some c ∧ (∀ f, f ∈ c.flags ↔ ∃ l ∈ ls ++ [last], PrintsFlag l f) ∧
      (∀ k v, c.HasPair k v ↔ v ≠ [] ∧ ∃ l ∈ ls ++ [last], PrintsPair l k v) := by
  obtain ⟨c, h1, h2, h3⟩ := addLines_spec {} (lines (printed ls last))
  refine ⟨c, h1, fun f => ?_, fun k v => ?_⟩
  · rw [h2]
    constructor
    · rintro (h0 | ⟨l, h4, h5, h6, h7⟩)
      · cases h0
      · obtain ⟨l', h8, h9⟩ := (lines_printed ls last h hl f h6).1 ⟨l, h4, h5⟩
        exact ⟨l', h8, strips_iff.1 h9, h6, h7⟩
    · rintro ⟨l, h4, h5, h6, h7⟩
      obtain ⟨l', h8, h9⟩ := (lines_printed ls last h hl f h6).2 ⟨l, h4, strips_iff.2 h5⟩
      exact Or.inr ⟨l', h8, h9, h6, h7⟩
  · rw [h3]
    have hne : k ++ '=' :: '"' :: (v ++ ['"']) ≠ [] := by simp
    constructor
    · rintro (⟨vs, h0, _⟩ | ⟨l, h4, h5, h6, h7⟩)
      · cases h0
      · obtain ⟨l', h8, h9⟩ := (lines_printed ls last h hl _ hne).1 ⟨l, h4, h5⟩
        exact ⟨h7, l', h8, strips_iff.1 h9, h6⟩
    · rintro ⟨h7, l, h4, h5, h6⟩
      obtain ⟨l', h8, h9⟩ := (lines_printed ls last h hl _ hne).2 ⟨l, h4, strips_iff.2 h5⟩
      exact Or.inr ⟨l', h8, h9, h6, h7⟩

/-- Every text is a printed text. -/
theorem exists_printed (s : Str) : ∃ ls last, s = printed ls last ∧ (∀ l ∈ ls, '\n' ∉ l) ∧ '\n' ∉ last := by
  induction s with
  | nil => exact ⟨[], [], rfl, by simp, by simp⟩
  | cons c s ih =>
    obtain ⟨ls, last, h1, h2, h3⟩ := ih
    by_cases hc : c = '\n'
    · subst hc
      exact ⟨[] :: ls, last, by rw [h1]; simp [printed], by simp; exact h2, h3⟩
    · cases ls with
      | nil => exact ⟨[], c :: last, by rw [h1]; simp [printed], by simp, by simp [Ne.symm hc, h3]⟩
      | cons l ls =>
        refine ⟨(c :: l) :: ls, last, by rw [h1]; simp [printed], ?_, h3⟩
        intro x hx
        rcases List.mem_cons.1 hx with rfl | hx
        · have := h2 l (by simp)
          simp [Ne.symm hc, this]
        · exact h2 x (by simp [hx])

theorem holds_keyValue (c : CfgSet) (k v : Str) :
    c.holds (.keyValue k v) = true ↔ k ≠ "feature".toList ∧ c.HasPair k v := by
  unfold CfgSet.holds CfgSet.HasPair
  generalize "feature".toList = fe
  simp only
  split
  next h => simp [h]
  next h =>
    cases hv : CfgSet.values c.keyValues k with
    | none => simp
    | some vs => simp [h]

theorem holds_flag (c : CfgSet) (f : Str) : c.holds (.flag f) = true ↔
    f ≠ "test".toList ∧ f ≠ "debug_assertions".toList ∧ f ≠ "proc_macro".toList ∧ f ∈ c.flags := by
  unfold CfgSet.holds
  simp only
  split
  next h =>
    constructor
    · intro h; cases h
    · rintro ⟨h1, h2, h3, _⟩
      rcases h with h | h | h
      · exact (h1 h).elim
      · exact (h2 h).elim
      · exact (h3 h).elim
  next h =>
    rw [not_or, not_or] at h
    rw [List.contains_iff_mem]
    exact ⟨fun hm => ⟨h.1, h.2.1, h.2.2, hm⟩, fun hm => hm.2.2.2⟩

end CC
