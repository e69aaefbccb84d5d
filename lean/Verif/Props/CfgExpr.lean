import Verif.Lemmas.CfgSpan
import Verif.Lemmas.CfgPanic
/-
Properties C35 - C42: `cfg(..)` expressions and the cfg set printed by rustc.

`checks` says whether the library was compiled with overflow checks (debug builds).
-/
namespace CC

/-! ### C35: which texts are accepted -/

/-- C35: every expression of the grammar is accepted; with overflow checks, if no function has more than 255 functions as operands. -/
theorem C35_accepts (checks : Bool) (text : Str) (t : CfgTree) (h : IsCfg text t) (hn : checks = true → t.AllFns Narrow) :
    ∃ e, Expression.parse checks text = .ok e := by
  obtain ⟨inner, ts, hp⟩ := h.parses hn
  obtain ⟨e, he, _⟩ := parse_complete hp
  exact ⟨e, he⟩

theorem parses_iff {checks : Bool} {text : Str} {trees : List CfgTree} :
    (∃ inner ts, Parses checks text inner ts trees) ↔
      IsCfgList text trees ∧ CfgTree.AllFnsList NotUnaryMod trees ∧ (checks = true → CfgTree.AllFnsList Narrow trees) := by
  constructor
  · rintro ⟨inner, ts, h1, h2, ⟨e, h3⟩, h4, h5, h6⟩
    refine ⟨⟨inner, ts, e, h1, h2, h3, h5, by rw [← predsOf_length]; exact h6⟩, ?_, ?_⟩
    · exact AllFnsList_imp (fun f args h => (countedNot_iff f args).1 h.1) _ h4
    · intro hc
      exact AllFnsList_imp (fun f args h => h.2 hc) _ h4
  · rintro ⟨⟨inner, ts, e, h1, h2, h3, h5, h6⟩, h7, h8⟩
    refine ⟨inner, ts, h1, h2, ⟨e, h3⟩, ?_, h5, by rw [predsOf_length]; exact h6⟩
    cases checks with
    | false => exact AllFnsList_imp (fun f args h => ⟨(countedNot_iff f args).2 h, by simp⟩) _ h7
    | true =>
      exact AllFnsList_imp (fun f args h => ⟨(countedNot_iff f args).2 h.1, fun _ => h.2⟩) _ (AllFnsList_and _ h7 (h8 rfl))

/-- C35, as far as it holds: exactly what is accepted.  Compared to the grammar, repeated commas and several formulas (at most one
of them a bare predicate) are accepted too, and functions among the operands of `not` are counted modulo 256. -/
theorem C35_accepted_iff_partial (checks : Bool) (text : Str) :
    (∃ e, Expression.parse checks text = .ok e) ↔
      ∃ trees, IsCfgList text trees ∧ CfgTree.AllFnsList NotUnaryMod trees ∧
        (checks = true → CfgTree.AllFnsList Narrow trees) := by
  constructor
  · rintro ⟨e, he⟩
    obtain ⟨ts, trees, hp, _⟩ := parse_sound he
    exact ⟨trees, parses_iff.1 ⟨_, _, hp⟩⟩
  · rintro ⟨trees, h⟩
    obtain ⟨inner, ts, hp⟩ := parses_iff.2 h
    obtain ⟨e, he, _⟩ := parse_complete hp
    exact ⟨e, he⟩

theorem notUnary_of_mod {f : FnName} {args : List CfgTree} (h : NotUnaryMod f args) (hn : Narrow f args) : NotUnary f args := by
  intro hf
  have h1 := h hf
  unfold Narrow at hn
  rw [Nat.mod_eq_of_lt hn] at h1
  rw [length_eq, predsOf_length]
  exact h1

theorem body_nil {args : List CfgTree} {e : BodyEnd} {p : List Token} (h : Body false args e p) (ha : args = []) : p = [] := by
  cases h with
  | start => rfl
  | item args e p u q => simp at ha
  | comma args e p h1 h2 =>
    have : e = .item := by simpa using h2
    subst this
    generalize he : BodyEnd.item = e at h1
    cases h1 with
    | start => cases he
    | item args e p u q => simp at ha
    | comma => cases he

/-- C35, as far as it holds: an accepted text with one formula, without doubled commas and without a comma at the end belongs to the
grammar. -/
theorem C35_rejects_partial (text inner : Str) (ts : List Token) (t : CfgTree) (h : IsCfgList text [t])
    (hu : t.AllFns NotUnaryMod) (hn : t.AllFns Narrow) (hi : CfgInner text inner) (hr : ReadsAs inner ts)
    (hd : DoubleComma ts = false) (hl : ts.getLast? ≠ some .comma) : IsCfg text t := by
  obtain ⟨inner', ts', e, h1, h2, h3, _, _⟩ := h
  have := hi.unique h1
  subst this
  have := hr.unique h2
  subst this
  refine ⟨inner, ts, hi, hr, ?_, AllFns_imp (fun f args h => notUnary_of_mod h.1 h.2) t (AllFns_and t hu hn)⟩
  have hs := h3.strict hd
  generalize hts : [t] = l at hs
  cases hs with
  | start => cases hts
  | item args e p u q h1 h2 hit =>
    cases args with
    | nil =>
      simp at hts
      subst hts
      rw [body_nil h1 rfl, List.nil_append]
      exact hit
    | cons x args => simp at hts
  | comma args e p h1 h2 => simp at hl

/-- The formula of a text of the grammar. -/
theorem isCfg_expr {checks : Bool} {text : Str} {t : CfgTree} {e : Expression} (h : IsCfg text t)
    (he : Expression.parse checks text = .ok e) : Holds e [t] := by
  obtain ⟨ts, trees, hp, hh⟩ := parse_sound he
  cases checks with
  | false =>
    obtain ⟨inner, us, hq⟩ := h.parses (checks := false) (by simp)
    have h1 := hp.isInner.unique hq.isInner
    have h2 : ts = us := hp.reads.unique (h1 ▸ hq.reads)
    subst h2
    rw [← hp.unique hq]
    exact hh
  | true =>
    obtain ⟨inner, us, hq⟩ := h.parses (checks := false) (by simp)
    have h1 := hp.isInner.unique hq.isInner
    have h2 : ts = us := hp.reads.unique (h1 ▸ hq.reads)
    subst h2
    have hp' : Parses false text e.original ts trees :=
      ⟨hp.isInner, hp.reads, hp.body, AllFnsList_imp (fun f args h => ⟨h.1, by simp⟩) _ hp.counts, hp.ne, hp.one⟩
    rw [← hp'.unique hq]
    exact hh

/-- C35 fails: `all(a), b` is accepted although it is not an expression of the grammar. -/
theorem C35_two_roots_fails : (∃ e, Expression.parse true "all(a), b".toList = .ok e) ∧ ¬ ∃ t, IsCfg "all(a), b".toList t := by
  have hp : ∃ e, Expression.parse true "all(a), b".toList = .ok e ∧
      e.expr.map (ExprNode.resolve e.original) = [some (.pred (.flag "a".toList)), some (.fn (.all 1)),
        some (.pred (.flag "b".toList))] := ⟨_, rfl, by decide⟩
  obtain ⟨e, he, hr⟩ := hp
  refine ⟨⟨e, he⟩, ?_⟩
  rintro ⟨t, ht⟩
  have := isCfg_expr ht he
  unfold Holds at this
  rw [hr] at this
  cases t with
  | pred p => simp [CfgTree.post] at this
  | fn f args =>
    have := congrArg List.getLast? this
    simp [CfgTree.post] at this

/-- C35 fails: `all(a,,b)` is accepted although it is not an expression of the grammar. -/
theorem C35_double_comma_fails :
    (∃ e, Expression.parse true "all(a,,b)".toList = .ok e) ∧ ¬ ∃ t, IsCfg "all(a,,b)".toList t := by
  refine ⟨⟨_, rfl⟩, ?_⟩
  rintro ⟨t, inner, ts, h1, h2, h3, _⟩
  have hi : CfgInner "all(a,,b)".toList "all(a,,b)".toList := cfgText_inner.1 rfl
  have := h1.unique hi
  subst this
  have hr : ReadsAs "all(a,,b)".toList [.all, .openParen, .key ['a'], .comma, .comma, .key ['b'], .closeParen] := by
    refine .cons [] .all _ _ (by simp) trivial ?_ ?_
    · intro _ c hc; simp at hc; subst hc; rw [← isIdentRest_iff]; decide
    refine .cons [] .openParen _ _ (by simp) trivial (fun h => h.elim) ?_
    refine .cons [] (.key ['a']) _ _ (by simp) ⟨⟨'a', [], rfl, by rw [← isIdentStart_iff]; decide, by simp⟩, by decide, by decide, by decide⟩ ?_ ?_
    · intro _ c hc; simp at hc; subst hc; rw [← isIdentRest_iff]; decide
    refine .cons [] .comma _ _ (by simp) trivial (fun h => h.elim) ?_
    refine .cons [] .comma _ _ (by simp) trivial (fun h => h.elim) ?_
    refine .cons [] (.key ['b']) _ _ (by simp) ⟨⟨'b', [], rfl, by rw [← isIdentStart_iff]; decide, by simp⟩, by decide, by decide, by decide⟩ ?_ ?_
    · intro _ c hc; simp at hc; subst hc; rw [← isIdentRest_iff]; decide
    exact .cons [] .closeParen [] _ (by simp) trivial (fun h => h.elim) (.nil [] (by simp))
  have := h2.unique hr
  subst this
  have := h3.noDouble.1
  exact absurd this (by decide)

/-! ### C36: values -/

/-- C36: an expression of the grammar in which no function has more than 255 functions as operands evaluates to the truth value of
its formula. -/
theorem C36_value (checks : Bool) (text : Str) (t : CfgTree) (e : Expression) (h : IsCfg text t) (hn : t.AllFns Narrow)
    (he : Expression.parse checks text = .ok e) (v : Predicate → Bool) : e.eval boolLogic v = some (t.value v) := by
  have hh := isCfg_expr h he
  rw [hh.eval]
  obtain ⟨_, _, hq⟩ := h.parses (checks := true) (fun _ => hn)
  rw [flatMap_post_value v [t] [] hq.counts]
  rfl

/-- C36 with overflow checks: the restriction is not needed, wider expressions are not accepted. -/
theorem C36_value_checked (text : Str) (t : CfgTree) (e : Expression) (h : IsCfg text t)
    (he : Expression.parse true text = .ok e) (v : Predicate → Bool) : e.eval boolLogic v = some (t.value v) := by
  obtain ⟨ts, trees, hp, hh⟩ := parse_sound he
  obtain ⟨inner, us, hq⟩ := h.parses (checks := false) (by simp)
  have h1 := hp.isInner.unique hq.isInner
  have h2 : ts = us := hp.reads.unique (h1 ▸ hq.reads)
  subst h2
  have hp' : Parses false text e.original ts trees :=
    ⟨hp.isInner, hp.reads, hp.body, AllFnsList_imp (fun f args h => ⟨h.1, by simp⟩) _ hp.counts, hp.ne, hp.one⟩
  have ht := hp'.unique hq
  subst ht
  rw [hh.eval, flatMap_post_value v [t] [] hp.counts]
  rfl

/-- C36 for the texts accepted outside the grammar: of several formulas the last one counts. -/
theorem C36_last_root (checks : Bool) (text : Str) (trees : List CfgTree) (h : IsCfgList text trees)
    (hu : CfgTree.AllFnsList NotUnaryMod trees) (hn : CfgTree.AllFnsList Narrow trees) :
    ∃ e, Expression.parse checks text = .ok e ∧
      ∀ v, e.eval boolLogic v = (trees.getLast?).map (CfgTree.value v) := by
  obtain ⟨inner, ts, hp⟩ := parses_iff.2 ⟨h, hu, fun _ => hn⟩
  obtain ⟨e, he, _, hh⟩ := parse_complete (checks := checks) hp
  refine ⟨e, he, fun v => ?_⟩
  obtain ⟨_, _, hq⟩ := (parses_iff (checks := true)).2 ⟨h, hu, fun _ => hn⟩
  rw [hh.eval, flatMap_post_value v trees [] hq.counts]
  simp

/-- `all(any(),any(),..)` with `n` operands. -/
def wideText (n : Nat) : Str := "all(".toList ++ (List.replicate n "any(),".toList).flatten ++ ")".toList

theorem isCfg_wideText (n : Nat) : IsCfg (wideText n) (.fn .all (List.replicate n (.fn .any []))) := by
  have hany : Item false (.fn .any []) [.any, .openParen, .closeParen] := .fn .any [] .start [] .start
  have hbody : ∀ n, ∃ e, e ≠ .item ∧ Body false (List.replicate n (.fn .any [])) e
      (List.replicate n [Token.any, .openParen, .closeParen, .comma]).flatten := by
    intro n
    induction n with
    | zero => exact ⟨.start, by simp, .start⟩
    | succ n ih =>
      obtain ⟨e, he, hb⟩ := ih
      refine ⟨.comma, by simp, ?_⟩
      have := Body.comma _ _ _ (Body.item _ _ _ _ _ hb he hany) (Or.inl rfl)
      rw [List.replicate_succ', List.replicate_succ', List.flatten_append]
      simpa using this
  have hreads : ∀ n, ReadsAs ((List.replicate n "any(),".toList).flatten ++ ")".toList)
      ((List.replicate n [Token.any, .openParen, .closeParen, .comma]).flatten ++ [.closeParen]) := by
    intro n
    induction n with
    | zero => exact .cons [] .closeParen [] _ (by simp) trivial (fun h => h.elim) (.nil [] (by simp))
    | succ n ih =>
      rw [List.replicate_succ, List.replicate_succ, List.flatten_cons, List.flatten_cons, List.append_assoc, List.append_assoc]
      generalize (List.replicate n "any(),".toList).flatten ++ ")".toList = rest at ih
      refine .cons [] .any _ _ (by simp) trivial ?_ ?_
      · intro _ c hc; simp at hc; subst hc; rw [← isIdentRest_iff]; decide
      refine .cons [] .openParen _ _ (by simp) trivial (fun h => h.elim) ?_
      refine .cons [] .closeParen _ _ (by simp) trivial (fun h => h.elim) ?_
      exact .cons [] .comma _ _ (by simp) trivial (fun h => h.elim) ih
  obtain ⟨e, _, hb⟩ := hbody n
  refine ⟨wideText n, _, Or.inr ⟨rfl, ?_⟩, ?_, .fn .all _ e _ hb, ?_⟩
  · rintro ⟨r, hr⟩
    unfold wideText at hr
    generalize (List.replicate n "any(),".toList).flatten = x at hr
    simp at hr
  · unfold wideText
    rw [List.append_assoc]
    refine .cons [] .all _ _ (by simp) trivial ?_ ?_
    · intro _ c hc; simp at hc; subst hc; rw [← isIdentRest_iff]; decide
    exact .cons [] .openParen _ _ (by simp) trivial (fun h => h.elim) (hreads n)
  · refine ⟨(by intro h; cases h), ?_⟩
    clear hb
    induction n with
    | zero => trivial
    | succ n ih => exact ⟨⟨by (intro h; cases h), trivial⟩, ih⟩

/-- C36 fails without overflow checks for wide expressions: the count wraps, and a conjunction of 256 false operands is true. -/
theorem C36_wide_fails : ∃ text t e v, IsCfg text t ∧ Expression.parse false text = .ok e ∧
    t.value v = false ∧ e.eval boolLogic v = some true := by
  have h : ((Expression.parse false (wideText 256)).toOption.bind fun e => e.eval boolLogic fun _ => false) = some true := by
    decide +kernel
  cases hp : Expression.parse false (wideText 256) with
  | ok e =>
    rw [hp] at h
    exact ⟨wideText 256, _, e, fun _ => false, isCfg_wideText 256, hp, by decide +kernel, h⟩
  | err e => rw [hp] at h; cases h
  | panic => rw [hp] at h; cases h

/-! ### C37: no panics -/

/-- C37: without overflow checks the parser never panics. -/
theorem C37_parse (text : Str) : Expression.parse false text ≠ .panic := by
  intro h
  have := (parse_panic h).1
  cases this

/-- C37, as far as it holds: with overflow checks the parser does not panic on texts with fewer than 256 opening parentheses. -/
theorem C37_parse_checked_partial (text : Str) (h : text.count '(' < 256) : Expression.parse true text ≠ .panic := by
  intro hp
  have := (parse_panic hp).2
  omega

/-- C37 fails with overflow checks: a conjunction with 256 functions as operands makes the parser panic. -/
theorem C37_wide_fails : ∃ text t, IsCfg text t ∧ Expression.parse true text = .panic := by
  have h : (Expression.parse true (wideText 256)).isOk = false ∧ (Expression.parse true (wideText 256)).isErr = false := by
    decide +kernel
  refine ⟨wideText 256, _, isCfg_wideText 256, ?_⟩
  cases hp : Expression.parse true (wideText 256) with
  | ok e => rw [hp] at h; exact absurd h.1 (by simp [Res.isOk])
  | err e => rw [hp] at h; exact absurd h.2 (by simp [Res.isErr])
  | panic => rfl

/-- C37: exactly when the parser panics with overflow checks: the text begins, up to the word `all`, `any` or `not` that is the
256th function among the operands of some function, like an expression that could still be accepted (with repeated commas
and several formulas, as in `C35_accepted_iff_partial`).  What follows that word does not matter. -/
theorem C37_panics_iff (text inner : Str) (h : CfgInner text inner) : Expression.parse true text = .panic ↔
    ∃ depth args ts f, BeginsWith inner (ts ++ [FnName.token f]) ∧ Unfinished (depth + 1) args ts ∧
      args.countP CfgTree.isFn = 255 :=
  parse_panic_iff h

def brokenText (n : Nat) : Str := "x, all(y = \"\", ".toList ++ (List.replicate n "any(),".toList).flatten ++ "not $".toList

-- The 256th function makes the parser panic before it could see that the text is not an expression.
example : (Expression.parse true (brokenText 255)).isPanic = true ∧ (Expression.parse true (brokenText 254)).isErr = true ∧
    (Expression.parse false (brokenText 255)).isErr = true := by
  decide +kernel

-- Outside of functions there is no such limit.
example : (Expression.parse true (List.replicate 256 "any(),".toList).flatten).isOk = true := by decide +kernel

/-- C37: evaluating an accepted expression never panics. -/
theorem C37_eval {T : Type} (checks : Bool) (text : Str) (e : Expression) (he : Expression.parse checks text = .ok e)
    (L : Logic T) (ep : Predicate → T) : ∃ x, e.eval L ep = some x := by
  obtain ⟨ts, trees, hp, hh⟩ := parse_sound he
  rw [hh.eval]
  obtain ⟨xs, h1, h2⟩ := flatMap_post_total L ep checks trees [] hp.counts
  rw [h2]
  cases xs with
  | nil =>
    have := hp.ne
    cases trees
    · exact (this rfl).elim
    · simp at h1
  | cons x xs => exact ⟨x, rfl⟩

/-! ### C38: white space -/

/-- C38: two texts made of the same tokens are both accepted or both not, and have the same values. -/
theorem C38_spacing (checks : Bool) (text text' inner inner' : Str) (ts : List Token) (h : CfgInner text inner)
    (h' : CfgInner text' inner') (hr : ReadsAs inner ts) (hr' : ReadsAs inner' ts) :
    ((∃ e, Expression.parse checks text = .ok e) ↔ ∃ e, Expression.parse checks text' = .ok e) ∧
    ∀ e e', Expression.parse checks text = .ok e → Expression.parse checks text' = .ok e' →
      ∀ (T : Type) (L : Logic T) (ep : Predicate → T), e.eval L ep = e'.eval L ep := by
  have move : ∀ {t t' i i'}, CfgInner t i → CfgInner t' i' → ReadsAs i ts → ReadsAs i' ts →
      ∀ e, Expression.parse checks t = .ok e → ∃ trees, Parses checks t' i' ts trees ∧ Parses checks t i ts trees ∧ Holds e trees := by
    intro t t' i i' hi hi' hr hr' e he
    obtain ⟨us, trees, hp, hh⟩ := parse_sound he
    have h1 := hp.isInner.unique hi
    rw [h1] at hp
    have h2 := hp.reads.unique hr
    subst h2
    exact ⟨trees, ⟨hi', hr', hp.body, hp.counts, hp.ne, hp.one⟩, hp, hh⟩
  refine ⟨⟨?_, ?_⟩, ?_⟩
  · rintro ⟨e, he⟩
    obtain ⟨trees, hp, _⟩ := move h h' hr hr' e he
    obtain ⟨e', he', _⟩ := parse_complete hp
    exact ⟨e', he'⟩
  · rintro ⟨e, he⟩
    obtain ⟨trees, hp, _⟩ := move h' h hr' hr e he
    obtain ⟨e', he', _⟩ := parse_complete hp
    exact ⟨e', he'⟩
  · intro e e' he he' T L ep
    obtain ⟨trees, hp, hq, hh⟩ := move h h' hr hr' e he
    obtain ⟨trees', hp', hq', hh'⟩ := move h' h hr' hr e' he'
    rw [hh.eval, hh'.eval, hq.unique hp']

example : ReadsAs "all( a )".toList [.all, .openParen, .key ['a'], .closeParen] ∧
    ReadsAs "all(a)".toList [.all, .openParen, .key ['a'], .closeParen] := by
  have ha : (Token.key ['a']).WF :=
    ⟨⟨'a', [], rfl, by rw [← isIdentStart_iff]; decide, by simp⟩, by decide, by decide, by decide⟩
  constructor
  · refine .cons [] .all _ _ (by simp) trivial ?_ ?_
    · intro _ c hc; simp at hc; subst hc; rw [← isIdentRest_iff]; decide
    refine .cons [] .openParen _ _ (by simp) trivial (fun h => h.elim) ?_
    refine .cons [' '] (.key ['a']) _ _ (by decide) ha ?_ ?_
    · intro _ c hc; simp at hc; subst hc; rw [← isIdentRest_iff]; decide
    exact .cons [' '] .closeParen [] _ (by decide) trivial (fun h => h.elim) (.nil [] (by simp))
  · refine .cons [] .all _ _ (by simp) trivial ?_ ?_
    · intro _ c hc; simp at hc; subst hc; rw [← isIdentRest_iff]; decide
    refine .cons [] .openParen _ _ (by simp) trivial (fun h => h.elim) ?_
    refine .cons [] (.key ['a']) _ _ (by simp) ha ?_ ?_
    · intro _ c hc; simp at hc; subst hc; rw [← isIdentRest_iff]; decide
    exact .cons [] .closeParen [] _ (by simp) trivial (fun h => h.elim) (.nil [] (by simp))

/-! ### C39: error positions -/

/-- C39: every rejection is a parse error that carries the text and a span inside it. -/
theorem C39_span (checks : Bool) (text : Str) (err : Err) (h : Expression.parse checks text = .err err) :
    ∃ pe, err = .cfgParse pe ∧ CfgInner text pe.original ∧ pe.span.start ≤ pe.span.stop ∧
      pe.span.stop ≤ utf8Len pe.original := by
  obtain ⟨inner, hi, pe, h1, h2, h3, h4⟩ := parse_err h
  subst h2
  exact ⟨pe, h1, hi, h3, h4⟩

/-- C39: the message shows the text, and the mark in the line below starts inside the text and does not extend beyond it. -/
theorem C39_display (checks : Bool) (text : Str) (err : Err) (h : Expression.parse checks text = .err err) :
    ∃ pe blanks mark n msg, err = .cfgParse pe ∧ CfgInner text pe.original ∧
      pe.display = pe.original ++ '\n' :: (List.replicate blanks ' ' ++ List.replicate n mark ++ ' ' :: msg) ∧
      (mark = '^' ∨ mark = '-') ∧ blanks ≤ utf8Len pe.original ∧ (n = 1 ∨ blanks + n ≤ utf8Len pe.original) := by
  obtain ⟨pe, h1, h2, h3, h4⟩ := C39_span checks text err h
  have key : ∃ mark n msg, pe.display = pe.original ++ '\n' :: (List.replicate pe.span.start ' ' ++ List.replicate n mark ++ ' ' :: msg) ∧
      (mark = '^' ∨ mark = '-') ∧ (n = 1 ∨ pe.span.start + n ≤ utf8Len pe.original) := by
    unfold ParseError.display
    cases hr : pe.reason with
    | unclosedParens => exact ⟨'-', 1, _, by simp; rfl, Or.inr rfl, Or.inl rfl⟩
    | unclosedQuotes => exact ⟨'-', 1, _, by simp; rfl, Or.inr rfl, Or.inl rfl⟩
    | unopenedParens => exact ⟨'^', 1, _, by simp; rfl, Or.inl rfl, Or.inl rfl⟩
    | invalidNot k => exact ⟨'^', pe.span.stop - pe.span.start, _, by simp only [List.append_assoc]; rfl, Or.inl rfl, Or.inr (by omega)⟩
    | empty => exact ⟨'^', pe.span.stop - pe.span.start, _, by simp only [List.append_assoc]; rfl, Or.inl rfl, Or.inr (by omega)⟩
    | unexpected l => exact ⟨'^', pe.span.stop - pe.span.start, _, by simp only [List.append_assoc]; rfl, Or.inl rfl, Or.inr (by omega)⟩
    | multipleRootPredicates => exact ⟨'^', pe.span.stop - pe.span.start, _, by simp only [List.append_assoc]; rfl, Or.inl rfl, Or.inr (by omega)⟩
  obtain ⟨mark, n, msg, k1, k2, k3⟩ := key
  exact ⟨pe, pe.span.start, mark, n, msg, h1, h2, k1, k2, by omega, k3⟩

/-- The message of the error, if there is one. -/
def shownError (r : Res Expression) : Option Str :=
  match r with
  | .err (.cfgParse e) => some e.display
  | _ => none

example : shownError (Expression.parse true "cfg(not(é, b))".toList) =
      some "not(é, b)\n    ^ expected one of `<key>`, `all`, `any`, `not` here".toList ∧
    shownError (Expression.parse true "cfg(not(a, b))".toList) =
      some "not(a, b)\n^^^^^^^^^ not() takes 1 predicate, found 2".toList := by decide +kernel

/-! ### C40 and C42: the cfg set -/

/-- C42: the parsed set contains exactly the flags and the pairs with non-empty values that are printed, one per line. -/
theorem C42_contents (ls : List Str) (last : Str) (h : ∀ l ∈ ls, '\n' ∉ l) (hl : '\n' ∉ last) :
    ∃ c, CfgSet.parse (printed ls last) = some c ∧ (∀ f, f ∈ c.flags ↔ ∃ l ∈ ls ++ [last], PrintsFlag l f) ∧
      (∀ k v, (∃ vs, CfgSet.values c.keyValues k = some vs ∧ v ∈ vs) ↔ v ≠ [] ∧ ∃ l ∈ ls ++ [last], PrintsPair l k v) :=
  parse_printed ls last h hl

/-- C42: reading the output never panics. -/
theorem C42_no_panic (s : Str) : ∃ c, CfgSet.parse s = some c := by
  obtain ⟨ls, last, rfl, h1, h2⟩ := exists_printed s
  obtain ⟨c, hc, _⟩ := parse_printed ls last h1 h2
  exact ⟨c, hc⟩

/-- C42: a line that prints neither a flag nor a pair with a value does not affect the value of any predicate. -/
theorem C42_malformed (ls ms : List Str) (l last : Str) (h : ∀ x ∈ ls ++ l :: ms, '\n' ∉ x) (hl : '\n' ∉ last)
    (hf : ∀ f, ¬ PrintsFlag l f) (hp : ∀ k v, v ≠ [] → ¬ PrintsPair l k v) :
    ∃ c c', CfgSet.parse (printed (ls ++ l :: ms) last) = some c ∧ CfgSet.parse (printed (ls ++ ms) last) = some c' ∧
      ∀ p, c.holds p = c'.holds p := by
  obtain ⟨c, h1, h2, h3⟩ := parse_printed (ls ++ l :: ms) last h hl
  obtain ⟨c', h1', h2', h3'⟩ := parse_printed (ls ++ ms) last (fun x hx => h x (by
    simp only [List.mem_append, List.mem_cons] at hx ⊢
    exact hx.imp_right Or.inr)) hl
  refine ⟨c, c', h1, h1', fun p => ?_⟩
  rw [Bool.eq_iff_iff]
  cases p with
  | flag f =>
    rw [holds_flag, holds_flag, h2, h2']
    have : (∃ x ∈ ls ++ l :: ms ++ [last], PrintsFlag x f) ↔ ∃ x ∈ ls ++ ms ++ [last], PrintsFlag x f := by
      constructor
      · rintro ⟨x, hx, hpx⟩
        simp only [List.mem_append, List.mem_cons, List.mem_singleton] at hx
        rcases hx with (hx | rfl | hx) | hx
        · exact ⟨x, by simp [hx], hpx⟩
        · exact (hf f hpx).elim
        · exact ⟨x, by simp [hx], hpx⟩
        · simp at hx; exact ⟨x, by simp [hx], hpx⟩
      · rintro ⟨x, hx, hpx⟩
        simp only [List.mem_append, List.mem_singleton] at hx
        rcases hx with (hx | hx) | hx <;> exact ⟨x, by simp [hx], hpx⟩
    rw [this]
  | keyValue k v =>
    rw [holds_keyValue, holds_keyValue, h3, h3']
    have : (v ≠ [] ∧ ∃ x ∈ ls ++ l :: ms ++ [last], PrintsPair x k v) ↔ v ≠ [] ∧ ∃ x ∈ ls ++ ms ++ [last], PrintsPair x k v := by
      constructor
      · rintro ⟨hv, x, hx, hpx⟩
        refine ⟨hv, ?_⟩
        simp only [List.mem_append, List.mem_cons, List.mem_singleton] at hx
        rcases hx with (hx | rfl | hx) | hx
        · exact ⟨x, by simp [hx], hpx⟩
        · exact (hp k v hv hpx).elim
        · exact ⟨x, by simp [hx], hpx⟩
        · simp at hx; exact ⟨x, by simp [hx], hpx⟩
      · rintro ⟨hv, x, hx, hpx⟩
        refine ⟨hv, ?_⟩
        simp only [List.mem_append, List.mem_singleton] at hx
        rcases hx with (hx | hx) | hx <;> exact ⟨x, by simp [hx], hpx⟩
    rw [this]

/-- C40: `test`, `debug_assertions` and `proc_macro` are false; any other flag is true exactly if rustc prints it. -/
theorem C40_flag (ls : List Str) (last : Str) (h : ∀ l ∈ ls, '\n' ∉ l) (hl : '\n' ∉ last) :
    ∃ c, CfgSet.parse (printed ls last) = some c ∧ ∀ f, c.holds (.flag f) = true ↔
      f ≠ "test".toList ∧ f ≠ "debug_assertions".toList ∧ f ≠ "proc_macro".toList ∧ ∃ l ∈ ls ++ [last], PrintsFlag l f := by
  obtain ⟨c, h1, h2, _⟩ := parse_printed ls last h hl
  refine ⟨c, h1, fun f => ?_⟩
  rw [holds_flag, h2]

/-- C40: `feature = ".."` is false; any other pair is true exactly if rustc prints it and its value is not empty. -/
theorem C40_pair (ls : List Str) (last : Str) (h : ∀ l ∈ ls, '\n' ∉ l) (hl : '\n' ∉ last) :
    ∃ c, CfgSet.parse (printed ls last) = some c ∧ ∀ k v, c.holds (.keyValue k v) = true ↔
      k ≠ "feature".toList ∧ v ≠ [] ∧ ∃ l ∈ ls ++ [last], PrintsPair l k v := by
  obtain ⟨c, h1, _, h3⟩ := parse_printed ls last h hl
  refine ⟨c, h1, fun k v => ?_⟩
  rw [holds_keyValue, h3]

/-- A typical output: the flag, the pair and the pair without value. -/
example : ∃ c, CfgSet.parse "debug_assertions\nunix\r\ntarget_os=\"linux\"\ntarget_env=\"\"\nbroken=x\n".toList = some c ∧
    c.holds (.flag "unix".toList) = true ∧ c.holds (.flag "debug_assertions".toList) = false ∧
    c.holds (.keyValue "target_os".toList "linux".toList) = true ∧ c.holds (.keyValue "target_env".toList []) = false :=
  ⟨_, rfl, by decide, by decide, by decide, by decide⟩
example : PrintsPair "target_os=\"linux\"\r".toList "target_os".toList "linux".toList := by
  refine ⟨⟨[], ['\r'], rfl, by simp, by decide, ?_⟩, by decide⟩
  constructor <;> intro c hc <;> simp at hc <;> subst hc <;> decide

/-! ### C41: three values -/

/-- C41: if three-valued evaluation decides the expression, then so does every way of deciding the unknown predicates. -/
theorem C41_sound (e : Expression) (ep : Predicate → Option Bool) (v : Predicate → Bool)
    (hv : ∀ p b, ep p = some b → v p = b) (b : Bool) (h : e.eval optLogic ep = some (some b)) : e.eval boolLogic v = some b := by
  have hv' : ∀ p, Approx (ep p) (v p) := by
    intro p
    cases hp : ep p with
    | none => exact Or.inl rfl
    | some b => exact Or.inr (by rw [hv p b hp])
  have := approx_nodes hv' e.original e.expr [] [] trivial
  unfold Expression.eval at h ⊢
  cases h1 : evalNodes optLogic ep e.original [] e.expr with
  | none => rw [h1] at h; cases h
  | some xs =>
    rw [h1] at this h
    cases h2 : evalNodes boolLogic v e.original [] e.expr with
    | none => rw [h2] at this; exact this.elim
    | some bs =>
      rw [h2] at this
      cases xs <;> cases bs
      · cases h
      · exact this.elim
      · exact this.elim
      · simp at h
        subst h
        have h3 := this.1
        rcases h3 with h3 | h3
        · cases h3
        · cases h3; rfl

/-- C41: evaluation with all predicates known is ordinary evaluation. -/
theorem C41_known (e : Expression) (v : Predicate → Bool) :
    e.eval optLogic (fun p => some (v p)) = (e.eval boolLogic v).map some := by
  have hop : ∀ (op : Option Bool → Option Bool → Option Bool) (op' : Bool → Bool → Bool),
      (∀ a b, op (some a) (some b) = some (op' a b)) → ∀ n a (bs : List Bool),
      popFold op n (some a) (bs.map some) = (popFold op' n a bs).map fun (r, st) => (some r, st.map some) := by
    intro op op' hop n
    induction n with
    | zero => intro a bs; rfl
    | succ n ih =>
      intro a bs
      cases bs with
      | nil => rfl
      | cons b bs => simp only [List.map_cons, popFold, hop, ih]
  have node : ∀ (n : ExprNode) (bs : List Bool), evalNode optLogic (fun p => some (v p)) e.original (bs.map some) n =
      (evalNode boolLogic v e.original bs n).map (List.map some) := by
    intro n bs
    cases n with
    | predicate p => simp only [evalNode]; cases p.toPred e.original <;> rfl
    | fn f =>
      cases f with
      | all n =>
        have := hop optLogic.and boolLogic.and (by intro a b; cases a <;> cases b <;> rfl) n true bs
        simp only [evalNode]
        rw [show optLogic.top = some true from rfl, this, show boolLogic.top = true from rfl]
        cases popFold boolLogic.and n true bs <;> rfl
      | any n =>
        have := hop optLogic.or boolLogic.or (by intro a b; cases a <;> cases b <;> rfl) n false bs
        simp only [evalNode]
        rw [show optLogic.bottom = some false from rfl, this, show boolLogic.bottom = false from rfl]
        cases popFold boolLogic.or n false bs <;> rfl
      | not =>
        cases bs <;> rfl
  have nodes : ∀ (ns : List ExprNode) (bs : List Bool), evalNodes optLogic (fun p => some (v p)) e.original (bs.map some) ns =
      (evalNodes boolLogic v e.original bs ns).map (List.map some) := by
    intro ns
    induction ns with
    | nil => intro bs; rfl
    | cons n ns ih =>
      intro bs
      simp only [evalNodes, node]
      cases evalNode boolLogic v e.original bs n with
      | none => rfl
      | some st => exact ih st
  unfold Expression.eval
  have := nodes e.expr []
  rw [List.map_nil] at this
  rw [this]
  cases evalNodes boolLogic v e.original [] e.expr with
  | none => rfl
  | some bs => cases bs <;> rfl

/-- C41: three-valued evaluation decides an expression of the grammar exactly if it is decided by the known predicates,
operand by operand. -/
theorem C41_decides (checks : Bool) (text : Str) (t : CfgTree) (e : Expression) (h : IsCfg text t) (hn : t.AllFns Narrow)
    (he : Expression.parse checks text = .ok e) (ep : Predicate → Option Bool) :
    ∃ r, e.eval optLogic ep = some r ∧ ∀ b, r = some b ↔ t.decided ep b = true := by
  have hh := isCfg_expr h he
  refine ⟨optValue ep t, ?_, ?_⟩
  · rw [hh.eval]
    obtain ⟨_, _, hq⟩ := h.parses (checks := true) (fun _ => hn)
    simp only [List.flatMap_cons, List.flatMap_nil, List.append_nil]
    rw [post_opt ep t [] hq.counts.1]
    rfl
  · intro b
    obtain ⟨_, _, _, _, _, hu⟩ := h
    rw [← optValue_decided ep b t hu]
    simp

/-- An undecided predicate that does not matter, and one that does. -/
example : ((Expression.parse true "any(a, b)".toList).toOption.bind fun e =>
      e.eval optLogic fun p => if p = .flag "a".toList then some true else none) = some (some true) ∧
    ((Expression.parse true "all(a, b)".toList).toOption.bind fun e =>
      e.eval optLogic fun p => if p = .flag "a".toList then some true else none) = some none := by decide +kernel

/-- An expression of the grammar, with its formula. -/
example : IsCfg (wideText 2) (.fn .all [.fn .any [], .fn .any []]) ∧
    CfgTree.AllFns Narrow (.fn .all [.fn .any [], .fn .any []]) :=
  ⟨isCfg_wideText 2, by
    refine ⟨?_, ⟨?_, trivial⟩, ⟨?_, trivial⟩, trivial⟩ <;> (unfold Narrow; decide)⟩

/-- `cfg(all(unix, not(os = "m")))`. -/
def typicalText : Str := "cfg(all(unix, not(os = \"m\")))".toList

def typicalTree : CfgTree := .fn .all [.pred (.flag "unix".toList), .fn .not [.pred (.keyValue "os".toList "m".toList)]]

theorem sample_isCfg : IsCfg typicalText typicalTree ∧ typicalTree.AllFns Narrow := by
  have hkey : ∀ s ∈ ["unix".toList, "os".toList], (Token.key s).WF := by
    intro s hs
    have h : s.head?.any isIdentStart = true ∧ s.all isIdentRest = true ∧ s ≠ Token.all.text ∧ s ≠ Token.any.text ∧
        s ≠ Token.not.text := by
      revert s; decide +kernel
    obtain ⟨h1, h2, h3⟩ := h
    cases s with
    | nil => cases h1
    | cons c r =>
      refine ⟨⟨c, r, rfl, (isIdentStart_iff _).1 h1, fun d hd => (isIdentRest_iff _).1 ?_⟩, h3⟩
      exact List.all_eq_true.1 h2 d (List.mem_cons_of_mem _ hd)
  have hrest : ∀ c ∈ ['(', ',', ' '], ¬ IdentRest c := by
    intro c hc
    rw [← isIdentRest_iff]
    revert c; decide +kernel
  refine ⟨⟨"all(unix, not(os = \"m\"))".toList, [.all, .openParen, .key "unix".toList, .comma, .not, .openParen, .key "os".toList,
    .equals, .value "m".toList, .closeParen, .closeParen], Or.inl (by decide +kernel), ?_, ?_, ?_⟩, ?_⟩
  rotate_left
  · refine .fn .all _ .item _ (.item [.pred (.flag "unix".toList)] .comma _ _ _ (.comma _ .item _ (.item [] .start [] _ _ .start (by simp)
      (.flag _)) (Or.inl rfl)) (by simp) (.fn .not _ .item _ (.item [] .start [] _ _ .start (by simp) (.keyValue _ _))))
  · simp [typicalTree, CfgTree.AllFns, CfgTree.AllFnsList, NotUnary]
  · simp [typicalTree, CfgTree.AllFns, CfgTree.AllFnsList, Narrow, CfgTree.isFn]
  · refine .cons [] .all "(unix, not(os = \"m\"))".toList _ (by simp) trivial (fun _ c hc => hrest c ?_) ?_
    · cases hc; decide
    refine .cons [] .openParen "unix, not(os = \"m\"))".toList _ (by simp) trivial (fun h => h.elim) ?_
    refine .cons [] (.key "unix".toList) ", not(os = \"m\"))".toList _ (by simp) (hkey _ (by simp)) (fun _ c hc => hrest c ?_) ?_
    · cases hc; decide
    refine .cons [] .comma " not(os = \"m\"))".toList _ (by simp) trivial (fun h => h.elim) ?_
    refine .cons [' '] .not "(os = \"m\"))".toList _ (by decide) trivial (fun _ c hc => hrest c ?_) ?_
    · cases hc; decide
    refine .cons [] .openParen "os = \"m\"))".toList _ (by simp) trivial (fun h => h.elim) ?_
    refine .cons [] (.key "os".toList) " = \"m\"))".toList _ (by simp) (hkey _ (by simp)) (fun _ c hc => hrest c ?_) ?_
    · cases hc; decide
    refine .cons [' '] .equals " \"m\"))".toList _ (by decide) trivial (fun h => h.elim) ?_
    refine .cons [' '] (.value "m".toList) "))".toList _ (by decide) (by unfold Token.WF; decide) (fun h => h.elim) ?_
    refine .cons [] .closeParen ")".toList _ (by simp) trivial (fun h => h.elim) ?_
    exact .cons [] .closeParen [] _ (by simp) trivial (fun h => h.elim) (.nil [] (by simp))

/-- It is accepted, and true exactly if `unix` is set and `os` is not `m`. -/
example : ∃ e, Expression.parse true typicalText = .ok e ∧ ∀ v, e.eval boolLogic v =
    some (v (.flag "unix".toList) && !v (.keyValue "os".toList "m".toList)) := by
  obtain ⟨e, he⟩ := C35_accepts true _ _ sample_isCfg.1 fun _ => sample_isCfg.2
  refine ⟨e, he, fun v => (C36_value true _ _ e sample_isCfg.1 sample_isCfg.2 he v).trans ?_⟩
  simp [typicalTree, CfgTree.value, CfgTree.allValues]

/-- Without knowing `os`, it is undecided if `unix` is set, and false otherwise. -/
example : ∃ e, Expression.parse true typicalText = .ok e ∧
    ∀ b, e.eval optLogic (fun p => if p = .flag "unix".toList then some b else none) = some (if b then none else some false) := by
  obtain ⟨e, he⟩ := C35_accepts true _ _ sample_isCfg.1 fun _ => sample_isCfg.2
  refine ⟨e, he, fun b => ?_⟩
  obtain ⟨r, hr, hb⟩ := C41_decides true _ _ e sample_isCfg.1 sample_isCfg.2 he (fun p => if p = .flag "unix".toList then some b else none)
  rw [hr]
  have h1 := hb true
  have h2 := hb false
  simp [typicalTree, CfgTree.decided, CfgTree.allDecided, CfgTree.anyDecided] at h1 h2
  cases b with
  | true =>
    simp at h1 h2
    rcases r with _ | _ | _ <;> simp at h1 h2 ⊢
  | false => simp at h2; simp [h2]

/-- The texts outside the grammar that are accepted: the last formula counts. -/
example : ∃ trees, IsCfgList "all(a), b".toList trees ∧ CfgTree.AllFnsList NotUnaryMod trees ∧
    (true = true → CfgTree.AllFnsList Narrow trees) :=
  (C35_accepted_iff_partial true "all(a), b".toList).1 ⟨_, rfl⟩

example : ∃ trees e, IsCfgList "all(a), b".toList trees ∧ Expression.parse true "all(a), b".toList = .ok e ∧
    ∀ v, e.eval boolLogic v = (trees.getLast?).map (CfgTree.value v) := by
  obtain ⟨trees, h1, h2, h3⟩ := (C35_accepted_iff_partial true "all(a), b".toList).1 ⟨_, rfl⟩
  obtain ⟨e, he⟩ := C36_last_root true _ trees h1 h2 (h3 rfl)
  exact ⟨trees, e, h1, he⟩

/-- With the checks of overflow, the value and the evaluation of the typical text. -/
example : ∃ e, Expression.parse true typicalText = .ok e ∧ (∀ v, e.eval boolLogic v = some (typicalTree.value v)) ∧
    ∃ x, e.eval optLogic (fun _ => none) = some x := by
  obtain ⟨e, he⟩ := C35_accepts true _ _ sample_isCfg.1 fun _ => sample_isCfg.2
  exact ⟨e, he, C36_value_checked _ _ e sample_isCfg.1 he, C37_eval true _ e he optLogic _⟩

example : Expression.parse true typicalText ≠ .panic := C37_parse_checked_partial _ (by decide +kernel)

example : Expression.parse false (brokenText 255) ≠ .panic := C37_parse _

/-- A rejected text. -/
example : ∃ pe, Expression.parse true "cfg(all(a,".toList = .err (.cfgParse pe) ∧ CfgInner "cfg(all(a,".toList pe.original ∧
    pe.span.start ≤ pe.span.stop ∧ pe.span.stop ≤ utf8Len pe.original := by
  cases h : Expression.parse true "cfg(all(a,".toList with
  | err e =>
    obtain ⟨pe, rfl, h1⟩ := C39_span true _ _ h
    exact ⟨pe, rfl, h1⟩
  | ok e =>
    have h2 : (Expression.parse true "cfg(all(a,".toList).isErr = true := by decide +kernel
    rw [h] at h2; cases h2
  | panic =>
    have h2 : (Expression.parse true "cfg(all(a,".toList).isErr = true := by decide +kernel
    rw [h] at h2; cases h2

/-- What rustc prints, as in C40 and C42. -/
example : ∃ c, CfgSet.parse (printed ["unix".toList, "target_os=\"linux\"".toList] []) = some c ∧
    (∀ f, c.holds (.flag f) = true ↔ f ≠ "test".toList ∧ f ≠ "debug_assertions".toList ∧ f ≠ "proc_macro".toList ∧
      ∃ l ∈ ["unix".toList, "target_os=\"linux\"".toList] ++ [[]], PrintsFlag l f) :=
  C40_flag _ _ (by decide) (by decide)

example : ∃ c, CfgSet.parse (printed ["unix".toList, "target_os=\"linux\"".toList] []) = some c ∧
    (∀ f, f ∈ c.flags ↔ ∃ l ∈ ["unix".toList, "target_os=\"linux\"".toList] ++ [[]], PrintsFlag l f) := by
  obtain ⟨c, h1, h2, -⟩ := C42_contents ["unix".toList, "target_os=\"linux\"".toList] [] (by decide) (by decide)
  exact ⟨c, h1, h2⟩

example : ∃ c, CfgSet.parse "=\"\"\n\n\"=".toList = some c := C42_no_panic _

/-- If `a` is true then `any(a, b)` is, whatever `b` is. -/
example (v : Predicate → Bool) (hv : v (.flag "a".toList) = true) : ∃ e, Expression.parse true "any(a, b)".toList = .ok e ∧
    e.eval boolLogic v = some true := by
  refine ⟨_, rfl, C41_sound _ (fun p => if p = .flag "a".toList then some true else none) v (fun p b h => ?_) true (by decide +kernel)⟩
  split at h
  · rename_i hp
    rw [hp, hv]
    exact Option.some.inj h
  · cases h

example (v : Predicate → Bool) : ∃ e, Expression.parse true "any(a, b)".toList = .ok e ∧
    e.eval optLogic (fun p => some (v p)) = (e.eval boolLogic v).map some := ⟨_, rfl, C41_known _ v⟩

/-- C38: white space, here and in all other specifications, are the characters with the Unicode property White_Space. -/
theorem C38_white_space (c : Char) : isWhitespace c = true ↔ WhiteSpace c := by
  unfold isWhitespace WhiteSpace
  generalize c.toNat = n
  simp only [Bool.or_eq_true, Bool.and_eq_true, decide_eq_true_eq, beq_iff_eq, List.mem_cons, List.not_mem_nil, or_false]
  omega

/-- Tab, no-break space and the ideographic space are white space; the zero-width space is not. -/
example : WhiteSpace '\t' ∧ WhiteSpace ' ' ∧ WhiteSpace '　' ∧ ¬ WhiteSpace '​' := by unfold WhiteSpace; decide

end CC
