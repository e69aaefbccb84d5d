import Verif.Lemmas.CfgPlace
/-
Helper lemmas: why a text is rejected as cfg expression.
-/
namespace CC

/-! ### The lexer -/

theorem next_err {l : Lexer} {e : Err} (h : l.next = some (.err e)) :
    ∃ w c post, l.inner = w ++ c :: post ∧ (∀ x ∈ w, isWhitespace x = true) ∧
      ((c = '"' ∧ '"' ∉ post ∧ .err e = (cfgErr l.original (l.offset + utf8Len w) (utf8Len l.original) .unclosedQuotes : Res Token)) ∨
       (isWhitespace c = false ∧ (∀ t : Token, t.WF → t.text.head? ≠ some c) ∧
        .err e = (cfgErr l.original (l.offset + utf8Len w) (l.offset + utf8Len w + 1) (.unexpected beginnings) : Res Token))) := by
  rcases split_first (fun c => !isWhitespace c) l.inner with hall | ⟨w, c, post, hi, hw, hc⟩
  · rw [next_end (fun c hc => by simpa using hall c hc)] at h
    cases h
  · have hw' : ∀ x ∈ w, isWhitespace x = true := fun x hx => by simpa using hw x hx
    have hc' : isWhitespace c = false := by simpa using hc
    refine ⟨w, c, post, hi, hw', ?_⟩
    unfold Lexer.next at h
    rw [skipWs_append hi hw' (by intro d hd; simp at hd; subst hd; exact hc')] at h
    simp only at h
    generalize hr : Lexer.recognise ⟨c :: post, l.original, l.offset + utf8Len w⟩ = r at h
    have hre : r = some (.err e) := by
      cases r with
      | none => cases h
      | some r =>
        cases r with
        | ok t =>
          simp only at h
          split at h <;> cases h
        | err e' => simp only [Option.some.injEq, Res.err.injEq] at h; rw [h]
        | panic => cases h
    rw [hre] at hr
    unfold Lexer.recognise at hr
    simp only at hr
    split at hr
    · cases hr
    split at hr
    · cases hr
    split at hr
    · cases hr
    split at hr
    · cases hr
    rename_i n1 n2 n3 n4
    split at hr
    next hq =>
      left
      subst hq
      have e1 : sliceFrom ('"' :: post) 1 = some post := by
        have := sliceFrom_append_self ['"'] post
        have e2 : utf8Len ['"'] = 1 := by decide
        rw [e2] at this
        exact this
      rw [e1] at hr
      simp only at hr
      rcases split_first (fun c => c == '"') post with hno | ⟨a, d, b, rfl, ha, hd⟩
      · rw [strFind_none post hno] at hr
        simp only [Option.some.injEq] at hr
        refine ⟨rfl, fun hm => ?_, hr.symm⟩
        have := hno _ hm
        simp at this
      · rw [strFind_append a d b ha hd] at hr
        simp only at hr
        split at hr <;> cases hr
    next hq =>
      right
      split at hr
      next hs =>
        exfalso
        split at hr
        · cases hr
        · split at hr
          · cases hr
          · split at hr
            · cases hr
            · split at hr
              · cases hr
              · split at hr <;> cases hr
      next hs =>
        simp only [Option.some.injEq] at hr
        refine ⟨hc', ?_, hr.symm⟩
        intro t ht hh
        cases t with
        | key s =>
          obtain ⟨⟨x, y, rfl, hx, _⟩, _⟩ := ht
          simp only [Token.text, List.head?_cons, Option.some.injEq] at hh
          subst hh
          exact hs ((isIdentStart_iff x).2 hx)
        | value s => simp only [Token.text, List.head?_cons, Option.some.injEq] at hh; exact hq hh.symm
        | equals => simp only [Token.text, List.head?_cons, Option.some.injEq] at hh; exact n1 hh.symm
        | openParen => simp only [Token.text, List.head?_cons, Option.some.injEq] at hh; exact n2 hh.symm
        | closeParen => simp only [Token.text, List.head?_cons, Option.some.injEq] at hh; exact n3 hh.symm
        | comma => simp only [Token.text, List.head?_cons, Option.some.injEq] at hh; exact n4 hh.symm
        | all => simp only [Token.text, List.head?_cons, Option.some.injEq] at hh; subst hh; exact hs (by decide)
        | any => simp only [Token.text, List.head?_cons, Option.some.injEq] at hh; subst hh; exact hs (by decide)
        | not => simp only [Token.text, List.head?_cons, Option.some.injEq] at hh; subst hh; exact hs (by decide)

theorem LexErr.why {l : Lexer} {lts : List LexerToken} {a b : Nat} {r : Reason} (h : LexErr l lts a b r) :
    ∃ pre c post, l.inner = pre ++ c :: post ∧ ReadsAs pre (lts.map (·.token)) ∧ a = l.offset + utf8Len pre ∧
      ((c = '"' ∧ '"' ∉ post ∧ r = .unclosedQuotes ∧ b = utf8Len l.original) ∨
       (isWhitespace c = false ∧ (∀ t : Token, t.WF → t.text.head? ≠ some c) ∧ r = .unexpected beginnings ∧ b = a + 1)) := by
  induction h with
  | here l a b r hn _ _ =>
    obtain ⟨w, c, post, h1, h2, h3⟩ := next_err hn
    refine ⟨w, c, post, h1, .nil w h2, ?_⟩
    rcases h3 with ⟨h4, h5, h6⟩ | ⟨h4, h5, h6⟩
    · simp only [cfgErr, Res.err.injEq, Err.cfgParse.injEq, ParseError.mk.injEq, Span.mk.injEq, true_and] at h6
      exact ⟨h6.1.1, Or.inl ⟨h4, h5, h6.2, h6.1.2⟩⟩
    · simp only [cfgErr, Res.err.injEq, Err.cfgParse.injEq, ParseError.mk.injEq, Span.mk.injEq, true_and] at h6
      exact ⟨h6.1.1, Or.inr ⟨h4, h5, h6.2, by rw [h6.1.2, h6.1.1]⟩⟩
  | cons off orig w t rest lts a b r h1 h2 h3 h4 ih =>
    obtain ⟨pre, c, post, h5, h6, h7, h8⟩ := ih
    simp only at h5 h7
    refine ⟨w ++ t.text ++ pre, c, post, by simp [h5], .cons w t pre _ h1 h2 ?_ h6, ?_, h8⟩
    · intro hw d hd
      refine h3 hw d ?_
      rw [h5]
      cases pre with
      | nil => cases hd
      | cons y pre => exact hd
    · rw [h7, utf8Len_append, utf8Len_append, Token.len_eq]; simp only; omega

/-! ### The parser follows the automaton -/

def PState.depth (s : PState) : Nat := if afterFn s.last then s.stack.length - 1 else s.stack.length

theorem afterFn_key (k : Str) : afterFn (some (.key k)) = false := rfl
theorem afterFn_value (k : Str) : afterFn (some (.value k)) = false := rfl
theorem afterFn_equals : afterFn (some .equals) = false := rfl
theorem afterFn_open : afterFn (some .openParen) = false := rfl
theorem afterFn_close : afterFn (some .closeParen) = false := rfl
theorem afterFn_comma : afterFn (some .comma) = false := rfl
theorem afterFn_all : afterFn (some .all) = true := rfl
theorem afterFn_any : afterFn (some .any) = true := rfl
theorem afterFn_not : afterFn (some .not) = true := rfl

theorem step_scan {checks : Bool} {original : Str} {s s' : PState} {lt : LexerToken} (hne : afterFn s.last = true → s.stack ≠ [])
    (h : s.step checks original lt = .ok s') :
    scanStep (s.depth, s.last) lt.token = some (s'.depth, s'.last) ∧ (afterFn s'.last = true → s'.stack ≠ []) := by
  obtain ⟨s1, h1, h2⟩ := Res.bind_ok h
  have h2 := Res.ok.inj h2
  subst h2
  have starts : startsItem s.last = true → afterFn s.last = false := by
    cases s.last with
    | none => intro _; rfl
    | some t => cases t <;> intro h <;> first | rfl | cases h
  have hopen : ∀ f, lt.token = FnName.token f → s.openFn checks original f lt = .ok s1 →
      scanStep (s.depth, s.last) lt.token = some (PState.depth { s1 with last := some lt.token }, some lt.token) ∧
      (afterFn (some lt.token) = true → s1.stack ≠ []) := by
    intro f hf h1
    unfold PState.openFn at h1
    split at h1
    next hs =>
      have ha := starts hs
      have key : s1.stack.length = s.stack.length + 1 := by
        simp only at h1
        split at h1
        next he => have h1 := Res.ok.inj h1; subst h1; simp [he]
        next fs rest he =>
          split at h1
          · cases h1
          · have h1 := Res.ok.inj h1; subst h1; simp [he]
      rw [hf]
      constructor
      · unfold scanStep PState.depth
        rw [ha]
        cases f <;> simp [FnName.token, hs, afterFn_all, afterFn_any, afterFn_not, key]
      · intro _ h0; rw [h0] at key; cases key
    next => simp [tokenErr, cfgErr] at h1
  cases ht : lt.token with
  | key k =>
    rw [ht] at h1
    simp only at h1
    split at h1
    next hs =>
      have h1 := Res.ok.inj h1
      subst h1
      simp [scanStep, PState.depth, hs, starts hs, afterFn_key, afterFn_value, afterFn_equals, afterFn_open, afterFn_close, afterFn_comma]
    · simp [tokenErr, cfgErr] at h1
  | value k =>
    rw [ht] at h1
    simp only at h1
    split at h1
    next hs =>
      have h1 := Res.ok.inj h1
      subst h1
      have : afterFn s.last = false := by
        cases hl : s.last with
        | none => rfl
        | some t => rw [hl] at hs; cases t <;> first | rfl | cases hs
      simp [scanStep, PState.depth, hs, this, afterFn_key, afterFn_value, afterFn_equals, afterFn_open, afterFn_close, afterFn_comma]
    · simp [tokenErr, cfgErr] at h1
  | equals =>
    rw [ht] at h1
    simp only at h1
    split at h1
    next hs =>
      have h1 := Res.ok.inj h1
      subst h1
      have : afterFn s.last = false := by
        cases hl : s.last with
        | none => rfl
        | some t => rw [hl] at hs; cases t <;> first | rfl | cases hs
      simp [scanStep, PState.depth, hs, this, afterFn_key, afterFn_value, afterFn_equals, afterFn_open, afterFn_close, afterFn_comma]
    · simp [tokenErr, cfgErr] at h1
  | all => rw [ht] at h1; have := hopen .all ht h1; rw [ht] at this; exact this
  | any => rw [ht] at h1; have := hopen .any ht h1; rw [ht] at this; exact this
  | not => rw [ht] at h1; have := hopen .not ht h1; rw [ht] at this; exact this
  | openParen =>
    rw [ht] at h1
    simp only at h1
    split at h1
    next hs =>
      have hne := hne hs
      split at h1
      next fs rest he =>
        have h1 := Res.ok.inj h1
        subst h1
        simp [scanStep, PState.depth, hs, he, afterFn_key, afterFn_value, afterFn_equals, afterFn_open, afterFn_close, afterFn_comma]
      next he => exact (hne he).elim
    · simp [tokenErr, cfgErr] at h1
  | closeParen =>
    rw [ht] at h1
    simp only at h1
    unfold PState.close at h1
    split at h1
    · simp [tokenErr, cfgErr] at h1
    next hb =>
      have : afterFn s.last = false := by
        cases hl : s.last with
        | none => rfl
        | some t => rw [hl] at hb; cases t <;> first | rfl | exact (hb rfl).elim
      split at h1
      · simp [cfgErr] at h1
      next top rest he =>
        obtain ⟨f, _, h1⟩ := Res.bind_ok h1
        have h1 := Res.ok.inj h1
        subst h1
        simp [scanStep, PState.depth, hb, he, this, afterFn_key, afterFn_value, afterFn_equals, afterFn_open, afterFn_close, afterFn_comma]
  | comma =>
    rw [ht] at h1
    simp only at h1
    unfold PState.comma at h1
    split at h1
    · simp [tokenErr, cfgErr] at h1
    next hb =>
      have : afterFn s.last = false := by
        cases hl : s.last with
        | none => rfl
        | some t => rw [hl] at hb; cases t <;> first | rfl | exact (hb rfl).elim
      have key : s1.stack.length = s.stack.length := by
        simp only at h1
        split at h1
        · have h1 := Res.ok.inj h1; subst h1; rfl
        · split at h1
          next fs rest he => have h1 := Res.ok.inj h1; subst h1; simp [he]
          next he => have h1 := Res.ok.inj h1; subst h1; rfl
      simp [scanStep, PState.depth, hb, this, afterFn_comma, key]

theorem runTokens_scan {checks : Bool} {original : Str} {s s' : PState} {lts : List LexerToken}
    (hne : afterFn s.last = true → s.stack ≠ []) (h : runTokens checks original s lts = .ok s') :
    scanFrom (s.depth, s.last) (lts.map (·.token)) = some (s'.depth, s'.last) := by
  induction lts generalizing s with
  | nil => have := Res.ok.inj h; subst this; rfl
  | cons lt lts ih =>
    obtain ⟨s1, h1, h2⟩ := Res.bind_ok h
    obtain ⟨h3, h4⟩ := step_scan hne h1
    simp only [List.map_cons, scanFrom, h3, Option.bind_some]
    exact ih h4 h2

/-- The errors of a round. -/
theorem step_err {checks : Bool} {original : Str} {s : PState} {lt : LexerToken} {e : Err}
    (h : s.step checks original lt = .err e) :
    (.err e = (tokenErr original s.last lt.span : Res PState) ∧ scanStep (s.depth, s.last) lt.token = none ∧
      (lt.token = .closeParen → badBeforeClose s.last = true)) ∨
    (lt.token = .closeParen ∧ badBeforeClose s.last = false ∧ s.stack = [] ∧
      .err e = (cfgErr original lt.span.start lt.span.stop .unopenedParens : Res PState)) ∨
    (lt.token = .closeParen ∧ badBeforeClose s.last = false ∧ ∃ top rest n, s.stack = top :: rest ∧ top.func = .not ∧
      n = top.predicates.length + (if s.predKey.isSome then 1 else 0) + top.nestLevel ∧ n ≠ 1 ∧
      .err e = (cfgErr original top.span.start lt.span.stop (.invalidNot n) : Res PState)) := by
  have hb : ∀ {r : Res PState}, (r >>= fun s => .ok { s with last := some lt.token }) = .err e → r = .err e := by
    intro r h
    cases r with
    | ok s => cases h
    | err e' => exact h
    | panic => cases h
  have h := hb h
  have hopen : ∀ f, lt.token = FnName.token f → s.openFn checks original f lt = .err e →
      (.err e = (tokenErr original s.last lt.span : Res PState) ∧ scanStep (s.depth, s.last) lt.token = none ∧
      (lt.token = .closeParen → badBeforeClose s.last = true)) := by
    intro f hf h
    unfold PState.openFn at h
    split at h
    · simp only at h
      split at h
      · cases h
      · split at h <;> cases h
    next hs =>
      refine ⟨h.symm, ?_⟩
      rw [hf]
      cases f <;> simp [scanStep, FnName.token, hs]
  cases ht : lt.token with
  | key k =>
    rw [ht] at h
    simp only at h
    split at h
    · cases h
    next hs => exact Or.inl ⟨h.symm, by simp [scanStep, hs], by simp [hs]⟩
  | value k =>
    rw [ht] at h
    simp only at h
    split at h
    · cases h
    next hs => exact Or.inl ⟨h.symm, by simp [scanStep, hs], by simp [hs]⟩
  | equals =>
    rw [ht] at h
    simp only at h
    split at h
    · cases h
    next hs => exact Or.inl ⟨h.symm, by simp [scanStep, hs], by simp [hs]⟩
  | all => rw [ht] at h; have := hopen .all ht h; rw [ht] at this; exact Or.inl this
  | any => rw [ht] at h; have := hopen .any ht h; rw [ht] at this; exact Or.inl this
  | not => rw [ht] at h; have := hopen .not ht h; rw [ht] at this; exact Or.inl this
  | openParen =>
    rw [ht] at h
    simp only at h
    split at h
    · split at h <;> cases h
    next hs => exact Or.inl ⟨h.symm, by simp [scanStep, hs], by simp [hs]⟩
  | closeParen =>
    rw [ht] at h
    simp only at h
    unfold PState.close at h
    split at h
    next hs => exact Or.inl ⟨h.symm, by simp [scanStep, hs], by simp [hs]⟩
    next hs =>
      have hs' : badBeforeClose s.last = false := by simpa using hs
      split at h
      next he => exact Or.inr (Or.inl ⟨rfl, hs', he, h.symm⟩)
      next top rest he =>
        right; right
        simp only at h
        generalize hn' : top.predicates.length + (if s.predKey.isSome then 1 else 0) + top.nestLevel = n at h
        unfold closedFunc at h
        cases hf : top.func with
        | all => rw [hf] at h; cases h
        | any => rw [hf] at h; cases h
        | not =>
          rw [hf] at h
          simp only at h
          split at h
          next hn => exact ⟨rfl, hs', top, rest, n, he, hf, hn'.symm, hn, h.symm⟩
          next => cases h
  | comma =>
    rw [ht] at h
    simp only at h
    unfold PState.comma at h
    split at h
    next hs => exact Or.inl ⟨h.symm, by simp [scanStep, hs], by simp [hs]⟩
    next hs =>
      simp only at h
      split at h
      · cases h
      · split at h <;> cases h

theorem runTokens_err {checks : Bool} {original : Str} {s : PState} {lts : List LexerToken} {e : Err}
    (h : runTokens checks original s lts = .err e) :
    ∃ l1 lt l2 s', lts = l1 ++ lt :: l2 ∧ runTokens checks original s l1 = .ok s' ∧ s'.step checks original lt = .err e := by
  induction lts generalizing s with
  | nil => cases h
  | cons lt lts ih =>
    simp only [runTokens] at h
    cases hs : s.step checks original lt with
    | ok s1 =>
      rw [hs] at h
      obtain ⟨l1, lt', l2, s', h1, h2, h3⟩ := ih h
      exact ⟨lt :: l1, lt', l2, s', by rw [h1]; rfl, by simp only [runTokens, hs]; exact h2, h3⟩
    | err e' =>
      rw [hs] at h
      have h := Res.err.inj h
      subst h
      exact ⟨[], lt, lts, s, rfl, rfl, hs⟩
    | panic => rw [hs] at h; cases h

/-! ### What is listed -/

theorem names_key {t : Token} (h : Names "<key>".toList t) : ∃ k, t = .key k := by
  rcases h with h | h | h
  · exact h.2
  · exact absurd h.1 (by decide)
  · obtain ⟨h1, h2, h3⟩ := h
    cases t with
    | key k => exact (h1 k rfl).elim
    | value v => exact (h2 v rfl).elim
    | _ => exact absurd h3 (by decide)

theorem names_quote {t : Token} (h : Names "\"".toList t) : ∃ v, t = .value v := by
  rcases h with h | h | h
  · exact absurd h.1 (by decide)
  · exact h.2
  · obtain ⟨h1, h2, h3⟩ := h
    cases t with
    | key k => exact (h1 k rfl).elim
    | value v => exact (h2 v rfl).elim
    | _ => exact absurd h3 (by decide)

theorem names_other {x : Str} {t u : Token} (h : Names x t) (hx : x = u.text) (h1 : x ≠ "<key>".toList) (h2 : x ≠ "\"".toList)
    (hu : u = .equals ∨ u = .all ∨ u = .any ∨ u = .not ∨ u = .openParen ∨ u = .closeParen ∨ u = .comma) : t = u := by
  rcases h with h | h | ⟨h3, h4, h⟩
  · exact (h1 h.1).elim
  · exact (h2 h.1).elim
  · rw [hx] at h
    cases t with
    | key k => exact (h3 k rfl).elim
    | value v => exact (h4 v rfl).elim
    | _ => rcases hu with rfl | rfl | rfl | rfl | rfl | rfl | rfl <;> first | rfl | exact absurd h (by decide)

theorem names_self {u : Token} (hu : u = .equals ∨ u = .all ∨ u = .any ∨ u = .not ∨ u = .openParen ∨ u = .closeParen ∨ u = .comma) :
    Names u.text u := by
  refine Or.inr (Or.inr ⟨?_, ?_, rfl⟩) <;> intro k hk <;> subst hk <;> simp at hu

/-- The last token of complete formulas. -/
theorem Body.lastToken {trees : List CfgTree} {e : BodyEnd} {ts : List Token} (h : Body true trees e ts) {x : Nat × Option Token}
    (hx : scanFrom (0, none) ts = some x) : x.2 = none ∨ badBeforeClose x.2 = false := by
  obtain ⟨l, h1, h2⟩ := scan_body h 0 none (Or.inl rfl)
  rw [h1] at hx
  cases Option.some.inj hx
  cases e with
  | start => exact Or.inl h2
  | item => exact Or.inr (itemEnd_cases h2).1
  | comma => simp only at h2; rw [h2]; exact Or.inr rfl

theorem lists_what_fits {ts : List Token} {d : Nat} {last : Option Token} (h : scanFrom (0, none) ts = some (d, last)) :
    ListsWhatFits ts (expectedAfter last) := by
  have hsc := scanned h
  have hlast := scanFrom_last h
  have hclose : badBeforeClose last = false → Extends (ts ++ [.closeParen]) ∨ ∃ trees e, Body true trees e ts := by
    intro hb
    cases d with
    | succ d => left; rw [extends_snoc h]; simp [scanStep, hb]
    | zero =>
      right
      cases hsc with
      | level q p hq hp e =>
        cases hq
        rw [e]
        obtain ⟨args, e, hb, _⟩ := hp.body (by intro h0; rw [h0] at hb; cases hb)
        exact ⟨args, e, hb⟩
      | word q args e p f _ _ _ hl _ => rw [hl] at hb; cases f <;> cases hb
  constructor
  · intro x hx t hn
    have close : badBeforeClose last = false → x = ")".toList →
        Extends (ts ++ [t]) ∨ (t = .closeParen ∧ ∃ trees e, Body true trees e ts) := by
      intro hb h0
      have ht : t = .closeParen := names_other hn h0 (by rw [h0]; decide) (by rw [h0]; decide) (by simp)
      subst ht
      exact (hclose hb).imp id (fun h => ⟨rfl, h⟩)
    have step : (scanStep (d, last) t).isSome = true → Extends (ts ++ [t]) ∨ (t = .closeParen ∧ ∃ trees e, Body true trees e ts) :=
      fun hs => Or.inl ((extends_snoc h t).2 hs)
    have word : ∀ u : Token, u = .equals ∨ u = .all ∨ u = .any ∨ u = .not ∨ u = .openParen ∨ u = .closeParen ∨ u = .comma →
        x = u.text → u.text ≠ "<key>".toList → u.text ≠ "\"".toList → (scanStep (d, last) u).isSome = true →
        Extends (ts ++ [t]) ∨ (t = .closeParen ∧ ∃ trees e, Body true trees e ts) := by
      intro u hu h0 h1 h2 hs
      have := names_other hn h0 (by rw [h0]; exact h1) (by rw [h0]; exact h2) hu
      subst this
      exact step hs
    have key : startsItem last = true → x = "<key>".toList →
        Extends (ts ++ [t]) ∨ (t = .closeParen ∧ ∃ trees e, Body true trees e ts) := by
      intro hs h0
      rw [h0] at hn
      obtain ⟨k, rfl⟩ := names_key hn
      exact step (by simp [scanStep, hs])
    cases last with
    | none =>
      simp only [expectedAfter, List.mem_cons, List.not_mem_nil, or_false] at hx
      rcases hx with h0 | h0 | h0 | h0
      · exact key rfl h0
      · exact word .all (by simp) h0 (by decide) (by decide) (by simp [scanStep, startsItem])
      · exact word .any (by simp) h0 (by decide) (by decide) (by simp [scanStep, startsItem])
      · exact word .not (by simp) h0 (by decide) (by decide) (by simp [scanStep, startsItem])
    | some l =>
      cases l with
      | all =>
        simp only [expectedAfter, List.mem_cons, List.not_mem_nil, or_false] at hx
        exact word .openParen (by simp) hx (by decide) (by decide) (by simp [scanStep, afterFn])
      | any =>
        simp only [expectedAfter, List.mem_cons, List.not_mem_nil, or_false] at hx
        exact word .openParen (by simp) hx (by decide) (by decide) (by simp [scanStep, afterFn])
      | not =>
        simp only [expectedAfter, List.mem_cons, List.not_mem_nil, or_false] at hx
        exact word .openParen (by simp) hx (by decide) (by decide) (by simp [scanStep, afterFn])
      | closeParen =>
        simp only [expectedAfter, List.mem_cons, List.not_mem_nil, or_false] at hx
        rcases hx with h0 | h0
        · exact close rfl h0
        · exact word .comma (by simp) h0 (by decide) (by decide) (by simp [scanStep, badBeforeComma])
      | comma =>
        simp only [expectedAfter, List.mem_cons, List.not_mem_nil, or_false] at hx
        rcases hx with h0 | h0
        · exact close rfl h0
        · exact key rfl h0
      | equals =>
        simp only [expectedAfter, List.mem_cons, List.not_mem_nil, or_false] at hx
        rw [hx] at hn
        obtain ⟨v, rfl⟩ := names_quote hn
        exact step (by simp [scanStep])
      | key k =>
        simp only [expectedAfter, List.mem_cons, List.not_mem_nil, or_false] at hx
        rcases hx with h0 | h0 | h0
        · exact word .equals (by simp) h0 (by decide) (by decide) (by simp [scanStep, afterKey])
        · exact word .comma (by simp) h0 (by decide) (by decide) (by simp [scanStep, badBeforeComma])
        · exact close rfl h0
      | value k =>
        simp only [expectedAfter, List.mem_cons, List.not_mem_nil, or_false] at hx
        rcases hx with h0 | h0
        · exact word .comma (by simp) h0 (by decide) (by decide) (by simp [scanStep, badBeforeComma])
        · exact close rfl h0
      | openParen =>
        simp only [expectedAfter, List.mem_cons, List.not_mem_nil, or_false] at hx
        rcases hx with h0 | h0 | h0 | h0 | h0
        · exact key rfl h0
        · exact close rfl h0
        · exact word .all (by simp) h0 (by decide) (by decide) (by simp [scanStep, startsItem])
        · exact word .any (by simp) h0 (by decide) (by decide) (by simp [scanStep, startsItem])
        · exact word .not (by simp) h0 (by decide) (by decide) (by simp [scanStep, startsItem])
  · intro t ht
    rw [extends_snoc h] at ht
    have word : ∀ u : Token, u = .equals ∨ u = .all ∨ u = .any ∨ u = .not ∨ u = .openParen ∨ u = .closeParen ∨ u = .comma →
        u.text ∈ expectedAfter last → ∃ x ∈ expectedAfter last, Names x u := fun u hu hm => ⟨_, hm, names_self hu⟩
    have nkey : ∀ k, Names "<key>".toList (.key k) := fun k => Or.inl ⟨rfl, k, rfl⟩
    have nval : ∀ v, Names "\"".toList (.value v) := fun v => Or.inr (Or.inl ⟨rfl, v, rfl⟩)
    have commaCase : last = some .comma → ts.getLast? = some .comma := by
      intro h0
      rw [hlast] at h0
      cases hg : ts.getLast? with
      | none => rw [hg] at h0; cases h0
      | some y => rw [hg] at h0; exact h0
    cases t with
    | key k =>
      left
      refine ⟨_, ?_, nkey k⟩
      cases last with
      | none => decide
      | some l => cases l <;> first | decide | (simp [scanStep, startsItem] at ht)
    | value v =>
      left
      refine ⟨_, ?_, nval v⟩
      cases last with
      | none => simp [scanStep] at ht
      | some l => cases l <;> first | decide | (simp [scanStep] at ht)
    | equals =>
      left
      refine word .equals (by simp) ?_
      cases last with
      | none => simp [scanStep, afterKey] at ht
      | some l => cases l <;> first | (simp [scanStep, afterKey] at ht; done) | decide | simp [expectedAfter, Token.text]
    | openParen =>
      left
      refine word .openParen (by simp) ?_
      cases last with
      | none => simp [scanStep, afterFn] at ht
      | some l => cases l <;> first | decide | (simp [scanStep, afterFn] at ht)
    | all =>
      cases last with
      | none => exact Or.inl (word .all (by simp) (by decide))
      | some l =>
        cases l <;> first
          | exact Or.inl (word .all (by simp) (by decide))
          | exact Or.inr ⟨commaCase rfl, by simp⟩
          | (simp [scanStep, startsItem] at ht)
    | any =>
      cases last with
      | none => exact Or.inl (word .any (by simp) (by decide))
      | some l =>
        cases l <;> first
          | exact Or.inl (word .any (by simp) (by decide))
          | exact Or.inr ⟨commaCase rfl, by simp⟩
          | (simp [scanStep, startsItem] at ht)
    | not =>
      cases last with
      | none => exact Or.inl (word .not (by simp) (by decide))
      | some l =>
        cases l <;> first
          | exact Or.inl (word .not (by simp) (by decide))
          | exact Or.inr ⟨commaCase rfl, by simp⟩
          | (simp [scanStep, startsItem] at ht)
    | closeParen =>
      left
      refine word .closeParen (by simp) ?_
      cases last with
      | none => simp [scanStep, badBeforeClose] at ht
      | some l => cases l <;> first | decide | (simp [scanStep, badBeforeClose] at ht; done) | simp [expectedAfter, Token.text]
    | comma =>
      cases last with
      | none => simp [scanStep, badBeforeComma] at ht
      | some l =>
        cases l <;> first
          | (simp [scanStep, badBeforeComma] at ht; done)
          | exact Or.inr ⟨commaCase rfl, by simp⟩
          | exact Or.inl (word .comma (by simp) (by decide))
          | exact Or.inl (word .comma (by simp) (by simp [expectedAfter, Token.text]))

/-! ### The state after some tokens -/

/-- What is known after tokens that were read without an error. -/
structure After (inner : Str) (lts : List LexerToken) (s : PState) (a : AState) : Prop where
  refines : Refines inner s a
  inv : AInv a (lts.map (·.token))
  scan : scanFrom (0, none) (lts.map (·.token)) = some (s.depth, s.last)
  order : InOrder (lts.map (·.token))
  spans : stackSpans s = opensSpans (opens [] lts)

theorem runTokens_after {checks : Bool} {inner : Str} {lts : List LexerToken} {s : PState} (hl : ∀ lt ∈ lts, Spelled inner lt)
    (h : runTokens checks inner {} lts = .ok s) : ∃ a, After inner lts s a := by
  have hsim := sim_run checks (Refines.init inner) hl
  rw [h] at hsim
  cases ha : AState.run checks {} (lts.map (·.token)) with
  | ok a =>
    rw [ha] at hsim
    have hscan := runTokens_scan (s := {}) (by intro h; cases h) h
    refine ⟨a, hsim, AInv.init.run ha, hscan, ⟨(extends_iff _).2 ⟨_, hscan⟩, run_notsUnary ha⟩, runTokens_opens (st := []) rfl h⟩
  | err e => rw [ha] at hsim; exact hsim.elim
  | panic => rw [ha] at hsim; exact hsim.elim

theorem StackOK.nil_iff {original : Str} {n : Nat} {st : List FuncAndSpan} {frs : List (FnName × List CfgTree)}
    (h : StackOK original n st frs) : st = [] ↔ frs = [] := by
  cases st <;> cases frs <;> simp [StackOK] at h ⊢

theorem OpenOK.nil {root : List CfgTree} {q : List Token} (h : OpenOK root [] q) : q = [] := h

theorem Level.notFn {ch : List CfgTree} {k v : Option Str} {last : Option Token} {p : List Token} (h : Level ch k v last p) :
    afterFn last = false := by
  cases h with
  | start _ hx _ => rcases hx with hx | hx <;> rw [hx] <;> rfl
  | _ => rfl

/-- The formulas read outside of functions. -/
theorem After.body {inner : Str} {lts : List LexerToken} {s : PState} {a : AState} (h : After inner lts s a) (hs : s.stack = [])
    (hl : s.last ≠ some .equals) : ∃ e, Body true a.trees e (lts.map (·.token)) := by
  have hf : a.frames = [] := h.refines.stack.nil_iff.1 hs
  have hfn : afterFn a.last = false := by
    cases h.inv with
    | level q p ho hlv _ => exact hlv.notFn
    | word f rest q p e hfr => rw [hf] at hfr; cases hfr
  obtain ⟨q, p, ho, hlv, hts⟩ := h.inv.level_of hfn
  rw [hf] at ho
  cases OpenOK.nil ho
  rw [hts]
  obtain ⟨e, he, _⟩ := hlv.pending (by rw [← h.refines.last]; exact hl)
  rw [hf] at he
  exact ⟨e, he⟩

theorem predKey_count {inner : Str} {s : PState} {a : AState} (h : Refines inner s a) :
    (if s.predKey.isSome then 1 else 0) = (a.pending.map CfgTree.pred).toList.length := by
  rw [h.key_isSome]
  unfold AState.pending
  cases a.key <;> simp

/-! ### The errors -/

theorem step_blame {checks : Bool} {inner : Str} {l1 l2 : List LexerToken} {lt : LexerToken} {s : PState} {a : AState} {err : Err}
    (hb : BeginsAt 0 inner (l1 ++ lt :: l2)) (h : After inner l1 s a) (he : s.step checks inner lt = .err err) :
    ∃ x y r, .err err = (cfgErr inner x y r : Res PState) ∧ Blame inner x y r := by
  obtain ⟨pre, post, hat, hstart, hstop, _⟩ := hb.split
  rw [Nat.zero_add] at hstart
  rcases step_err he with ⟨h1, h2, h3⟩ | ⟨ht, h1, h2, h3⟩ | ⟨ht, h1, top, rest, n, h2, h3, h4, h5, h6⟩
  · refine ⟨_, _, _, h1, ?_⟩
    rw [hstop, hstart]
    refine .token pre _ lt.token post _ hat h.order ?_ ?_ (lists_what_fits h.scan)
    · rw [extends_snoc h.scan, h2]; simp
    · rintro ⟨ht, hne, trees, e, hbody⟩
      rcases hbody.lastToken h.scan with hl | hl
      · have := scanFrom_last h.scan
        simp only at hl
        rw [hl] at this
        cases hg : (l1.map (·.token)).getLast? with
        | none => exact hne (List.getLast?_eq_none_iff.1 hg)
        | some y => rw [hg] at this; cases this
      · simp only at hl
        rw [h3 ht] at hl
        cases hl
  · refine ⟨_, _, _, h3, ?_⟩
    rw [hstop, hstart, ht]
    rw [ht] at hat
    obtain ⟨e, hbody⟩ := h.body h2 (by intro h0; rw [h0] at h1; cases h1)
    refine .unopened pre _ _ e post hat h.order hbody ?_
    intro h0
    have := scanFrom_last h.scan
    rw [h0] at this
    simp only [List.getLast?_nil, Option.or_none] at this
    rw [this] at h1
    cases h1
  · refine ⟨_, _, _, h6, ?_⟩
    have hfr := h.refines.stack
    rw [h2] at hfr
    cases hfs : a.frames with
    | nil => rw [hfs] at hfr; exact hfr.elim
    | cons fr frs =>
      rw [hfs] at hfr
      obtain ⟨hfo, _⟩ := hfr
      obtain ⟨f, ch⟩ := fr
      have hf : f = .not := by have := hfo.func; rw [h3] at this; exact this.symm
      subst hf
      have hsp := h.spans
      rcases opens_head h.inv hfs with ⟨m1, w, o, m3, hl1, hw, ho, hlv, st, hop⟩ | ⟨m1, w, hl1, hw, st, hop⟩
      · rw [hop] at hsp
        simp only [stackSpans, h2, opensSpans, List.map_cons, List.cons.injEq, Prod.mk.injEq] at hsp
        rw [hsp.1.1]
        have hb' := hb
        rw [hl1] at hb'
        have e1 : m1 ++ w :: o :: m3 ++ lt :: l2 = m1 ++ w :: ((o :: m3) ++ lt :: l2) := by simp
        rw [e1] at hb'
        obtain ⟨p1, mid, p2, h7, h8, h9, h10, h11, h12⟩ := hb'.segment
        rw [Nat.zero_add] at h11 h12
        rw [h11, h12]
        obtain ⟨e, hbody, _⟩ := hlv.pending (by rw [← h.refines.last]; intro h0; rw [h0] at h1; cases h1)
        have hn : n = (ch ++ (a.pending.map CfgTree.pred).toList).countP (fun t => !t.isFn) +
            (ch ++ (a.pending.map CfgTree.pred).toList).countP CfgTree.isFn % 256 := by
          have i1 := length_of_map hfo.preds
          have i2 := hfo.nest
          have i3 := fnCount_pending a
          have i4 := fnCount_append ch (a.pending.map CfgTree.pred).toList
          have i5 : ((a.pending.map CfgTree.pred).toList).countP (fun t => !t.isFn) = (a.pending.map CfgTree.pred).toList.length := by
            cases a.pending <;> simp [CfgTree.isFn]
          rw [h4, predKey_count h.refines, i1, i2, List.countP_append, i5, predsOf_length]
          simp only [fnCount] at i3 i4 ⊢
          rw [i4, i3]
        have hm : (w :: ((o :: m3) ++ [lt])).map (·.token) =
            FnName.token .not :: .openParen :: (m3.map (·.token) ++ [.closeParen]) := by simp [hw, ho, ht]
        rw [hm] at h9
        rw [hn]
        rw [hw] at h10
        have hord := h.order
        have hts : l1.map (·.token) ++ [.closeParen] =
            m1.map (·.token) ++ FnName.token .not :: .openParen :: (m3.map (·.token) ++ [.closeParen]) := by
          rw [hl1]; simp [hw, ho]
        refine .not p1 mid p2 _ _ _ h7 h8 h9 h10 (.fn .not _ e _ hbody) ?_ ?_ ?_
        · rw [← hts, extends_snoc h.scan]
          have hd : s.depth = rest.length + 1 := by
            unfold PState.depth
            have : afterFn s.last = false := by
              cases hl : s.last with
              | none => rfl
              | some t => rw [hl] at h1; cases t <;> first | rfl | cases h1
            rw [this, h2]; simp
          simp [scanStep, h1, hd]
        · have e2 : m1.map (·.token) ++ (FnName.token .not :: .openParen :: (m3.map (·.token) ++ [.closeParen])).dropLast =
              l1.map (·.token) := by
            have := congrArg List.dropLast hts
            rw [List.dropLast_concat, List.dropLast_append_of_ne_nil (by simp)] at this
            exact this.symm
          rw [e2]
          exact hord.2
        · intro hc
          exact h5 (by rw [hn]; exact hc rfl)
      · exfalso
        have := scanFrom_last h.scan
        rw [hl1] at this
        simp [hw] at this
        rw [this] at h1
        cases h1

theorem Lexes.splitAt {off : Nat} {s : Str} {l1 l2 : List LexerToken} {lt : LexerToken} (h : Lexes off s (l1 ++ lt :: l2)) :
    ∃ pre post, TokenAt s pre (l1.map (·.token)) lt.token post ∧ lt.span.start = off + utf8Len pre ∧
      lt.span.stop = lt.span.start + utf8Len lt.token.text ∧ Lexes lt.span.stop post l2 := by
  induction l1 generalizing off s with
  | nil =>
    cases h with
    | cons _ w t rest lts h1 h2 h3 h4 =>
      exact ⟨w, rest, ⟨rfl, .nil w h1, h2, h3⟩, rfl, by simp [Token.len_eq], h4⟩
  | cons x l1 ih =>
    cases h with
    | cons _ w t rest lts h1 h2 h3 h4 =>
      obtain ⟨pre, post, h5, h6, h7, h8⟩ := ih h4
      refine ⟨w ++ t.text ++ pre, post, ⟨by rw [h5.text]; simp, .cons w t pre _ h1 h2 ?_ h5.before, h5.wf, h5.word⟩, ?_, h7, h8⟩
      · intro hw c hc
        refine h3 hw c ?_
        rw [h5.text]
        cases pre with
        | nil => cases hc
        | cons y pre => exact hc
      · rw [h6, utf8Len_append, utf8Len_append, Token.len_eq]; omega

theorem body_empty : ∀ {l : List CfgTree} {e : BodyEnd} {ts : List Token}, Body true l e ts → l = [] → e = .start ∧ ts = []
  | _, _, _, .start, _ => ⟨rfl, rfl⟩
  | _, _, _, .item args e p t q _ _ _, h => by simp at h
  | _, _, _, .comma args e p hb he, h => by
    obtain ⟨h1, _⟩ := body_empty hb h
    rw [h1] at he
    rcases he with he | he
    · cases he
    · cases he.2

theorem finish_blame {inner : Str} {lts : List LexerToken} {s : PState} {a : AState} {err : Err}
    (hl : Lexes 0 inner lts) (h : After inner lts s a) (he : s.finish inner = .err err) :
    ∃ x y r, .err err = (cfgErr inner x y r : Res Expression) ∧ Blame inner x y r := by
  unfold PState.finish at he
  split at he
  next hq =>
    refine ⟨_, _, _, he.symm, ?_⟩
    obtain ⟨q, p, ho, hlv, hts⟩ := h.inv.level_of (by rw [← h.refines.last, hq]; rfl)
    have hr := hl.reads
    have ho := h.order
    rw [hts] at hr ho
    generalize hk : a.key = k at hlv
    generalize hv : a.val = v at hlv
    have hla : a.last = some .equals := by rw [← h.refines.last, hq]
    rw [hla] at hlv
    cases hlv with
    | equals e p k hb hne =>
      rw [← List.append_assoc] at hr ho
      exact .value _ _ hr ho
    | start _ hx => rcases hx with hx | hx <;> cases hx
  next hq =>
    split at he
    next top rest hst =>
      have hfr := h.refines.stack
      rw [hst] at hfr
      cases hfs : a.frames with
      | nil => rw [hfs] at hfr; exact hfr.elim
      | cons fr frs =>
        rw [hfs] at hfr
        obtain ⟨f, ch⟩ := fr
        have hsp := h.spans
        have hord := h.order
        rcases opens_head h.inv hfs with ⟨m1, w, o, m3, hl1, hw, ho, hlv, st, hop⟩ | ⟨m1, w, hl1, hw, st, hop⟩
        · rw [hop] at hsp
          simp only [stackSpans, hst, opensSpans, List.map_cons, List.cons.injEq, Prod.mk.injEq, Option.map_some,
            Option.getD_some] at hsp
          have e1 : m1 ++ w :: o :: m3 = (m1 ++ [w]) ++ o :: m3 := by simp
          rw [hl1, e1] at hl
          obtain ⟨pre, post, hat, h1, h2, h3⟩ := hl.splitAt
          rw [Nat.zero_add] at h1
          have hpos : top.parensIndex ≠ 0 := by
            rw [hsp.1.2, h1]
            have hr := hat.before
            intro h0
            have hnil : pre = [] := by
              cases pre with
              | nil => rfl
              | cons c pre => rw [utf8Len_cons] at h0; have := c.utf8Size_pos; omega
            rw [hnil] at hr
            have : ((m1 ++ [w]).map (·.token)) ≠ [] := by simp
            generalize (m1 ++ [w]).map (·.token) = l at hr this
            generalize hz : ([] : Str) = z at hr
            cases hr with
            | nil => exact this rfl
            | cons w t rest ts _ hwf =>
              have : t.text = [] := by
                have := hz.symm
                simp at this
                exact this.2.1
              cases t with
              | key k => obtain ⟨⟨x, y, rfl, _⟩, _⟩ := hwf; cases this
              | _ => cases this
          rw [if_neg hpos] at he
          refine ⟨_, _, _, he.symm, ?_⟩
          rw [hsp.1.2, h1]
          obtain ⟨e, hbody, _⟩ := hlv.pending (by rw [← h.refines.last]; exact hq)
          refine .unclosed pre (m1.map (·.token)) f post _ _ e ?_ h3.reads hbody ?_
          · have := hat
            simp only [List.map_append, List.map_cons, List.map_nil, hw, ho] at this
            exact this
          · rw [hl1] at hord
            simp only [List.map_append, List.map_cons, hw, ho] at hord
            simpa using hord
        · rw [hop] at hsp
          simp only [stackSpans, hst, opensSpans, List.map_cons, List.cons.injEq, Prod.mk.injEq, Option.map_none,
            Option.getD_none] at hsp
          rw [if_pos hsp.1.2] at he
          refine ⟨_, _, _, he.symm, ?_⟩
          rw [hl1] at hl
          obtain ⟨pre, post, hat, h1, h2, h3⟩ := hl.splitAt
          rw [Nat.zero_add] at h1
          rw [hsp.1.1, h2, h1, hw]
          rw [hw] at hat
          refine .paren pre _ f post hat h3.reads ?_
          rw [hl1] at hord
          simpa [hw] using hord
    next hst =>
      obtain ⟨e, hbody⟩ := h.body hst hq
      have hf : a.frames = [] := h.refines.stack.nil_iff.1 hst
      simp only at he
      split at he
      next hemp =>
        refine ⟨_, _, _, he.symm, ?_⟩
        have hq := h.refines.queue
        have hp := h.refines.pending
        have hz : s.queue = [] ∧ s.pending.toList = [] := by
          simp at hemp
          refine ⟨hemp.1, ?_⟩
          cases hs : s.pending with
          | none => rfl
          | some p => rw [hs] at hemp; simp at hemp
        rw [hz.1, hf] at hq
        rw [hz.2] at hp
        have ht : a.trees = [] := by
          unfold AState.trees
          have h1 : a.root = [] := by
            have := hq.symm
            simp only [framesPost, List.append_nil, List.map_nil, List.map_eq_nil_iff] at this
            exact flatMap_post_eq_nil.1 this
          have h2 : a.pending = none := by
            cases hs : a.pending with
            | none => rfl
            | some p => rw [hs] at hp; cases hp
          rw [h1, h2]; rfl
        obtain ⟨_, hts⟩ := body_empty hbody ht
        have hr := hl.reads
        rw [hts] at hr
        exact .empty hr
      next hemp =>
        have hcount : s.rootCount + (if s.predKey.isSome then 1 else 0) > 1 := by
          refine Decidable.byContradiction fun hc => ?_
          rw [if_neg hc] at he
          cases he
        · rw [if_pos hcount] at he
          refine ⟨_, _, _, he.symm, ?_⟩
          refine .multiple _ _ e hl.reads hbody h.order.2 ?_
          rw [← predsOf_length]
          unfold AState.trees
          rw [predsOf_append, List.length_append, ← h.refines.roots, predsOf_pending]
          have := predKey_count h.refines
          rw [Option.toList_map, List.length_map] at this
          omega

theorem parse_blame {checks : Bool} {text : Str} {err : Err} (h : Expression.parse checks text = .err err) :
    ∃ inner x y r, CfgInner text inner ∧ err = .cfgParse ⟨inner, ⟨x, y⟩, r⟩ ∧ Blame inner x y r := by
  have conv : ∀ {inner : Str} {x y : Nat} {r : Reason} {α : Type}, .err err = (cfgErr inner x y r : Res α) →
      err = .cfgParse ⟨inner, ⟨x, y⟩, r⟩ := by
    intro inner x y r α h
    exact Res.err.inj h
  obtain ⟨inner, hi, hc⟩ := parse_cases checks text
  rcases hc with ⟨lts, hl, hp⟩ | ⟨lts, a, b, r, hl, hp⟩
  · rw [hp] at h
    cases hr : runTokens checks inner {} lts with
    | ok s =>
      rw [hr] at h
      obtain ⟨a, ha⟩ := runTokens_after hl.all_spelled hr
      obtain ⟨x, y, r, h1, h2⟩ := finish_blame hl ha h
      exact ⟨inner, x, y, r, hi, conv h1, h2⟩
    | err e =>
      rw [hr] at h
      cases Res.err.inj h
      obtain ⟨l1, lt, l2, s', hs, h1, h2⟩ := runTokens_err hr
      have hsp := hl.all_spelled
      obtain ⟨a, ha⟩ := runTokens_after (fun lt hm => hsp lt (by rw [hs]; simp [hm])) h1
      have hb := hl.beginsAt
      rw [hs] at hb
      obtain ⟨x, y, r, h3, h4⟩ := step_blame hb ha h2
      exact ⟨inner, x, y, r, hi, conv h3, h4⟩
    | panic => rw [hr] at h; cases h
  · rw [hp] at h
    cases hr : runTokens checks inner {} lts with
    | ok s =>
      rw [hr] at h
      have h : cfgErr inner a b r = (.err err : Res Expression) := h
      obtain ⟨st, ha⟩ := runTokens_after hl.spelled hr
      obtain ⟨pre, c, post, h1, h2, h3, h4⟩ := hl.why
      simp only [Nat.zero_add] at h1 h3
      refine ⟨inner, a, b, r, hi, conv h.symm, ?_⟩
      rcases h4 with ⟨rfl, h5, rfl, rfl⟩ | ⟨h5, h6, rfl, rfl⟩
      · rw [h3]; exact .quotes pre _ post h1 h5 h2 ha.order
      · rw [h3]; exact .char pre _ c post h1 h2 ha.order h5 h6
    | err e =>
      rw [hr] at h
      cases Res.err.inj h
      obtain ⟨l1, lt, l2, s', hs, h1, h2⟩ := runTokens_err hr
      have hsp := hl.spelled
      obtain ⟨a, ha⟩ := runTokens_after (fun lt hm => hsp lt (by rw [hs]; simp [hm])) h1
      have hb := hl.beginsAt
      rw [hs] at hb
      obtain ⟨x, y, r, h3, h4⟩ := step_blame hb ha h2
      exact ⟨inner, x, y, r, hi, conv h3, h4⟩
    | panic => rw [hr] at h; cases h

/-! ### The message -/

theorem joinExpected_eq : ∀ es : List Str,
    joinExpected es = List.intercalate ", ".toList (es.map fun e => "`".toList ++ e ++ "`".toList)
  | [] => rfl
  | [e] => by simp [joinExpected, List.intercalate]
  | e :: e' :: es => by
    have ih := joinExpected_eq (e' :: es)
    simp only [joinExpected, ih]
    simp [List.intercalate]

theorem utf8Len_ascii {s : Str} (h : ∀ c ∈ s, c.toNat < 128) : utf8Len s = s.length := by
  induction s with
  | nil => rfl
  | cons c s ih =>
    rw [utf8Len_cons, ih fun d hd => h d (by simp [hd]), List.length_cons]
    have hc := h c (by simp)
    have : c.utf8Size = 1 := by
      rw [Char.utf8Size_eq_one_iff]
      rw [UInt32.le_iff_toNat_le]
      have : c.val.toNat = c.toNat := rfl
      have h2 : (127 : UInt32).toNat = 127 := rfl
      omega
    omega

theorem reasonText_one (e : Str) : reasonText (.unexpected [e]) = "expected a ".toList ++ ("`".toList ++ e ++ "`".toList) ++ " here".toList := by
  unfold reasonText
  dsimp only
  rw [if_neg (by simp), if_pos (List.length_singleton)]
  simp only [List.map_cons, List.map_nil, List.intercalate, List.intersperse, List.flatten_cons, List.flatten_nil, List.append_nil]

theorem reasonText_more (e e' : Str) (es : List Str) : reasonText (.unexpected (e :: e' :: es)) = "expected one of ".toList ++
    List.intercalate ", ".toList ((e :: e' :: es).map fun e => "`".toList ++ e ++ "`".toList) ++ " here".toList := by
  unfold reasonText
  dsimp only
  rw [if_neg (by simp), if_neg (by simp)]

theorem reason_display (r : Reason) : r.display = reasonText r := by
  cases r with
  | unexpected es =>
    match es with
    | [] => rfl
    | [e] =>
      rw [reasonText_one]
      have e1 : ∀ x a b c d e f : Str, a = d ++ e → b = f ++ c → a ++ x ++ b = d ++ (e ++ x ++ f) ++ c := by
        intro x a b c d e f h1 h2; rw [h1, h2]; simp only [List.append_assoc]
      exact e1 _ _ _ _ _ _ _ (by decide) (by decide)
    | e :: e' :: es =>
      rw [reasonText_more, ← joinExpected_eq]
      rfl
  | invalidNot n => rfl
  | _ => rfl

end CC
