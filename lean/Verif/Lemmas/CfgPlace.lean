import Verif.Lemmas.CfgNots
/-
Helper lemmas: where the tokens are in the text, and which tokens opened the functions that are open.
-/
namespace CC

/-- `BeginsWith` with the positions of the tokens. -/
inductive BeginsAt : Nat → Str → List LexerToken → Prop where
  | nil (off : Nat) (s : Str) : BeginsAt off s []
  | cons (off : Nat) (w : Str) (t : Token) (rest : Str) (lts : List LexerToken) : (∀ c ∈ w, isWhitespace c = true) → t.WF →
      (t.IsWord → ∀ c, rest.head? = some c → ¬ IdentRest c) → BeginsAt (off + utf8Len w + t.len) rest lts →
      BeginsAt off (w ++ t.text ++ rest) (⟨t, ⟨off + utf8Len w, off + utf8Len w + t.len⟩⟩ :: lts)

theorem Lexes.beginsAt {off : Nat} {s : Str} {lts : List LexerToken} (h : Lexes off s lts) : BeginsAt off s lts := by
  induction h with
  | nil off w h => exact .nil off w
  | cons off w t rest lts h1 h2 h3 _ ih => exact .cons off w t rest _ h1 h2 h3 ih

theorem LexErr.beginsAt {l : Lexer} {lts : List LexerToken} {a b : Nat} {r : Reason} (h : LexErr l lts a b r) :
    BeginsAt l.offset l.inner lts := by
  induction h with
  | here l a b r _ _ _ => exact .nil _ _
  | cons off orig w t rest lts a b r h1 h2 h3 h4 ih => exact .cons off w t rest _ h1 h2 h3 ih

theorem readsAs_pad {w : Str} (hw : ∀ c ∈ w, isWhitespace c = true) : ReadsAs w [] := .nil w hw

theorem BeginsAt.split {off : Nat} {s : Str} {l1 l2 : List LexerToken} {lt : LexerToken} (h : BeginsAt off s (l1 ++ lt :: l2)) :
    ∃ pre post, TokenAt s pre (l1.map (·.token)) lt.token post ∧ lt.span.start = off + utf8Len pre ∧
      lt.span.stop = lt.span.start + utf8Len lt.token.text ∧ BeginsAt lt.span.stop post l2 := by
  induction l1 generalizing off s with
  | nil =>
    cases h with
    | cons _ w t rest lts h1 h2 h3 h4 =>
      exact ⟨w, rest, ⟨rfl, .nil w h1, h2, h3⟩, rfl, by simp [Token.len_eq], h4⟩
  | cons x l1 ih =>
    cases h with
    | cons _ w t rest lts h1 h2 h3 h4 =>
      obtain ⟨pre, post, h5, h6, h7, h8⟩ := ih h4
      refine ⟨w ++ t.text ++ pre, post, ⟨by rw [h5.text]; simp, .cons w t pre _ h1 h2 ?_ h5.before, h5.wf, h5.word⟩, ?_, h7, h8⟩
      · intro hw c hc
        refine h3 hw c ?_
        rw [h5.text]
        cases pre with
        | nil => cases hc
        | cons y pre => exact hc
      · rw [h6, utf8Len_append, utf8Len_append, Token.len_eq]; omega

theorem BeginsAt.through {off : Nat} {s : Str} {l1 l2 : List LexerToken} {lt : LexerToken} (h : BeginsAt off s (l1 ++ lt :: l2)) :
    ∃ mid post, s = mid ++ post ∧ ReadsAs mid ((l1 ++ [lt]).map (·.token)) ∧ lt.span.stop = off + utf8Len mid := by
  induction l1 generalizing off s with
  | nil =>
    cases h with
    | cons _ w t rest lts h1 h2 h3 h4 =>
      refine ⟨w ++ t.text, rest, rfl, ?_, by rw [utf8Len_append, Token.len_eq]; simp only; omega⟩
      have := ReadsAs.cons w t [] [] h1 h2 (by simp) (.nil [] (by simp))
      simpa using this
  | cons x l1 ih =>
    cases h with
    | cons _ w t rest lts h1 h2 h3 h4 =>
      obtain ⟨mid, post, h5, h6, h7⟩ := ih h4
      refine ⟨w ++ t.text ++ mid, post, by rw [h5]; simp, .cons w t mid _ h1 h2 ?_ h6, ?_⟩
      · intro hw c hc
        refine h3 hw c ?_
        rw [h5]
        cases mid with
        | nil => cases hc
        | cons y pre => exact hc
      · rw [h7, utf8Len_append, utf8Len_append, Token.len_eq]; omega

theorem BeginsAt.take {off : Nat} {s : Str} {l m : List LexerToken} (h : BeginsAt off s (l ++ m)) : BeginsAt off s l := by
  induction l generalizing off s with
  | nil => exact .nil off s
  | cons x l ih =>
    cases h with
    | cons _ w t rest lts h1 h2 h3 h4 => exact .cons off w t rest _ h1 h2 h3 (ih h4)

/-- The text from one token through another. -/
theorem BeginsAt.segment {off : Nat} {s : Str} {l1 l2 l3 : List LexerToken} {x y : LexerToken}
    (h : BeginsAt off s (l1 ++ x :: (l2 ++ y :: l3))) :
    ∃ pre mid post, s = pre ++ mid ++ post ∧ ReadsAs pre (l1.map (·.token)) ∧ ReadsAs mid ((x :: (l2 ++ [y])).map (·.token)) ∧
      (∃ r, mid = x.token.text ++ r) ∧ x.span.start = off + utf8Len pre ∧ y.span.stop = off + utf8Len (pre ++ mid) := by
  obtain ⟨pre, post, h1, h2, h3, h4⟩ := h.split
  have h5 : BeginsAt x.span.start ([] ++ x.token.text ++ post) (x :: (l2 ++ y :: l3)) := by
    have := BeginsAt.cons x.span.start [] x.token post (l2 ++ y :: l3) (by simp) h1.wf h1.word
      (by simp only [utf8Len_nil, Nat.add_zero, Token.len_eq]; rw [← h3]; exact h4)
    simp only [utf8Len_nil, Nat.add_zero, Token.len_eq] at this
    rw [← h3] at this
    exact this
  have h5' : BeginsAt x.span.start ([] ++ x.token.text ++ post) ((x :: l2) ++ y :: l3) := h5
  obtain ⟨mid, post', h6, h7, h8⟩ := h5'.through
  refine ⟨pre, mid, post', ?_, h1.before, h7, ?_, h2, ?_⟩
  · rw [h1.text, List.append_assoc, List.append_assoc, ← h6]; simp
  · simp only [List.nil_append] at h6
    rcases List.append_eq_append_iff.1 h6 with ⟨a, ha, _⟩ | ⟨a, ha, hb⟩
    · exact ⟨a, ha⟩
    · -- the first token is complete
      obtain ⟨m2, hm⟩ : ∃ m2, mid = x.token.text ++ m2 := by
        generalize hg : (x :: l2 ++ [y]).map (·.token) = ts at h7
        cases h7 with
        | nil => simp at hg
        | cons w t rest us k1 k2 k3 k4 =>
          simp only [List.cons_append, List.map_cons, List.cons.injEq] at hg
          obtain ⟨e1, -⟩ := hg
          subst e1
          cases w with
          | nil => exact ⟨rest, rfl⟩
          | cons c w =>
            exfalso
            have hl := congrArg List.length ha
            simp at hl
            omega
      exact ⟨m2, hm⟩
  · rw [h8, h2, utf8Len_append]; omega

/-! ### Open functions -/

/-- The word and the parenthesis of each open function, innermost first. -/
def opensStep (st : List (LexerToken × Option LexerToken)) (lt : LexerToken) : List (LexerToken × Option LexerToken) :=
  match lt.token with
  | .all | .any | .not => (lt, none) :: st
  | .openParen =>
    match st with
    | [] => []
    | (w, _) :: st => (w, some lt) :: st
  | .closeParen => st.tail
  | _ => st

def opens (st : List (LexerToken × Option LexerToken)) (lts : List LexerToken) : List (LexerToken × Option LexerToken) :=
  lts.foldl opensStep st

theorem opens_append (st : List (LexerToken × Option LexerToken)) (l m : List LexerToken) :
    opens st (l ++ m) = opens (opens st l) m := by
  unfold opens; exact List.foldl_append

theorem opensStep_word {st : List (LexerToken × Option LexerToken)} {w : LexerToken} {f : FnName} (h : w.token = f.token) :
    opensStep st w = (w, none) :: st := by
  unfold opensStep; rw [h]; cases f <;> rfl

theorem map_two {l : List LexerToken} {a b : Token} {r : List Token} (h : l.map (·.token) = a :: b :: r) :
    ∃ x y l', l = x :: y :: l' ∧ x.token = a ∧ y.token = b ∧ l'.map (·.token) = r := by
  obtain ⟨x, l1, rfl, h1, h2⟩ := List.map_eq_cons_iff.1 h
  obtain ⟨y, l2, rfl, h3, h4⟩ := List.map_eq_cons_iff.1 h2
  exact ⟨x, y, l2, rfl, h1, h3, h4⟩

theorem map_one {l : List LexerToken} {a : Token} (h : l.map (·.token) = [a]) : ∃ x, l = [x] ∧ x.token = a := by
  obtain ⟨x, l1, rfl, h1, h2⟩ := List.map_eq_cons_iff.1 h
  exact ⟨x, by rw [List.map_eq_nil_iff.1 h2], h1⟩

mutual
theorem opens_item : ∀ {t : CfgTree} {q : List Token}, Item true t q → ∀ (l : List LexerToken) (st), l.map (·.token) = q →
    opens st l = st
  | _, _, .flag k, l, st, h => by
    obtain ⟨x, rfl, hx⟩ := map_one h
    simp [opens, opensStep, hx]
  | _, _, .keyValue k v, l, st, h => by
    obtain ⟨x, y, l', rfl, h1, h2, h3⟩ := map_two h
    obtain ⟨z, rfl, hz⟩ := map_one h3
    simp [opens, opensStep, h1, h2, hz]
  | _, _, .fn f args e body hb, l, st, h => by
    obtain ⟨w, o, l, rfl, h1, h2, h3⟩ := map_two h
    obtain ⟨lb, lc, rfl, h4, h5⟩ := List.map_eq_append_iff.1 h3
    obtain ⟨c, rfl, hc⟩ := map_one h5
    have e1 : w :: o :: (lb ++ [c]) = [w, o] ++ (lb ++ [c]) := rfl
    rw [e1, opens_append, opens_append]
    have e2 : opens st [w, o] = (w, some o) :: st := by
      simp only [opens, List.foldl_cons, List.foldl_nil, opensStep_word h1]
      simp [opensStep, h2]
    rw [e2, opens_body hb lb _ h4]
    simp [opens, opensStep, hc]
theorem opens_body : ∀ {args : List CfgTree} {e : BodyEnd} {p : List Token}, Body true args e p →
    ∀ (l : List LexerToken) (st), l.map (·.token) = p → opens st l = st
  | _, _, _, .start, l, st, h => by
    have : l = [] := List.map_eq_nil_iff.1 h
    subst this; rfl
  | _, _, _, .item args e p t q hb he hi, l, st, h => by
    obtain ⟨l1, l2, rfl, h1, h2⟩ := List.map_eq_append_iff.1 h
    rw [opens_append, opens_body hb l1 st h1, opens_item hi l2 st h2]
  | _, _, _, .comma args e p hb he, l, st, h => by
    obtain ⟨l1, l2, rfl, h1, h2⟩ := List.map_eq_append_iff.1 h
    rw [opens_append, opens_body hb l1 st h1]
    obtain ⟨c, rfl, hc⟩ := map_one h2
    simp [opens, opensStep, hc]
end

theorem opens_level {ch : List CfgTree} {k v : Option Str} {last : Option Token} {p : List Token} (h : Level ch k v last p)
    {l : List LexerToken} (st : List (LexerToken × Option LexerToken)) (hl : l.map (·.token) = p) : opens st l = st := by
  have simple : ∀ (l : List LexerToken), (∀ x ∈ l, (∃ k, x.token = .key k) ∨ x.token = .equals ∨ ∃ v, x.token = .value v) →
      opens st l = st := by
    intro l
    induction l with
    | nil => intro _; rfl
    | cons x l ih =>
      intro h
      have e : opensStep st x = st := by
        unfold opensStep
        rcases h x List.mem_cons_self with ⟨k, hk⟩ | hk | ⟨k, hk⟩ <;> rw [hk]
      show opens (opensStep st x) l = st
      rw [e]
      exact ih (fun y hy => h y (List.mem_cons_of_mem _ hy))
  have app : ∀ {e : BodyEnd} {p0 r : List Token}, Body true ch e p0 → (∀ x ∈ r, (∃ k, x = .key k) ∨ x = .equals ∨ ∃ v, x = .value v) →
      l.map (·.token) = p0 ++ r → opens st l = st := by
    intro e p0 r hb hr h
    obtain ⟨l1, l2, rfl, h1, h2⟩ := List.map_eq_append_iff.1 h
    rw [opens_append, opens_body hb l1 st h1]
    apply simple
    intro x hx
    exact hr _ (by rw [← h2]; exact List.mem_map_of_mem hx)
  cases h with
  | start =>
    have : l = [] := List.map_eq_nil_iff.1 hl
    subst this; rfl
  | comma p hb => exact opens_body hb l st hl
  | item p hb => exact opens_body hb l st hl
  | key e p k hb he => exact app hb (by simp) hl
  | equals e p k hb he => exact app hb (by simp) hl
  | value e p k v hb he => exact app hb (by simp) hl

theorem opens_openOK {root : List CfgTree} : ∀ {frames : List (FnName × List CfgTree)} {q : List Token} {l : List LexerToken},
    OpenOK root frames q → l.map (·.token) = q → ∃ st, opens [] l = st ∧ st.length = frames.length
  | [], q, l, ho, hl => by
    have ho : q = [] := ho
    subst ho
    have : l = [] := List.map_eq_nil_iff.1 hl
    subst this
    exact ⟨[], rfl, rfl⟩
  | (f, _) :: rest, q, l, ho, hl => by
    obtain ⟨q', p', e, h1, h2, h3, rfl⟩ := ho
    obtain ⟨l12, l3, rfl, h4, h5⟩ := List.map_eq_append_iff.1 hl
    obtain ⟨l1, l2, rfl, h6, h7⟩ := List.map_eq_append_iff.1 h4
    obtain ⟨st, h8, h9⟩ := opens_openOK h1 h6
    · obtain ⟨w, o, l', rfl, k1, k2, k3⟩ := map_two h5
      cases List.map_eq_nil_iff.1 k3
      have h5 := And.intro k1 k2
      refine ⟨(w, some o) :: st, ?_, by simp [h9]⟩
      rw [opens_append, opens_append, h8, opens_body h2 l2 _ h7]
      simp only [opens, List.foldl_cons, List.foldl_nil, opensStep_word h5.1]
      simp [opensStep, h5.2]

/-- The tokens of the innermost open function. -/
theorem opens_head {a : AState} {lts : List LexerToken} (h : AInv a (lts.map (·.token))) {f : FnName} {ch : List CfgTree}
    {rest : List (FnName × List CfgTree)} (hf : a.frames = (f, ch) :: rest) :
    (∃ l1 w o l3, lts = l1 ++ w :: (o :: l3) ∧ w.token = f.token ∧ o.token = .openParen ∧
      Level ch a.key a.val a.last (l3.map (·.token)) ∧ ∃ st, opens [] lts = (w, some o) :: st) ∨
    (∃ l1 w, lts = l1 ++ [w] ∧ w.token = f.token ∧ ∃ st, opens [] lts = (w, none) :: st) := by
  cases h with
  | level q p ho hl ht =>
    left
    rw [hf] at ho hl
    obtain ⟨q', p', e, h1, h2, h3, rfl⟩ := ho
    obtain ⟨l123, l4, rfl, h4, h5⟩ := List.map_eq_append_iff.1 ht
    obtain ⟨l12, l3, rfl, h4, h6⟩ := List.map_eq_append_iff.1 h4
    obtain ⟨l1, l2, rfl, h7, h8⟩ := List.map_eq_append_iff.1 h4
    obtain ⟨st, h9, _⟩ := opens_openOK h1 h7
    · obtain ⟨w, o, l', rfl, k1, k2, k3⟩ := map_two h6
      cases List.map_eq_nil_iff.1 k3
      have h6 := And.intro k1 k2
      refine ⟨l1 ++ l2, w, o, l4, by simp, h6.1, h6.2, by rw [h5]; exact hl, st, ?_⟩
      rw [opens_append, opens_append, opens_append, h9, opens_body h2 l2 _ h8]
      have : opens st [w, o] = (w, some o) :: st := by
        simp only [opens, List.foldl_cons, List.foldl_nil, opensStep_word h6.1]
        simp [opensStep, h6.2]
      rw [this]
      exact opens_level hl _ h5
  | word g rest' q p e hf' hlast hk hv ho hb he ht =>
    right
    rw [hf] at hf'
    obtain ⟨l12, l3, rfl, h4, h6⟩ := List.map_eq_append_iff.1 ht
    · obtain ⟨w, rfl, hw⟩ := map_one h6
      obtain ⟨⟨rfl, _⟩, _⟩ := (by simpa using hf' : (f = g ∧ ch = []) ∧ rest = rest')
      refine ⟨l12, w, rfl, hw, opens [] l12, ?_⟩
      rw [opens_append]
      exact opensStep_word hw

/-! ### The stack of the parser -/

def opensSpans (st : List (LexerToken × Option LexerToken)) : List (Span × Nat) :=
  st.map fun x => (x.1.span, (x.2.map (·.span.start)).getD 0)

def stackSpans (s : PState) : List (Span × Nat) := s.stack.map fun fs => (fs.span, fs.parensIndex)

theorem step_opens {checks : Bool} {original : Str} {s s' : PState} {lt : LexerToken} {st : List (LexerToken × Option LexerToken)}
    (h : stackSpans s = opensSpans st) (hs : s.step checks original lt = .ok s') : stackSpans s' = opensSpans (opensStep st lt) := by
  obtain ⟨s1, h1, h2⟩ := Res.bind_ok hs
  have h2 := Res.ok.inj h2
  subst h2
  show stackSpans s1 = _
  have hopen : ∀ f, lt.token = FnName.token f → s.openFn checks original f lt = .ok s1 → stackSpans s1 = opensSpans (opensStep st lt) := by
    intro f hf h1
    rw [opensStep_word hf]
    unfold PState.openFn at h1
    split at h1
    · simp only at h1
      split at h1
      next he =>
        have h1 := Res.ok.inj h1
        subst h1
        have hst : opensSpans st = [] := by rw [← h]; simp [stackSpans, he]
        simp [stackSpans, opensSpans] at hst ⊢
        exact hst
      next fs rest he =>
        split at h1
        · cases h1
        next n hn =>
          have h1 := Res.ok.inj h1
          subst h1
          have hst : opensSpans st = (fs.span, fs.parensIndex) :: rest.map (fun fs => (fs.span, fs.parensIndex)) := by
            rw [← h]; simp [stackSpans, he]
          have e1 : opensSpans ((lt, none) :: st) = (lt.span, 0) :: opensSpans st := rfl
          rw [e1, hst]
          rfl
    · simp [tokenErr, cfgErr] at h1
  cases ht : lt.token with
  | key k =>
    rw [ht] at h1
    simp only at h1
    split at h1
    · have h1 := Res.ok.inj h1
      subst h1
      simp only [opensStep, ht]
      exact h
    · simp [tokenErr, cfgErr] at h1
  | value k =>
    rw [ht] at h1
    simp only at h1
    split at h1
    · have h1 := Res.ok.inj h1
      subst h1
      simp only [opensStep, ht]
      exact h
    · simp [tokenErr, cfgErr] at h1
  | equals =>
    rw [ht] at h1
    simp only at h1
    split at h1
    · have h1 := Res.ok.inj h1
      subst h1
      simp only [opensStep, ht]
      exact h
    · simp [tokenErr, cfgErr] at h1
  | all => rw [ht] at h1; exact hopen .all ht h1
  | any => rw [ht] at h1; exact hopen .any ht h1
  | not => rw [ht] at h1; exact hopen .not ht h1
  | openParen =>
    rw [ht] at h1
    simp only [opensStep, ht] at h1 ⊢
    split at h1
    · split at h1
      next fs rest he =>
        have h1 := Res.ok.inj h1
        subst h1
        have hst : opensSpans st = (fs.span, fs.parensIndex) :: rest.map (fun fs => (fs.span, fs.parensIndex)) := by
          rw [← h]; simp [stackSpans, he]
        cases st with
        | nil => cases hst
        | cons x st =>
          have e1 : (x.1.span, (x.2.map (·.span.start)).getD 0) :: opensSpans st =
            (fs.span, fs.parensIndex) :: rest.map (fun fs => (fs.span, fs.parensIndex)) := hst
          simp only [List.cons.injEq, Prod.mk.injEq] at e1
          show (fs.span, lt.span.start) :: rest.map (fun fs => (fs.span, fs.parensIndex)) = (x.1.span, lt.span.start) :: opensSpans st
          rw [e1.1.1, e1.2]
      next he =>
        have h1 := Res.ok.inj h1
        subst h1
        cases st with
        | nil => exact h
        | cons x st => simp [stackSpans, he, opensSpans] at h
    · simp [tokenErr, cfgErr] at h1
  | closeParen =>
    rw [ht] at h1
    simp only [opensStep, ht] at h1 ⊢
    unfold PState.close at h1
    split at h1
    · simp [tokenErr, cfgErr] at h1
    · split at h1
      · simp [cfgErr] at h1
      next top rest he =>
        obtain ⟨f, _, h1⟩ := Res.bind_ok h1
        have h1 := Res.ok.inj h1
        subst h1
        cases st with
        | nil => simp [stackSpans, he, opensSpans] at h
        | cons x st =>
          simp only [stackSpans, he, opensSpans, List.map_cons, List.cons.injEq] at h
          exact h.2
  | comma =>
    rw [ht] at h1
    simp only [opensStep, ht] at h1 ⊢
    unfold PState.comma at h1
    split at h1
    · simp [tokenErr, cfgErr] at h1
    · simp only at h1
      split at h1
      · have h1 := Res.ok.inj h1
        subst h1
        exact h
      · split at h1
        next fs rest he =>
          have h1 := Res.ok.inj h1
          subst h1
          rw [← h]
          simp [stackSpans, he]
        next he =>
          have h1 := Res.ok.inj h1
          subst h1
          exact h

theorem runTokens_opens {checks : Bool} {original : Str} {s s' : PState} {lts : List LexerToken}
    {st : List (LexerToken × Option LexerToken)} (h : stackSpans s = opensSpans st)
    (hs : runTokens checks original s lts = .ok s') : stackSpans s' = opensSpans (opens st lts) := by
  induction lts generalizing s st with
  | nil => have := Res.ok.inj hs; subst this; exact h
  | cons lt lts ih =>
    obtain ⟨s1, h1, h2⟩ := Res.bind_ok hs
    exact ih (step_opens h h1) h2

end CC
