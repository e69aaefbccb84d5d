import Verif.Spec.CfgError
import Verif.Lemmas.CfgParse
/-
Helper lemmas: which tokens may follow which, as an automaton.
-/
namespace CC

/-- The number of open functions and the last token, after one more token. -/
def scanStep : Nat × Option Token → Token → Option (Nat × Option Token)
  | (d, last), t =>
    match t with
    | .key _ | .all | .any | .not => if startsItem last then some (d, some t) else none
    | .value _ => if last = some .equals then some (d, some t) else none
    | .equals => if afterKey last then some (d, some t) else none
    | .openParen => if afterFn last then some (d + 1, some t) else none
    | .closeParen => if badBeforeClose last then none else
      match d with
      | 0 => none
      | d + 1 => some (d, some t)
    | .comma => if badBeforeComma last then none else some (d, some t)

def scanFrom : Nat × Option Token → List Token → Option (Nat × Option Token)
  | x, [] => some x
  | x, t :: ts => (scanStep x t).bind fun x => scanFrom x ts

theorem scanFrom_append (x : Nat × Option Token) (p q : List Token) :
    scanFrom x (p ++ q) = (scanFrom x p).bind fun x => scanFrom x q := by
  induction p generalizing x with
  | nil => rfl
  | cons t p ih =>
    simp only [List.cons_append, scanFrom]
    cases scanStep x t <;> simp [ih]

/-! ### What the grammar allows is scanned -/

theorem itemEnd_cases {l : Option Token} (h : itemEnd l = true) :
    badBeforeClose l = false ∧ badBeforeComma l = false := by
  cases l with
  | none => cases h
  | some t => cases t <;> first | exact ⟨rfl, rfl⟩ | cases h

mutual
theorem scan_item : ∀ {t : CfgTree} {q : List Token}, Item true t q → ∀ (d : Nat) (last : Option Token), startsItem last = true →
    ∃ l, scanFrom (d, last) q = some (d, l) ∧ itemEnd l = true
  | _, _, .flag k, d, last, hs => ⟨some (.key k), by simp [scanFrom, scanStep, hs], rfl⟩
  | _, _, .keyValue k v, d, last, hs => ⟨some (.value v), by simp [scanFrom, scanStep, hs, afterKey], rfl⟩
  | _, _, .fn f args e body hb, d, last, hs => by
    obtain ⟨l, h1, h2⟩ := scan_body hb (d + 1) (some .openParen) (Or.inr rfl)
    refine ⟨some .closeParen, ?_, rfl⟩
    have hw : scanStep (d, last) f.token = some (d, some f.token) := by cases f <;> simp [scanStep, FnName.token, hs]
    have ho : scanStep (d, some f.token) .openParen = some (d + 1, some .openParen) := by cases f <;> rfl
    simp only [scanFrom, hw, ho, Option.bind_some, scanFrom_append, h1]
    have : badBeforeClose l = false := by
      cases e with
      | start => have : l = some .openParen := h2; rw [this]; rfl
      | item => exact (itemEnd_cases h2).1
      | comma => have : l = some .comma := h2; rw [this]; rfl
    simp [scanStep, this]
theorem scan_body : ∀ {args : List CfgTree} {e : BodyEnd} {p : List Token}, Body true args e p → ∀ (d : Nat) (last : Option Token),
    (last = none ∨ last = some .openParen) →
    ∃ l, scanFrom (d, last) p = some (d, l) ∧ (match e with
      | .start => l = last
      | .item => itemEnd l = true
      | .comma => l = some .comma)
  | _, _, _, .start, d, last, _ => ⟨last, rfl, rfl⟩
  | _, _, _, .item args e p t q hb he hi, d, last, hl => by
    obtain ⟨l, h1, h2⟩ := scan_body hb d last hl
    have hs : startsItem l = true := by
      cases e with
      | start => have : l = last := h2; subst this; rcases hl with rfl | rfl <;> rfl
      | item => exact (he rfl).elim
      | comma => have : l = some .comma := h2; rw [this]; rfl
    obtain ⟨l', h3, h4⟩ := scan_item hi d l hs
    exact ⟨l', by rw [scanFrom_append, h1]; exact h3, h4⟩
  | _, _, _, .comma args e p hb he, d, last, hl => by
    obtain ⟨l, h1, h2⟩ := scan_body hb d last hl
    have : badBeforeComma l = false := by
      rcases he with rfl | ⟨_, rfl⟩
      · exact (itemEnd_cases h2).2
      · have : l = some .comma := h2; rw [this]; rfl
    exact ⟨some .comma, by rw [scanFrom_append, h1]; simp [scanFrom, scanStep, this], rfl⟩
end

theorem Extends.scan {ts : List Token} (h : Extends ts) : ∃ x, scanFrom (0, none) ts = some x := by
  obtain ⟨us, trees, e, hb⟩ := h
  obtain ⟨l, h1, _⟩ := scan_body hb 0 none (Or.inl rfl)
  rw [scanFrom_append] at h1
  cases hs : scanFrom (0, none) ts with
  | none => rw [hs] at h1; cases h1
  | some x => exact ⟨x, rfl⟩

/-! ### What is scanned can be continued -/

/-- The tokens up to the operands of the innermost of `d` open functions. -/
inductive Enc : Nat → List Token → Prop where
  | top : Enc 0 []
  | fn (d : Nat) (q : List Token) (args : List CfgTree) (e : BodyEnd) (p : List Token) (f : FnName) : Enc d q →
      Body true args e p → e ≠ .item → Enc (d + 1) (q ++ p ++ [f.token, .openParen])

/-- The tokens at one level, and the last token. -/
inductive LevelG (d : Nat) : Option Token → List Token → Prop where
  | start (last : Option Token) : last = (if d = 0 then none else some .openParen) → LevelG d last []
  | comma (args : List CfgTree) (p : List Token) : Body true args .comma p → LevelG d (some .comma) p
  | item (args : List CfgTree) (p : List Token) : Body true args .item p → LevelG d (some .closeParen) p
  | key (args : List CfgTree) (e : BodyEnd) (p : List Token) (k : Str) : Body true args e p → e ≠ .item →
      LevelG d (some (.key k)) (p ++ [.key k])
  | equals (args : List CfgTree) (e : BodyEnd) (p : List Token) (k : Str) : Body true args e p → e ≠ .item →
      LevelG d (some .equals) (p ++ [.key k, .equals])
  | value (args : List CfgTree) (e : BodyEnd) (p : List Token) (k v : Str) : Body true args e p → e ≠ .item →
      LevelG d (some (.value v)) (p ++ [.key k, .equals, .value v])

inductive Scanned (d : Nat) (last : Option Token) (ts : List Token) : Prop where
  | level (q p : List Token) : Enc d q → LevelG d last p → ts = q ++ p → Scanned d last ts
  | word (q : List Token) (args : List CfgTree) (e : BodyEnd) (p : List Token) (f : FnName) : Enc d q → Body true args e p → e ≠ .item →
      last = some f.token → ts = q ++ p ++ [f.token] → Scanned d last ts

theorem LevelG.starts {d : Nat} {last : Option Token} {p : List Token} (h : LevelG d last p) (hs : startsItem last = true) :
    ∃ args e, Body true args e p ∧ e ≠ .item := by
  cases h with
  | start => exact ⟨[], .start, .start, by simp⟩
  | comma args p h => exact ⟨args, .comma, h, by simp⟩
  | item | key | equals | value => simp [startsItem] at hs

/-- Unless it ends with `=`, a level is a list of operands. -/
theorem LevelG.body {d : Nat} {last : Option Token} {p : List Token} (h : LevelG d last p) (hs : last ≠ some .equals) :
    ∃ args e, Body true args e p ∧ (badBeforeComma last = false → e = .item ∨ e = .comma) := by
  cases h with
  | start _ h =>
    refine ⟨[], .start, .start, ?_⟩
    subst h
    split <;> simp [badBeforeComma]
  | comma args p h => exact ⟨args, .comma, h, by simp⟩
  | item args p h => exact ⟨args, .item, h, by simp⟩
  | key args e p k h he => exact ⟨_, .item, .item args e p _ _ h he (.flag k), by simp⟩
  | equals => exact (hs rfl).elim
  | value args e p k v h he => exact ⟨_, .item, .item args e p _ _ h he (.keyValue k v), by simp⟩

theorem scanned_starts {d : Nat} {last : Option Token} {ts : List Token} (h : Scanned d last ts) (hs : startsItem last = true) :
    ∃ q args e p, Enc d q ∧ Body true args e p ∧ e ≠ .item ∧ ts = q ++ p := by
  cases h with
  | level q p h1 h2 h3 =>
    obtain ⟨args, e, hb, he⟩ := h2.starts hs
    exact ⟨q, args, e, p, h1, hb, he, h3⟩
  | word q args e p f _ _ _ hl _ => subst hl; cases f <;> cases hs

theorem Scanned.step {d d' : Nat} {last last' : Option Token} {ts : List Token} {t : Token} (h : Scanned d last ts)
    (hs : scanStep (d, last) t = some (d', last')) : Scanned d' last' (ts ++ [t]) := by
  have hfn : ∀ f : FnName, t = f.token → startsItem last = true → Scanned d (some f.token) (ts ++ [f.token]) := by
    intro f _ hst
    obtain ⟨q, args, e, p, h1, h2, h3, rfl⟩ := scanned_starts h hst
    exact .word q args e p f h1 h2 h3 rfl rfl
  unfold scanStep at hs
  cases t with
  | key k =>
    simp only at hs
    split at hs
    next hst =>
      cases hs
      obtain ⟨q, args, e, p, h1, h2, h3, rfl⟩ := scanned_starts h hst
      exact .level q _ h1 (.key args e p k h2 h3) (by simp)
    next => cases hs
  | value v =>
    simp only at hs
    split at hs
    next hl =>
      cases hs
      subst hl
      cases h with
      | level q p h1 h2 h3 =>
        cases h2 with
        | start _ h => split at h <;> cases h
        | equals args e p k h4 h5 => subst h3; exact .level q _ h1 (.value args e p k v h4 h5) (by simp)
      | word q args e p f _ _ _ hl _ => cases f <;> cases hl
    next => cases hs
  | equals =>
    simp only at hs
    split at hs
    next hl =>
      cases hs
      cases h with
      | level q p h1 h2 h3 =>
        cases h2 with
        | key args e p k h4 h5 => subst h3; exact .level q _ h1 (.equals args e p k h4 h5) (by simp)
        | start _ h => subst h; split at hl <;> cases hl
        | comma | item | equals | value => cases hl
      | word q args e p f _ _ _ hl' _ => subst hl'; cases f <;> cases hl
    next => cases hs
  | all => simp only at hs; split at hs; next hst => cases hs; exact hfn .all rfl hst
           next => cases hs
  | any => simp only at hs; split at hs; next hst => cases hs; exact hfn .any rfl hst
           next => cases hs
  | not => simp only at hs; split at hs; next hst => cases hs; exact hfn .not rfl hst
           next => cases hs
  | openParen =>
    simp only at hs
    split at hs
    next hl =>
      cases hs
      cases h with
      | level q p h1 h2 h3 =>
        cases h2 with
        | start _ h => subst h; split at hl <;> cases hl
        | comma | item | equals | value | key => cases hl
      | word q args e p f h1 h2 h3 hl' h4 =>
        subst h4
        have : LevelG (d + 1) (some .openParen) [] := .start _ rfl
        exact .level _ [] (.fn d q args e p f h1 h2 h3) this (by simp)
    next => cases hs
  | closeParen =>
    simp only at hs
    split at hs
    next => cases hs
    next hbad =>
      cases d with
      | zero => cases hs
      | succ d =>
        cases hs
        cases h with
        | level q p h1 h2 h3 =>
          obtain ⟨args, e, hb, _⟩ := h2.body (fun h => by subst h; exact hbad rfl)
          cases h1 with
          | fn _ q' args' e' p' f h4 h5 h6 =>
            subst h3
            refine .level q' _ h4 (.item _ _ (.item args' e' p' _ _ h5 h6 (.fn f args e p hb))) ?_
            simp
        | word q args e p f _ _ _ hl _ => subst hl; cases f <;> exact (hbad rfl).elim
  | comma =>
    simp only at hs
    split at hs
    next => cases hs
    next hbad =>
      cases hs
      cases h with
      | level q p h1 h2 h3 =>
        obtain ⟨args, e, hb, he⟩ := h2.body (fun h => by subst h; exact hbad rfl)
        subst h3
        refine .level q _ h1 (.comma args _ (.comma args e p hb ?_)) (by simp)
        rcases he (by simpa using hbad) with rfl | rfl
        · exact Or.inl rfl
        · exact Or.inr ⟨rfl, rfl⟩
      | word q args e p f _ _ _ hl _ => subst hl; cases f <;> exact (hbad rfl).elim

theorem Scanned.init : Scanned 0 none [] := .level [] [] .top (.start _ rfl) rfl

theorem Scanned.from {d d' : Nat} {last last' : Option Token} {ts us : List Token} (h : Scanned d last ts)
    (hs : scanFrom (d, last) us = some (d', last')) : Scanned d' last' (ts ++ us) := by
  induction us generalizing d last ts with
  | nil => cases hs; simpa using h
  | cons t us ih =>
    simp only [scanFrom] at hs
    cases hx : scanStep (d, last) t with
    | none => rw [hx] at hs; cases hs
    | some x =>
      obtain ⟨d1, l1⟩ := x
      rw [hx] at hs
      have := ih (h.step hx) hs
      simpa using this

theorem scanned {ts : List Token} {d : Nat} {last : Option Token} (h : scanFrom (0, none) ts = some (d, last)) : Scanned d last ts := by
  simpa using Scanned.init.from h

/-- Open functions can be closed. -/
theorem Enc.close {d : Nat} {q : List Token} (h : Enc d q) : ∀ {args : List CfgTree} {e : BodyEnd} {p : List Token},
    Body true args e p → Extends (q ++ p) := by
  induction h with
  | top => intro args e p hb; exact ⟨[], args, e, by simpa using hb⟩
  | fn d q args' e' p' f h1 h2 h3 ih =>
    intro args e p hb
    obtain ⟨us, trees, e2, hx⟩ := ih (.item args' e' p' _ _ h2 h3 (.fn f args e p hb))
    exact ⟨.closeParen :: us, trees, e2, by simpa using hx⟩

theorem Extends.of_append {ts us : List Token} (h : Extends (ts ++ us)) : Extends ts := by
  obtain ⟨vs, trees, e, hb⟩ := h
  exact ⟨us ++ vs, trees, e, by simpa using hb⟩

theorem Scanned.extends {d : Nat} {last : Option Token} {ts : List Token} (h : Scanned d last ts) : Extends ts := by
  cases h with
  | level q p h1 h2 h3 =>
    subst h3
    by_cases hl : last = some .equals
    · subst hl
      have : ∃ args u e, Body true args e (p ++ u) := by
        cases h2 with
        | start _ h => split at h <;> cases h
        | equals args e p k h4 h5 =>
          exact ⟨_, [.value []], .item, by simpa using Body.item args e p _ _ h4 h5 (.keyValue k [])⟩
      obtain ⟨args, u, e, hb⟩ := this
      have := h1.close hb
      rw [← List.append_assoc] at this
      exact this.of_append
    · obtain ⟨args, e, hb, _⟩ := h2.body hl
      exact h1.close hb
  | word q args e p f h1 h2 h3 hl h4 =>
    subst h4
    have := h1.close (.item args e p _ _ h2 h3 (.fn f [] .start [] .start))
    have e1 : q ++ (p ++ f.token :: .openParen :: ([] ++ [.closeParen])) = q ++ p ++ [f.token] ++ [.openParen, .closeParen] := by simp
    rw [e1] at this
    exact this.of_append

theorem extends_iff (ts : List Token) : Extends ts ↔ ∃ x, scanFrom (0, none) ts = some x := by
  constructor
  · exact Extends.scan
  · rintro ⟨⟨d, last⟩, h⟩
    exact (scanned h).extends

theorem scanFrom_last {ts : List Token} {x : Nat × Option Token} {d : Nat} {last : Option Token}
    (h : scanFrom x ts = some (d, last)) : last = ts.getLast?.or x.2 := by
  induction ts generalizing x with
  | nil => cases h; simp
  | cons t ts ih =>
    simp only [scanFrom] at h
    cases hx : scanStep x t with
    | none => rw [hx] at h; cases h
    | some y =>
      obtain ⟨d1, l1⟩ := y
      rw [hx] at h
      have h1 := ih h
      have h2 : l1 = some t := by
        obtain ⟨d0, l0⟩ := x
        unfold scanStep at hx
        cases t <;> simp only at hx <;> split at hx <;> first | (cases hx; rfl) | (cases hx; done) | (split at hx <;> first | (cases hx; rfl) | cases hx)
      subst h2
      rw [h1]
      cases ts <;> simp [List.getLast?_cons]

theorem extends_snoc {ts : List Token} {x : Nat × Option Token} (h : scanFrom (0, none) ts = some x) (t : Token) :
    Extends (ts ++ [t]) ↔ (scanStep x t).isSome = true := by
  rw [extends_iff, scanFrom_append, h]
  simp only [Option.bind_some, scanFrom]
  cases scanStep x t <;> simp

end CC
