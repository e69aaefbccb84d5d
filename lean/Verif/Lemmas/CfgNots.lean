import Verif.Lemmas.CfgScan
import Verif.Lemmas.CfgPanic
/-
Helper lemmas: in what the parser has read every finished `not` has one operand.
-/
namespace CC

theorem astep_unchecked {checks : Bool} {a b : AState} {t : Token} (h : a.step checks t = .ok b) : a.step false t = .ok b := by
  have hopen : ∀ f c, a.openFn checks f = .ok c → a.openFn false f = .ok c := by
    intro f c h
    unfold AState.openFn at h ⊢
    split at h
    next hs =>
      rw [if_pos hs]
      split at h
      next hf => exact h
      next g ch rest hf =>
        split at h
        · cases h
        · rw [if_neg (by simp)]; exact h
    next => simp [aErr, cfgErr] at h
  unfold AState.step at h ⊢
  cases t with
  | all => obtain ⟨c, h1, h2⟩ := Res.bind_ok h; simp only; rw [hopen _ _ h1]; exact h2
  | any => obtain ⟨c, h1, h2⟩ := Res.bind_ok h; simp only; rw [hopen _ _ h1]; exact h2
  | not => obtain ⟨c, h1, h2⟩ := Res.bind_ok h; simp only; rw [hopen _ _ h1]; exact h2
  | _ => exact h

theorem arun_unchecked {checks : Bool} {a b : AState} {ts : List Token} (h : a.run checks ts = .ok b) : a.run false ts = .ok b := by
  induction ts generalizing a with
  | nil => exact h
  | cons t ts ih =>
    obtain ⟨c, h1, h2⟩ := Res.bind_ok h
    simp only [AState.run, astep_unchecked h1]
    exact ih h2

theorem arun_append_ok {checks : Bool} {a c : AState} {p q : List Token} (h : a.run checks (p ++ q) = .ok c) :
    ∃ b, a.run checks p = .ok b ∧ b.run checks q = .ok c := by
  rw [AState.run_append] at h
  exact Res.bind_ok h

theorem close_counted {checks : Bool} {a b : AState} {f : FnName} {args : List CfgTree} {rest : List (FnName × List CfgTree)}
    (hset : a.settle.frames = (f, args) :: rest) (h : a.step checks .closeParen = .ok b) : CountedNot f args := by
  have hfr : ∃ ch, a.frames = (f, ch) :: rest ∧ args = ch ++ (a.pending.map CfgTree.pred).toList := by
    cases hp : a.pending with
    | none =>
      have hs : a.settle = a := by unfold AState.settle; rw [hp]
      rw [hs] at hset
      exact ⟨args, hset, by simp⟩
    | some x =>
      unfold AState.settle AState.addChild at hset
      simp only [hp] at hset
      split at hset
      next h => simp only at h hset; rw [h] at hset; cases hset
      next f2 ch2 rest2 h =>
        simp only [List.cons.injEq, Prod.mk.injEq] at hset
        obtain ⟨⟨rfl, rfl⟩, rfl⟩ := hset
        exact ⟨ch2, h, by simp⟩
  obtain ⟨ch, h1, h2⟩ := hfr
  obtain ⟨c, hc, _⟩ := Res.bind_ok h
  simp only [AState.close, h1, ← h2] at hc
  split at hc
  · simp [aErr, cfgErr] at hc
  · split at hc
    · simp [aErr, cfgErr] at hc
    next hn =>
      intro hf
      exact Decidable.byContradiction fun h => hn ⟨hf, h⟩

theorem run_open {a : AState} (hr : AReady a) (f : FnName) :
    a.run false [f.token, .openParen] = .ok { a with frames := (f, []) :: a.frames, last := some .openParen } := by
  have haf : afterFn (some f.token) = true := by cases f <;> rfl
  simp only [AState.run]
  rw [FnName.step_eq]
  unfold AState.openFn
  rw [if_pos hr.starts]
  cases hf : a.frames with
  | nil => simp [AState.step, haf]
  | cons fr rest =>
    obtain ⟨g, ch⟩ := fr
    simp [AState.step, haf]

theorem ready_of_end {a a' : AState} {e : BodyEnd} (hr : AReady a) (h : match e with
      | .start => a'.last = a.last ∧ a'.key = none ∧ a'.val = none
      | .item => itemEnd a'.last = true
      | .comma => a'.last = some .comma ∧ a'.key = none ∧ a'.val = none) : e ≠ .item → AReady a' := by
  intro he
  cases e with
  | start => exact ⟨by rw [h.1]; exact hr.starts, h.2.1, h.2.2⟩
  | comma => exact ⟨by rw [h.1]; rfl, h.2.1, h.2.2⟩
  | item => exact (he rfl).elim

mutual
theorem item_counted : ∀ {t : CfgTree} {q : List Token}, Item true t q → ∀ a a' : AState, AReady a → a.run false q = .ok a' →
    t.AllFns (Counted false)
  | _, _, .flag k, _, _, _, _ => trivial
  | _, _, .keyValue k v, _, _, _, _ => trivial
  | _, _, .fn f args e body hb, a, a', hr, h => by
    have e1 : f.token :: .openParen :: (body ++ [.closeParen]) = [f.token, .openParen] ++ (body ++ [.closeParen]) := rfl
    rw [e1] at h
    obtain ⟨a1, h1, h2⟩ := arun_append_ok h
    rw [run_open hr f] at h1
    have h1 := Res.ok.inj h1
    obtain ⟨a2, h3, h4⟩ := arun_append_ok h2
    have hr1 : AReady a1 := by rw [← h1]; exact ⟨rfl, hr.key, hr.val⟩
    have hl1 : a1.last = some .openParen := by rw [← h1]
    have hargs := body_counted hb a1 a2 hr1 (Or.inr hl1) h3
    refine ⟨⟨?_, by simp⟩, hargs⟩
    obtain ⟨a3, h5, h6, _⟩ := body_complete false hb hargs a1 hr1 (Or.inr hl1) (by simp)
    rw [h3] at h5
    have h5 := Res.ok.inj h5
    subst h5
    have hadd : a1.addAll args = { a1 with frames := (f, args) :: a.frames } :=
      addAll_cons a1 args (ch := []) (by rw [← h1])
    obtain ⟨a4, h7, _⟩ := Res.bind_ok h4
    exact close_counted (by rw [h6, hadd]) h7
theorem body_counted : ∀ {args : List CfgTree} {e : BodyEnd} {p : List Token}, Body true args e p → ∀ a a' : AState, AReady a →
    (a.last = none ∨ a.last = some .openParen) → a.run false p = .ok a' → CfgTree.AllFnsList (Counted false) args
  | _, _, _, .start, _, _, _, _, _ => trivial
  | _, _, _, .item args e p t q hb he hi, a, a', hr, hl, h => by
    obtain ⟨a1, h1, h2⟩ := arun_append_ok h
    have hargs := body_counted hb a a1 hr hl h1
    obtain ⟨a3, h5, h6, h7⟩ := body_complete false hb hargs a hr hl (by simp)
    rw [h1] at h5
    have h5 := Res.ok.inj h5
    subst h5
    rw [AllFnsList_append]
    exact ⟨hargs, item_counted hi a1 a' (ready_of_end hr h7 he) h2, trivial⟩
  | _, _, _, .comma args e p hb he, a, a', hr, hl, h => by
    obtain ⟨a1, h1, h2⟩ := arun_append_ok h
    exact body_counted hb a a1 hr hl h1
end

theorem run_notsUnary {checks : Bool} {ts : List Token} {a : AState} (h : AState.run checks {} ts = .ok a) : NotsUnary ts := by
  intro p m q args he hi
  subst he
  obtain ⟨a2, h1, _⟩ := arun_append_ok (arun_unchecked h)
  obtain ⟨a1, h3, h4⟩ := arun_append_ok h1
  have hr : AReady a1 := by
    have hs : startsItem a1.last = true := by
      cases hi with
      | fn _ _ e body hb =>
        obtain ⟨c, h5, _⟩ := Res.bind_ok h4
        obtain ⟨d, h6, _⟩ := Res.bind_ok h5
        have h6 : a1.openFn false .not = .ok d := h6
        unfold AState.openFn at h6
        split at h6
        next hs => exact hs
        next => simp [aErr, cfgErr] at h6
    obtain ⟨hk, hv, _⟩ := (AInv.init.run h3).starts hs
    exact ⟨hs, hk, hv⟩
  have := item_counted hi a1 a2 hr h4
  exact (countedNot_iff _ _).1 this.1.1

end CC
