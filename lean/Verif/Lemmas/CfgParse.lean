import Verif.Lemmas.CfgMachine
/-
Helper lemmas: the machine of `Lemmas/CfgMachine.lean` accepts exactly the grammar of `Spec/CfgExpr.lean`.
-/
namespace CC

/-- What the parser checks of the operands of a function. -/
def Counted (checks : Bool) (f : FnName) (args : List CfgTree) : Prop :=
  CountedNot f args ∧ (checks = true → Narrow f args)

def AState.top (a : AState) : List CfgTree :=
  match a.frames with
  | [] => a.root
  | (_, ch) :: _ => ch

def topOf (frames : List (FnName × List CfgTree)) (root : List CfgTree) : List CfgTree :=
  match frames with
  | [] => root
  | (_, ch) :: _ => ch

theorem AllFnsList_append (P : FnName → List CfgTree → Prop) (a b : List CfgTree) :
    CfgTree.AllFnsList P (a ++ b) ↔ CfgTree.AllFnsList P a ∧ CfgTree.AllFnsList P b := by
  induction a with
  | nil => simp [CfgTree.AllFnsList]
  | cons t a ih => simp [CfgTree.AllFnsList, ih, and_assoc]

/-! ### Soundness -/

/-- The tokens before the operands of the innermost open function. -/
def OpenOK (root : List CfgTree) : List (FnName × List CfgTree) → List Token → Prop
  | [], q => q = []
  | (f, _) :: rest, q => ∃ q' p' e, OpenOK root rest q' ∧ Body true (topOf rest root) e p' ∧ e ≠ .item ∧
      q = q' ++ p' ++ [f.token, .openParen]

/-- The tokens of the operands of the innermost open function. -/
inductive Level (ch : List CfgTree) : Option Str → Option Str → Option Token → List Token → Prop where
  | start (last : Option Token) : last = none ∨ last = some .openParen → ch = [] → Level ch none none last []
  | comma (p : List Token) : Body true ch .comma p → Level ch none none (some .comma) p
  | item (p : List Token) : Body true ch .item p → Level ch none none (some .closeParen) p
  | key (e : BodyEnd) (p : List Token) (k : Str) : Body true ch e p → e ≠ .item →
      Level ch (some k) none (some (.key k)) (p ++ [.key k])
  | equals (e : BodyEnd) (p : List Token) (k : Str) : Body true ch e p → e ≠ .item →
      Level ch (some k) none (some .equals) (p ++ [.key k, .equals])
  | value (e : BodyEnd) (p : List Token) (k v : Str) : Body true ch e p → e ≠ .item →
      Level ch (some k) (some v) (some (.value v)) (p ++ [.key k, .equals, .value v])

inductive AInv (a : AState) (ts : List Token) : Prop where
  | level (q p : List Token) : OpenOK a.root a.frames q → Level (topOf a.frames a.root) a.key a.val a.last p → ts = q ++ p →
      AInv a ts
  | word (f : FnName) (rest : List (FnName × List CfgTree)) (q p : List Token) (e : BodyEnd) : a.frames = (f, []) :: rest →
      a.last = some f.token → a.key = none → a.val = none → OpenOK a.root rest q → Body true (topOf rest a.root) e p →
      e ≠ .item → ts = q ++ p ++ [f.token] → AInv a ts

theorem Level.starts {ch : List CfgTree} {k v : Option Str} {last : Option Token} {p : List Token} (h : Level ch k v last p)
    (hs : startsItem last = true) : k = none ∧ v = none ∧ ∃ e, Body true ch e p ∧ e ≠ .item := by
  cases h with
  | start _ h1 h2 => exact ⟨rfl, rfl, .start, h2 ▸ Body.start, by simp⟩
  | comma p h => exact ⟨rfl, rfl, .comma, h, by simp⟩
  | item | key | equals | value => simp [startsItem] at hs

/-- The operands with the one being read. -/
theorem Level.pending {a : AState} {ch : List CfgTree} {p : List Token} (h : Level ch a.key a.val a.last p)
    (hs : a.last ≠ some .equals) : ∃ e, Body true (ch ++ (a.pending.map CfgTree.pred).toList) e p ∧
      (badBeforeComma a.last = false → e ≠ .start) := by
  obtain ⟨frames, root, key, val, last⟩ := a
  simp only at h hs
  unfold AState.pending
  cases h with
  | start _ h1 h2 => exact ⟨.start, by subst h2; exact Body.start, by rcases h1 with h | h <;> simp [h, badBeforeComma]⟩
  | comma p h => exact ⟨.comma, by simpa using h, by simp⟩
  | item p h => exact ⟨.item, by simpa using h, by simp⟩
  | key e p k h he => exact ⟨.item, Body.item _ _ _ _ _ h he (Item.flag k), by simp⟩
  | equals e p k h he => simp at hs
  | value e p k v h he => exact ⟨.item, Body.item _ _ _ _ _ h he (Item.keyValue k v), by simp⟩

theorem OpenOK.addChild {a : AState} {q : List Token} (h : OpenOK a.root a.frames q) (t : CfgTree) :
    OpenOK (a.addChild t).root (a.addChild t).frames q := by
  unfold AState.addChild
  cases hf : a.frames with
  | nil => rw [hf] at h; simp only [hf]; exact h
  | cons fr rest => rw [hf] at h; exact h

theorem topOf_addChild (a : AState) (t : CfgTree) :
    topOf (a.addChild t).frames (a.addChild t).root = topOf a.frames a.root ++ [t] := by
  unfold AState.addChild
  cases hf : a.frames with
  | nil => simp [topOf, hf]
  | cons fr rest => simp [topOf]

theorem addChild_key (a : AState) (t : CfgTree) : (a.addChild t).key = a.key := by
  unfold AState.addChild; split <;> rfl
theorem addChild_val (a : AState) (t : CfgTree) : (a.addChild t).val = a.val := by
  unfold AState.addChild; split <;> rfl
theorem addChild_last (a : AState) (t : CfgTree) : (a.addChild t).last = a.last := by
  unfold AState.addChild; split <;> rfl

theorem Res.bind_ok {α β : Type} {x : Res α} {f : α → Res β} {b : β} (h : (x >>= f) = .ok b) :
    ∃ a, x = .ok a ∧ f a = .ok b := by
  cases x with
  | ok a => exact ⟨a, rfl, h⟩
  | err => simp at h
  | panic => simp at h

theorem aErr_ne {α : Type} {a : α} : (aErr : Res α) ≠ .ok a := by simp [aErr, cfgErr]

theorem AInv.starts {a : AState} {ts : List Token} (h : AInv a ts) (hs : startsItem a.last = true) :
    a.key = none ∧ a.val = none ∧ ∃ q p e, OpenOK a.root a.frames q ∧ Body true (topOf a.frames a.root) e p ∧ e ≠ .item ∧
      ts = q ++ p := by
  cases h with
  | level q p ho hl ht =>
    obtain ⟨h1, h2, e, hb, he⟩ := hl.starts hs
    exact ⟨h1, h2, q, p, e, ho, hb, he, ht⟩
  | word f rest q p e hf hlast =>
    rw [hlast] at hs
    cases f <;> simp [FnName.token, startsItem] at hs

theorem AInv.openFn {checks : Bool} {a a' : AState} {ts : List Token} {f : FnName} (h : AInv a ts)
    (hs : a.openFn checks f = .ok a') : AInv { a' with last := some f.token } (ts ++ [f.token]) := by
  unfold AState.openFn at hs
  split at hs
  next hst =>
    obtain ⟨h1, h2, q, p, e, ho, hb, he, ht⟩ := h.starts hst
    have ha' : a' = { a with frames := (f, []) :: a.frames } := by
      split at hs
      next hf => rw [hf]; exact (Res.ok.inj hs).symm
      next g ch rest hf =>
        split at hs
        · cases hs
        · rw [hf]; exact (Res.ok.inj hs).symm
    subst ha'
    exact AInv.word f a.frames q p e rfl rfl h1 h2 ho hb he (by rw [ht])
  next => exact (aErr_ne hs).elim

theorem AInv.level_of {a : AState} {ts : List Token} (h : AInv a ts) (hs : afterFn a.last = false) :
    ∃ q p, OpenOK a.root a.frames q ∧ Level (topOf a.frames a.root) a.key a.val a.last p ∧ ts = q ++ p := by
  cases h with
  | level q p ho hl ht => exact ⟨q, p, ho, hl, ht⟩
  | word f rest q p e hf hlast =>
    rw [hlast] at hs
    cases f <;> simp [FnName.token, afterFn] at hs

theorem AInv.step {checks : Bool} {a a' : AState} {ts : List Token} {t : Token} (h : AInv a ts)
    (hs : a.step checks t = .ok a') : AInv a' (ts ++ [t]) := by
  unfold AState.step at hs
  obtain ⟨b, hb, hs⟩ := Res.bind_ok hs
  have ha' := Res.ok.inj hs
  subst ha'
  cases t with
  | key k =>
    simp only at hb
    split at hb
    next hst =>
      obtain ⟨h1, h2, q, p, e, ho, hbd, he, ht⟩ := h.starts hst
      have := Res.ok.inj hb
      subst this
      refine AInv.level q (p ++ [.key k]) ho ?_ (by rw [ht]; simp)
      simp only [h2]
      exact Level.key e p k hbd he
    next => exact (aErr_ne hb).elim
  | value v =>
    simp only at hb
    split at hb
    next hst =>
      have := Res.ok.inj hb
      subst this
      obtain ⟨q, p, ho, hl, ht⟩ := h.level_of (by rw [hst]; rfl)
      rw [hst] at hl
      generalize hk : a.key = k at hl
      generalize hv : a.val = w at hl
      cases hl with
      | start _ h1 => simp at h1
      | equals e p k hbd he =>
        refine AInv.level q (p ++ [.key k, .equals, .value v]) ho ?_ (by rw [ht]; simp)
        simp only [hk]
        exact Level.value e p k v hbd he
    next => exact (aErr_ne hb).elim
  | equals =>
    simp only at hb
    split at hb
    next hst =>
      have := Res.ok.inj hb
      subst this
      cases hla : a.last with
      | none => simp [hla, afterKey] at hst
      | some t =>
        cases t <;> simp [hla, afterKey] at hst
        rename_i k
        obtain ⟨q, p, ho, hl, ht⟩ := h.level_of (by rw [hla]; rfl)
        rw [hla] at hl
        generalize hk : a.key = k at hl
        generalize hv : a.val = w at hl
        cases hl with
        | start _ h1 => simp at h1
        | key e p k' hbd he =>
          refine AInv.level q (p ++ [.key k, .equals]) ho ?_ (by rw [ht]; simp)
          simp only [hk, hv]
          exact Level.equals e p _ hbd he
    next => exact (aErr_ne hb).elim
  | all => exact AInv.openFn (f := .all) h hb
  | any => exact AInv.openFn (f := .any) h hb
  | not => exact AInv.openFn (f := .not) h hb
  | openParen =>
    simp only at hb
    split at hb
    next hst =>
      have := Res.ok.inj hb
      subst this
      cases h with
      | level q p ho hl ht =>
        generalize hk : a.last = k at hl hst
        generalize a.key = k1 at hl
        generalize a.val = k2 at hl
        cases hl with
        | start _ h1 => rcases h1 with h1 | h1 <;> simp [h1, afterFn] at hst
        | comma | item | key | equals | value => simp [afterFn] at hst
      | word f rest q p e hf hlast hk hv ho hbd he ht =>
        refine AInv.level (q ++ p ++ [f.token, .openParen]) [] ?_ ?_ (by rw [ht]; simp)
        · simp only [hf]
          exact ⟨q, p, e, ho, hbd, he, rfl⟩
        · simp only [hk, hv, hf, topOf]
          exact Level.start _ (Or.inr rfl) rfl
    next => exact (aErr_ne hb).elim
  | closeParen =>
    simp only [AState.close] at hb
    split at hb
    next => exact (aErr_ne hb).elim
    next hst =>
      have hne : a.last ≠ some .equals := by intro h; simp [h, badBeforeClose] at hst
      have hnf : afterFn a.last = false := by
        cases hl : a.last with
        | none => rfl
        | some t => cases t <;> simp [hl, badBeforeClose] at hst <;> rfl
      obtain ⟨q, p, ho, hl, ht⟩ := h.level_of hnf
      split at hb
      next => exact (aErr_ne hb).elim
      next f ch rest hf =>
        split at hb
        next => exact (aErr_ne hb).elim
        next =>
          have := Res.ok.inj hb
          subst this
          obtain ⟨e, hbd, _⟩ := hl.pending hne
          rw [hf] at ho hbd
          obtain ⟨q', p', e', ho', hb', he', hq⟩ := ho
          simp only [topOf] at hbd
          generalize ha2 : { a with frames := rest, key := none, val := none } = a2
          generalize hargs : ch ++ (a.pending.map CfgTree.pred).toList = args at hbd
          have e1 : a2.frames = rest := by rw [← ha2]
          have e2 : a2.root = a.root := by rw [← ha2]
          have e3 : a2.key = none := by rw [← ha2]
          have e4 : a2.val = none := by rw [← ha2]
          refine AInv.level q' (p' ++ (f.token :: .openParen :: (p ++ [.closeParen]))) ?_ ?_ ?_
          · exact OpenOK.addChild (a := a2) (by rw [e1, e2]; exact ho') (.fn f args)
          · simp only
            rw [addChild_key, addChild_val, e3, e4, topOf_addChild, e1, e2]
            exact Level.item _ (Body.item _ _ _ _ _ hb' he' (Item.fn f args e p hbd))
          · rw [ht, hq]; simp
  | comma =>
    simp only [AState.comma] at hb
    split at hb
    next => exact (aErr_ne hb).elim
    next hst =>
      have hne : a.last ≠ some .equals := by intro h; simp [h, badBeforeComma] at hst
      have hnf : afterFn a.last = false := by
        cases hl : a.last with
        | none => rfl
        | some t => cases t <;> simp [hl, badBeforeComma] at hst <;> rfl
      obtain ⟨q, p, ho, hl, ht⟩ := h.level_of hnf
      obtain ⟨e, hbd, he⟩ := hl.pending hne
      have he := he (by simpa using hst)
      have hbd' : Body true (topOf a.frames a.root ++ (a.pending.map CfgTree.pred).toList) .comma (p ++ [.comma]) :=
        Body.comma _ e _ hbd (by cases e <;> simp at he ⊢)
      generalize ha2 : { a with key := none, val := none } = a2 at hb
      have e1 : a2.frames = a.frames := by rw [← ha2]
      have e2 : a2.root = a.root := by rw [← ha2]
      have e3 : a2.key = none := by rw [← ha2]
      have e4 : a2.val = none := by rw [← ha2]
      refine AInv.level q (p ++ [.comma]) ?_ ?_ (by rw [ht]; simp)
      all_goals
        cases hp : a.pending with
        | none =>
          simp only [hp] at hb hbd'
          have := Res.ok.inj hb
          subst this
          simp only [e1, e2, e3, e4]
          first | exact ho | exact Level.comma _ (by simpa using hbd')
        | some x =>
          simp only [hp] at hb hbd'
          have := Res.ok.inj hb
          subst this
          first
            | exact OpenOK.addChild (a := a2) (by rw [e1, e2]; exact ho) _
            | (simp only
               rw [addChild_key, addChild_val, e3, e4, topOf_addChild, e1, e2]
               exact Level.comma _ (by simpa using hbd'))

theorem AInv.run {checks : Bool} {a a' : AState} {ts us : List Token} (h : AInv a ts) (hs : a.run checks us = .ok a') :
    AInv a' (ts ++ us) := by
  induction us generalizing a ts with
  | nil => have := Res.ok.inj hs; subst this; simpa using h
  | cons t us ih =>
    obtain ⟨b, hb, hs⟩ := Res.bind_ok hs
    have := ih (h.step hb) hs
    simpa using this

theorem AInv.init : AInv {} [] :=
  AInv.level [] [] rfl (Level.start none (Or.inl rfl) rfl) rfl

/-- The counts of all functions read. -/
structure ACounts (checks : Bool) (a : AState) : Prop where
  root : CfgTree.AllFnsList (Counted checks) a.root
  frames : ∀ fr ∈ a.frames, CfgTree.AllFnsList (Counted checks) fr.2
  top : checks = true → ∀ fr rest, a.frames = fr :: rest → fnCount fr.2 ≤ 255 ∧ ∀ fr' ∈ rest, fnCount fr'.2 ≤ 254

theorem ACounts.addChild {checks : Bool} {a : AState} {t : CfgTree} (h : ACounts checks a) (ht : t.AllFns (Counted checks))
    (hc : checks = true → t.isFn = true → ∀ fr rest, a.frames = fr :: rest → fnCount fr.2 ≤ 254) :
    ACounts checks (a.addChild t) := by
  unfold AState.addChild
  split
  next hf =>
    refine ⟨?_, h.frames, h.top⟩
    rw [AllFnsList_append]
    exact ⟨h.root, ht, trivial⟩
  next f ch rest hf =>
    refine ⟨h.root, ?_, ?_⟩
    · intro fr hm
      simp only [List.mem_cons] at hm
      rcases hm with rfl | hm
      · simp only [AllFnsList_append]
        exact ⟨h.frames (f, ch) (by rw [hf]; simp), ht, trivial⟩
      · exact h.frames fr (by rw [hf]; simp [hm])
    · intro hck fr rest' he
      simp only [List.cons.injEq] at he
      obtain ⟨rfl, rfl⟩ := he
      have h1 := h.top hck _ _ hf
      refine ⟨?_, h1.2⟩
      simp only [fnCount_append]
      cases htf : t.isFn
      · simp [fnCount, List.countP_cons, htf]; exact h1.1
      · have := hc hck htf _ _ hf
        simp only at this
        simp [fnCount, List.countP_cons, htf]
        exact this

theorem ACounts.step {checks : Bool} {a a' : AState} {t : Token} (h : ACounts checks a)
    (hs : a.step checks t = .ok a') : ACounts checks a' := by
  unfold AState.step at hs
  obtain ⟨b, hb, hs⟩ := Res.bind_ok hs
  have ha' := Res.ok.inj hs
  subst ha'
  suffices ACounts checks b from ⟨this.root, this.frames, this.top⟩
  have hopen : ∀ f, a.openFn checks f = .ok b → ACounts checks b := by
    intro f hb
    unfold AState.openFn at hb
    split at hb
    · split at hb
      next hf =>
        have := Res.ok.inj hb; subst this
        refine ⟨h.root, ?_, ?_⟩
        · intro fr hm; simp at hm; subst hm; trivial
        · intro _ fr rest he
          simp at he
          obtain ⟨rfl, rfl⟩ := he
          simp [fnCount]
      next g ch rest hf =>
        split at hb
        · cases hb
        next hcond =>
          have := Res.ok.inj hb; subst this
          refine ⟨h.root, ?_, ?_⟩
          · intro fr hm
            simp only [List.mem_cons] at hm
            rcases hm with rfl | hm
            · trivial
            · exact h.frames fr (by rw [hf]; simpa using hm)
          · intro hck fr rest' he
            simp only [List.cons.injEq] at he
            obtain ⟨rfl, rfl⟩ := he
            refine ⟨by simp [fnCount], ?_⟩
            intro fr' hm
            have ht := h.top hck _ _ hf
            simp only [List.mem_cons] at hm
            rcases hm with rfl | hm
            · have h1 := ht.1
              simp only at h1 ⊢
              have : ¬ fnCount ch % 256 = 255 := fun e => hcond ⟨e, hck⟩
              omega
            · exact ht.2 _ hm
    · exact (aErr_ne hb).elim
  have hpend : CfgTree.AllFnsList (Counted checks) (a.pending.map CfgTree.pred).toList := by
    cases a.pending
    · trivial
    · exact ⟨trivial, trivial⟩
  cases t with
  | key k =>
    simp only at hb
    split at hb
    · have := Res.ok.inj hb; subst this
      exact ⟨h.root, h.frames, h.top⟩
    · exact (aErr_ne hb).elim
  | value k =>
    simp only at hb
    split at hb
    · have := Res.ok.inj hb; subst this
      exact ⟨h.root, h.frames, h.top⟩
    · exact (aErr_ne hb).elim
  | equals =>
    simp only at hb
    split at hb
    · have := Res.ok.inj hb; subst this
      exact h
    · exact (aErr_ne hb).elim
  | all => exact hopen _ hb
  | any => exact hopen _ hb
  | not => exact hopen _ hb
  | openParen =>
    simp only at hb
    split at hb
    · have := Res.ok.inj hb; subst this
      exact h
    · exact (aErr_ne hb).elim
  | closeParen =>
    simp only [AState.close] at hb
    split at hb
    next => exact (aErr_ne hb).elim
    next =>
      split at hb
      next => exact (aErr_ne hb).elim
      next f ch rest hf =>
        split at hb
        next => exact (aErr_ne hb).elim
        next hn =>
          have := Res.ok.inj hb
          subst this
          apply ACounts.addChild
          · refine ⟨h.root, ?_, ?_⟩
            · intro fr hm; exact h.frames fr (by rw [hf]; simp at hm ⊢; exact Or.inr hm)
            · intro hck fr rest' he
              simp only at he
              subst he
              have := (h.top hck _ _ hf).2
              exact ⟨by have := this fr (by simp); omega, fun fr' hm => this fr' (by simp [hm])⟩
          · refine ⟨⟨?_, ?_⟩, ?_⟩
            · intro hf'
              exact Classical.byContradiction fun hc => hn ⟨hf', hc⟩
            · intro hck
              have := (h.top hck _ _ hf).1
              have e : (ch ++ (a.pending.map CfgTree.pred).toList).countP CfgTree.isFn = fnCount ch := by
                have := fnCount_append ch (a.pending.map CfgTree.pred).toList
                rw [fnCount_pending] at this
                exact this
              unfold Narrow
              rw [e]
              simp only at this
              omega
            · rw [AllFnsList_append]
              exact ⟨h.frames (f, ch) (by rw [hf]; simp), hpend⟩
          · intro hck _ fr rest' he
            simp only at he
            subst he
            exact (h.top hck _ _ hf).2 fr (by simp)
  | comma =>
    simp only [AState.comma] at hb
    split at hb
    next => exact (aErr_ne hb).elim
    next =>
      have h2 : ACounts checks { a with key := none, val := none } := ⟨h.root, h.frames, h.top⟩
      cases hp : a.pending with
      | none =>
        simp only [hp] at hb
        have := Res.ok.inj hb; subst this
        exact h2
      | some x =>
        simp only [hp] at hb
        have := Res.ok.inj hb; subst this
        exact h2.addChild trivial (by intro _ h; cases h)

theorem ACounts.run {checks : Bool} {a a' : AState} {us : List Token} (h : ACounts checks a) (hs : a.run checks us = .ok a') :
    ACounts checks a' := by
  induction us generalizing a with
  | nil => have := Res.ok.inj hs; subst this; exact h
  | cons t us ih =>
    obtain ⟨b, hb, hs⟩ := Res.bind_ok hs
    exact ih (h.step hb) hs

theorem ACounts.init (checks : Bool) : ACounts checks {} :=
  ⟨trivial, by simp, by simp⟩

/-- What an accepting run has read. -/
theorem run_sound {checks : Bool} {ts : List Token} {a : AState} (h : AState.run checks {} ts = .ok a) (hacc : a.Accepts) :
    (∃ e, Body true a.trees e ts) ∧ CfgTree.AllFnsList (Counted checks) a.trees := by
  obtain ⟨h1, h2, _, _⟩ := hacc
  have hi := AInv.init.run h
  have hc := (ACounts.init checks).run h
  constructor
  · cases hi with
    | level q p ho hl ht =>
      rw [h2] at ho hl
      obtain ⟨e, hb, _⟩ := hl.pending h1
      have ho : q = [] := ho
      subst ho
      simp only [List.nil_append] at ht
      subst ht
      exact ⟨e, hb⟩
    | word f rest q p e hf => rw [h2] at hf; cases hf
  · unfold AState.trees
    rw [AllFnsList_append]
    refine ⟨hc.root, ?_⟩
    cases a.pending
    · trivial
    · exact ⟨trivial, trivial⟩

/-! ### Completeness -/

/-- The state with the pending predicate added. -/
def AState.settle (a : AState) : AState :=
  match a.pending with
  | none => a
  | some p => { a with key := none, val := none }.addChild (.pred p)

def AState.addAll (a : AState) : List CfgTree → AState
  | [] => a
  | t :: ts => (a.addChild t).addAll ts

theorem addAll_append (a : AState) (l m : List CfgTree) : a.addAll (l ++ m) = (a.addAll l).addAll m := by
  induction l generalizing a with
  | nil => rfl
  | cons t l ih => exact ih _

def itemEnd : Option Token → Bool
  | some (.key _) | some (.value _) | some .closeParen => true
  | _ => false

theorem topOf_addAll (a : AState) (l : List CfgTree) :
    topOf (a.addAll l).frames (a.addAll l).root = topOf a.frames a.root ++ l := by
  induction l generalizing a with
  | nil => simp [AState.addAll]
  | cons t l ih => simp [AState.addAll, ih, topOf_addChild]

theorem addChild_withLast (a : AState) (t : CfgTree) (l : Option Token) :
    ({ a with last := l } : AState).addChild t = { a.addChild t with last := l } := by
  unfold AState.addChild
  cases h : a.frames with
  | nil => simp only
  | cons fr rest => simp only

theorem addAll_withLast (a : AState) (ts : List CfgTree) (l : Option Token) :
    ({ a with last := l } : AState).addAll ts = { a.addAll ts with last := l } := by
  induction ts generalizing a with
  | nil => rfl
  | cons t ts ih => simp only [AState.addAll, addChild_withLast, ih]

theorem addChild_frames_nil (a : AState) (t : CfgTree) : (a.addChild t).frames = [] ↔ a.frames = [] := by
  unfold AState.addChild
  split
  next h => simp [h]
  next h => simp [h]

theorem addAll_frames_nil (a : AState) (l : List CfgTree) : (a.addAll l).frames = [] ↔ a.frames = [] := by
  induction l generalizing a with
  | nil => rfl
  | cons t l ih => simp only [AState.addAll, ih, addChild_frames_nil]

theorem addAll_cons (a : AState) (l : List CfgTree) {f : FnName} {ch : List CfgTree} {rest : List (FnName × List CfgTree)}
    (h : a.frames = (f, ch) :: rest) : a.addAll l = { a with frames := (f, ch ++ l) :: rest } := by
  induction l generalizing a ch with
  | nil => cases a; simp only at h; subst h; simp [AState.addAll]
  | cons t l ih =>
    simp only [AState.addAll]
    have e : a.addChild t = { a with frames := (f, ch ++ [t]) :: rest } := by
      unfold AState.addChild; rw [h]
    rw [e, ih (ch := ch ++ [t]) _ rfl]
    simp

theorem addAll_key (a : AState) (l : List CfgTree) : (a.addAll l).key = a.key := by
  induction l generalizing a with
  | nil => rfl
  | cons t l ih => simp only [AState.addAll, ih, addChild_key]
theorem addAll_val (a : AState) (l : List CfgTree) : (a.addAll l).val = a.val := by
  induction l generalizing a with
  | nil => rfl
  | cons t l ih => simp only [AState.addAll, ih, addChild_val]

/-- A state in which an item may start. -/
structure AReady (a : AState) : Prop where
  starts : startsItem a.last = true
  key : a.key = none
  val : a.val = none

theorem AReady.pending {a : AState} (h : AReady a) : a.pending = none := by
  unfold AState.pending; rw [h.key]; rfl

theorem settle_idle {a : AState} (h : a.key = none) : a.settle = a := by
  unfold AState.settle AState.pending; rw [h]; rfl

/-- Closing a function whose operands have been read. -/
theorem run_close {checks : Bool} {a : AState} {f : FnName} {args : List CfgTree} {rest : List (FnName × List CfgTree)}
    (hbad : badBeforeClose a.last = false) (hset : a.settle.frames = (f, args) :: rest) (hc : CountedNot f args)
    (hidle : a.settle.key = none ∧ a.settle.val = none) :
    a.step checks .closeParen =
      .ok { ({ a.settle with frames := rest } : AState).addChild (.fn f args) with last := some .closeParen } := by
  have hfr : ∃ ch, a.frames = (f, ch) :: rest ∧ args = ch ++ (a.pending.map CfgTree.pred).toList ∧
      ({ a.settle with frames := rest } : AState) = { a with frames := rest, key := none, val := none } := by
    cases hp : a.pending with
    | none =>
      have hs : a.settle = a := by unfold AState.settle; rw [hp]
      rw [hs] at hset hidle ⊢
      exact ⟨args, hset, by simp, by cases a; simp only at hidle; simp [hidle.1, hidle.2]⟩
    | some x =>
      unfold AState.settle AState.addChild at hset ⊢
      simp only [hp] at hset ⊢
      split at hset
      next h => simp only at h hset; rw [h] at hset; cases hset
      next f2 ch2 rest2 h =>
        simp only [List.cons.injEq, Prod.mk.injEq] at hset
        obtain ⟨⟨rfl, rfl⟩, rfl⟩ := hset
        exact ⟨ch2, h, by simp, rfl⟩
  obtain ⟨ch, h1, h2, h3⟩ := hfr
  simp only [AState.step, AState.close, hbad, h1, ← h2]
  rw [if_neg (by simp), if_neg (fun h => h.2 (hc h.1)), h3]
  rfl

theorem FnName.step_eq (checks : Bool) (a : AState) (f : FnName) :
    a.step checks f.token = a.openFn checks f >>= fun a => .ok { a with last := some f.token } := by
  cases f <;> rfl

mutual
theorem item_complete (checks : Bool) : ∀ {t : CfgTree} {q : List Token}, Item true t q → t.AllFns (Counted checks) →
    ∀ a : AState, AReady a → (checks = true → t.isFn = true → a.frames ≠ [] → fnCount (topOf a.frames a.root) ≤ 254) →
    ∃ a', a.run checks q = .ok a' ∧ a'.settle = { a.addChild t with last := a'.last } ∧ itemEnd a'.last = true
  | _, _, .flag k, _, a, hr, _ => by
    refine ⟨{ a with key := some k, last := some (.key k) }, ?_, ?_, rfl⟩
    · simp [AState.run, AState.step, hr.starts]
    · unfold AState.settle AState.pending
      simp only [hr.val, Option.map_some]
      rw [← addChild_withLast]
      have : a.key = none := hr.key
      have : a.val = none := hr.val
      cases a
      simp_all
  | _, _, .keyValue k v, _, a, hr, _ => by
    refine ⟨{ a with key := some k, val := some v, last := some (.value v) }, ?_, ?_, rfl⟩
    · simp [AState.run, AState.step, hr.starts, afterKey]
    · unfold AState.settle AState.pending
      simp only [Option.map_some]
      rw [← addChild_withLast]
      have : a.key = none := hr.key
      have : a.val = none := hr.val
      cases a
      simp_all
  | _, _, .fn f args e body hbody, hall, a, hr, hcount => by
    obtain ⟨⟨hnot, hnarrow⟩, hargs⟩ := hall
    -- after the function name and `(`
    let a1 : AState := { a with frames := (f, []) :: a.frames, last := some .openParen }
    have hopen : a.run checks [f.token, .openParen] = .ok a1 := by
      simp only [AState.run, FnName.step_eq, AState.openFn, hr.starts, if_true]
      have haf : afterFn (some f.token) = true := by cases f <;> rfl
      cases hf : a.frames with
      | nil => simp [AState.step, haf, a1, hf]
      | cons fr rest =>
        obtain ⟨g, ch⟩ := fr
        simp only
        rw [if_neg]
        · simp [AState.step, haf, a1, hf]
        · rintro ⟨h1, h2⟩
          have := hcount h2 rfl (by rw [hf]; simp)
          rw [hf] at this
          simp only [topOf] at this
          omega
    have hb := body_complete checks hbody hargs a1 ⟨rfl, hr.key, hr.val⟩ (Or.inr rfl)
      (fun hc _ => by
        have := hnarrow hc
        unfold Narrow at this
        show fnCount ([] ++ args) ≤ 255
        rw [List.nil_append]
        unfold fnCount
        omega)
    obtain ⟨a2, hrun2, hset2, hend2⟩ := hb
    have hadd : a1.addAll args = { a1 with frames := (f, args) :: a.frames } := addAll_cons a1 args (ch := []) rfl
    have hset2' : a2.settle.frames = (f, args) :: a.frames := by rw [hset2, hadd]
    have hbad : badBeforeClose a2.last = false := by
      cases e with
      | start => rw [hend2.1]; rfl
      | comma => rw [hend2.1]; rfl
      | item =>
        have : itemEnd a2.last = true := hend2
        cases hl : a2.last with
        | none => rw [hl] at this; cases this
        | some t => rw [hl] at this; cases t <;> first | rfl | cases this
    have hclose := run_close (checks := checks) hbad hset2' hnot (by rw [hset2, hadd]; exact ⟨hr.key, hr.val⟩)
    have hback : ({ a2.settle with frames := a.frames } : AState) = { a with last := a2.last } := by
      rw [hset2, hadd]
    rw [hback, addChild_withLast] at hclose
    refine ⟨{ a.addChild (.fn f args) with last := some .closeParen }, ?_, ?_, rfl⟩
    · have e1 : f.token :: .openParen :: (body ++ [.closeParen]) = [f.token, .openParen] ++ (body ++ [.closeParen]) := rfl
      rw [e1, AState.run_append, hopen]
      show a1.run checks (body ++ [.closeParen]) = _
      rw [AState.run_append, hrun2]
      show a2.run checks [.closeParen] = _
      simp only [AState.run, hclose]
      rfl
    · rw [settle_idle]
      show (a.addChild _).key = none
      rw [addChild_key, hr.key]
theorem body_complete (checks : Bool) : ∀ {args : List CfgTree} {e : BodyEnd} {p : List Token}, Body true args e p →
    CfgTree.AllFnsList (Counted checks) args → ∀ a : AState, AReady a → (a.last = none ∨ a.last = some .openParen) →
    (checks = true → a.frames ≠ [] → fnCount (topOf a.frames a.root ++ args) ≤ 255) →
    ∃ a', a.run checks p = .ok a' ∧ a'.settle = { a.addAll args with last := a'.last } ∧
      (match e with
        | .start => a'.last = a.last ∧ a'.key = none ∧ a'.val = none
        | .item => itemEnd a'.last = true
        | .comma => a'.last = some .comma ∧ a'.key = none ∧ a'.val = none)
  | _, _, _, .start, _, a, hr, _, _ => ⟨a, rfl, by rw [settle_idle hr.key]; rfl, rfl, hr.key, hr.val⟩
  | _, _, _, .item args e p t q hb he hi, hall, a, hr, hl, hc => by
    rw [AllFnsList_append] at hall
    obtain ⟨a1, hrun1, hset1, hend1⟩ := body_complete checks hb hall.1 a hr hl (fun h1 h2 => by
      have := hc h1 h2
      rw [← List.append_assoc, fnCount_append] at this
      omega)
    have hk1 : a1.key = none ∧ a1.val = none ∧ startsItem a1.last = true := by
      cases e with
      | start => exact ⟨hend1.2.1, hend1.2.2, by rw [hend1.1]; exact hr.starts⟩
      | comma => exact ⟨hend1.2.1, hend1.2.2, by rw [hend1.1]; rfl⟩
      | item => exact (he rfl).elim
    rw [settle_idle hk1.1] at hset1
    obtain ⟨a2, hrun2, hset2, hend2⟩ := item_complete checks hi hall.2.1 a1 ⟨hk1.2.2, hk1.1, hk1.2.1⟩ (fun h1 h2 h3 => by
      rw [hset1] at h3 ⊢
      simp only at h3 ⊢
      rw [topOf_addAll]
      have := hc h1 (fun h => h3 ((addAll_frames_nil a args).2 h))
      rw [← List.append_assoc, fnCount_append] at this
      have e1 : fnCount [t] = 1 := by simp [fnCount, List.countP_cons, h2]
      omega)
    refine ⟨a2, ?_, ?_, hend2⟩
    · rw [AState.run_append, hrun1]
      exact hrun2
    · rw [hset2, hset1, addChild_withLast, addAll_append]
      rfl
  | _, _, _, .comma args e p hb he, hall, a, hr, hl, hc => by
    obtain ⟨a1, hrun1, hset1, hend1⟩ := body_complete checks hb hall a hr hl hc
    have hidle : a1.settle.key = none ∧ a1.settle.val = none := by
      rw [hset1]
      exact ⟨by simp only; rw [addAll_key, hr.key], by simp only; rw [addAll_val, hr.val]⟩
    have hbad : badBeforeComma a1.last = false := by
      rcases he with rfl | ⟨_, rfl⟩
      · have : itemEnd a1.last = true := hend1
        cases hl : a1.last with
        | none => rw [hl] at this; cases this
        | some t => rw [hl] at this; cases t <;> first | rfl | cases this
      · rw [hend1.1]; rfl
    have hcomma : a1.comma = .ok a1.settle := by
      unfold AState.comma
      rw [hbad, if_neg (by simp)]
      cases hp : a1.pending with
      | none =>
        have hs : a1.settle = a1 := by unfold AState.settle; rw [hp]
        rw [hs] at hidle ⊢
        cases a1
        simp only at hidle ⊢
        rw [hidle.1, hidle.2]
      | some x =>
        unfold AState.settle
        rw [hp]
    refine ⟨{ a1.settle with last := some .comma }, ?_, ?_, rfl, hidle.1, hidle.2⟩
    · rw [AState.run_append, hrun1]
      show a1.run checks [.comma] = _
      simp only [AState.run, AState.step, hcomma]
      rfl
    · have : ({ a1.settle with last := some .comma } : AState).settle = { a1.settle with last := some .comma } :=
        settle_idle hidle.1
      rw [this, hset1]
end

/-- A text of the grammar is accepted. -/
theorem run_complete {checks : Bool} {trees : List CfgTree} {e : BodyEnd} {ts : List Token} (h : Body true trees e ts)
    (hall : CfgTree.AllFnsList (Counted checks) trees) (hne : trees ≠ []) (hone : (predsOf trees).length ≤ 1) :
    ∃ a, AState.run checks {} ts = .ok a ∧ a.Accepts ∧ a.trees = trees := by
  obtain ⟨a, hrun, hset, hend⟩ := body_complete checks h hall {} ⟨rfl, rfl, rfl⟩ (Or.inl rfl) (by simp)
  have hroot : ∀ (l : List CfgTree) (b : AState), b.frames = [] → b.addAll l = { b with root := b.root ++ l } := by
    intro l
    induction l with
    | nil => intro b _; simp [AState.addAll]
    | cons t l ih =>
      intro b hb
      have e1 : b.addChild t = { b with root := b.root ++ [t] } := by
        unfold AState.addChild; rw [hb]
      simp only [AState.addAll]
      rw [e1, ih { b with root := b.root ++ [t] } hb]
      simp
  rw [hroot trees {} rfl] at hset
  simp only [List.nil_append] at hset
  have hframes : a.frames = [] := by
    have : a.settle.frames = [] := by rw [hset]
    unfold AState.settle at this
    split at this
    · exact this
    · rw [addChild_frames_nil] at this; exact this
  have htrees : a.trees = trees := by
    have : a.settle.root = trees := by rw [hset]
    unfold AState.settle AState.addChild at this
    unfold AState.trees
    cases hp : a.pending with
    | none => simp only [hp] at this; simpa using this
    | some p => simp only [hp, hframes] at this; simpa using this
  have hne2 : a.last ≠ some .equals := by
    cases e with
    | start => rw [hend.1]; simp
    | comma => rw [hend.1]; simp
    | item =>
      intro h
      have : itemEnd a.last = true := hend
      rw [h] at this
      cases this
  refine ⟨a, hrun, ⟨hne2, hframes, ?_, ?_⟩, htrees⟩
  · unfold AState.trees at htrees; rw [htrees]; exact hne
  · unfold AState.trees at htrees; rw [htrees]; exact hone

end CC
