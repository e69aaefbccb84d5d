import Verif.Lemmas.CfgLex
/-
Helper lemmas: the parser of cfg expressions refines a machine that works on plain tokens and builds formulas.
-/
namespace CC

/-- The number of functions among the formulas. -/
abbrev fnCount (l : List CfgTree) : Nat := l.countP CfgTree.isFn

/-- The predicates among the formulas. -/
def predsOf : List CfgTree → List Predicate
  | [] => []
  | .pred p :: ts => p :: predsOf ts
  | .fn .. :: ts => predsOf ts

theorem predsOf_append (a b : List CfgTree) : predsOf (a ++ b) = predsOf a ++ predsOf b := by
  induction a with
  | nil => rfl
  | cons t a ih => cases t <;> simp [predsOf, ih]

theorem fnCount_append (a b : List CfgTree) : fnCount (a ++ b) = fnCount a + fnCount b := List.countP_append

theorem length_eq (l : List CfgTree) : l.length = (predsOf l).length + fnCount l := by
  induction l with
  | nil => rfl
  | cons t l ih => cases t with
    | pred p => simp only [predsOf, fnCount, List.length_cons, List.countP_cons, CfgTree.isFn] at ih ⊢; simp; omega
    | fn f args => simp only [predsOf, fnCount, List.length_cons, List.countP_cons, CfgTree.isFn] at ih ⊢; simp; omega

/-- What the parser takes for the number of operands. -/
def countOf (l : List CfgTree) : Nat := (predsOf l).length + fnCount l % 256

/-- The condition the parser checks for `not`. -/
def CountedNot (f : FnName) (args : List CfgTree) : Prop := f = .not → countOf args = 1

/-- A node of a parsed expression with the predicates spelled out. -/
inductive RNode where
  | fn (f : Func)
  | pred (p : Predicate)
deriving DecidableEq

/-- `ExprNode` with the predicates spelled out. -/
def ExprNode.resolve (original : Str) : ExprNode → Option RNode
  | .fn f => some (.fn f)
  | .predicate p => (p.toPred original).map .pred

def FnName.func (f : FnName) (n : Nat) : Func :=
  match f with
  | .all => .all n
  | .any => .any n
  | .not => .not

mutual
/-- The output of the parser for a formula. -/
def CfgTree.post : CfgTree → List RNode
  | .pred p => [.pred p]
  | .fn f args => CfgTree.postFns args ++ (predsOf args).map .pred ++ [.fn (f.func (countOf args))]
def CfgTree.postFns : List CfgTree → List RNode
  | [] => []
  | .pred _ :: ts => CfgTree.postFns ts
  | .fn f args :: ts => CfgTree.post (.fn f args) ++ CfgTree.postFns ts
end

theorem postFns_append (a b : List CfgTree) : CfgTree.postFns (a ++ b) = CfgTree.postFns a ++ CfgTree.postFns b := by
  induction a with
  | nil => rfl
  | cons t a ih => cases t <;> simp [CfgTree.postFns, ih]

/-! ### The machine -/

structure AState where
  frames : List (FnName × List CfgTree) := []
  root : List CfgTree := []
  key : Option Str := none
  val : Option Str := none
  last : Option Token := none

def AState.pending (a : AState) : Option Predicate :=
  a.key.map fun k => match a.val with
    | none => .flag k
    | some v => .keyValue k v

def AState.addChild (a : AState) (t : CfgTree) : AState :=
  match a.frames with
  | [] => { a with root := a.root ++ [t] }
  | (f, ch) :: rest => { a with frames := (f, ch ++ [t]) :: rest }

def aErr {α : Type} : Res α := cfgErr [] 0 0 .empty

def AState.openFn (checks : Bool) (a : AState) (f : FnName) : Res AState :=
  if startsItem a.last then
    match a.frames with
    | [] => .ok { a with frames := [(f, [])] }
    | (g, ch) :: rest =>
      if fnCount ch % 256 = 255 ∧ checks = true then .panic else .ok { a with frames := (f, []) :: (g, ch) :: rest }
  else aErr

def AState.close (a : AState) : Res AState :=
  if badBeforeClose a.last then aErr
  else
    match a.frames with
    | [] => aErr
    | (f, ch) :: rest =>
      let args := ch ++ (a.pending.map CfgTree.pred).toList
      if f = .not ∧ countOf args ≠ 1 then aErr
      else .ok ({ a with frames := rest, key := none, val := none }.addChild (.fn f args))

def AState.comma (a : AState) : Res AState :=
  if badBeforeComma a.last then aErr
  else
    let a' := { a with key := none, val := none }
    match a.pending with
    | none => .ok a'
    | some p => .ok (a'.addChild (.pred p))

def AState.step (checks : Bool) (a : AState) (t : Token) : Res AState :=
  (match t with
    | .key k => if startsItem a.last then .ok { a with key := some k } else aErr
    | .value v => if a.last = some .equals then .ok { a with val := some v } else aErr
    | .equals => if afterKey a.last then .ok a else aErr
    | .all => a.openFn checks .all
    | .any => a.openFn checks .any
    | .not => a.openFn checks .not
    | .openParen => if afterFn a.last then .ok a else aErr
    | .closeParen => a.close
    | .comma => a.comma) >>= fun a => .ok { a with last := some t }

def AState.run (checks : Bool) : AState → List Token → Res AState
  | a, [] => .ok a
  | a, t :: ts => a.step checks t >>= fun a => AState.run checks a ts

theorem AState.run_append (checks : Bool) (a : AState) (p q : List Token) :
    a.run checks (p ++ q) = a.run checks p >>= fun a => a.run checks q := by
  induction p generalizing a with
  | nil => rfl
  | cons t p ih =>
    simp only [List.cons_append, AState.run]
    cases a.step checks t <;> simp [ih]

/-! ### Refinement -/

def OptRel {α β : Type} (P : α → β → Prop) : Option α → Option β → Prop
  | none, none => True
  | some a, some b => P a b
  | _, _ => False

def SpanIs (original : Str) (sp : Span) (k : Str) : Prop := slice original sp.start sp.stop = some k

structure FrameOK (original : Str) (extra : Nat) (fs : FuncAndSpan) (fr : FnName × List CfgTree) : Prop where
  func : fs.func = fr.1
  nest : fs.nestLevel = (fnCount fr.2 + extra) % 256
  preds : fs.predicates.map (fun p => p.toPred original) = (predsOf fr.2).map some

def StackOK (original : Str) : Nat → List FuncAndSpan → List (FnName × List CfgTree) → Prop
  | _, [], [] => True
  | n, fs :: st, fr :: frs => FrameOK original n fs fr ∧ StackOK original 1 st frs
  | _, _, _ => False

/-- The part of the queue that belongs to the open functions. -/
def framesPost : List (FnName × List CfgTree) → List RNode
  | [] => []
  | (_, ch) :: rest => framesPost rest ++ CfgTree.postFns ch

structure Refines (original : Str) (s : PState) (a : AState) : Prop where
  last : s.last = a.last
  key : OptRel (SpanIs original) s.predKey a.key
  val : OptRel (SpanIs original) s.predVal a.val
  stack : StackOK original 0 s.stack a.frames
  queue : s.queue.map (ExprNode.resolve original) = (a.root.flatMap CfgTree.post ++ framesPost a.frames).map some
  roots : s.rootCount = (predsOf a.root).length

/-- Both runs succeed in related states, or both fail, or both panic. -/
def Sim (original : Str) : Res PState → Res AState → Prop
  | .ok s, .ok a => Refines original s a
  | .err _, .err _ => True
  | .panic, .panic => True
  | _, _ => False

/-- The token is spelled in the text. -/
structure Spelled (original : Str) (lt : LexerToken) : Prop where
  text : slice original lt.span.start lt.span.stop = some lt.token.text
  value : ∀ v, lt.token = .value v → slice original (lt.span.start + 1) (lt.span.stop - 1) = some v

theorem Refines.init (original : Str) : Refines original {} {} :=
  ⟨rfl, trivial, trivial, trivial, rfl, rfl⟩

theorem Refines.pending {original : Str} {s : PState} {a : AState} (h : Refines original s a) :
    (s.pending.toList.map fun p => p.toPred original) = a.pending.toList.map some := by
  have hk := h.key
  have hv := h.val
  unfold PState.pending AState.pending
  rcases e1 : s.predKey with _ | sp <;> rcases e2 : a.key with _ | k <;> rw [e1, e2] at hk
  · rfl
  · exact hk.elim
  · exact hk.elim
  · rcases e3 : s.predVal with _ | sv <;> rcases e4 : a.val with _ | v <;> rw [e3, e4] at hv
    · simp only [OptRel, SpanIs] at hk
      simp [InnerPredicate.toPred, hk]
    · exact hv.elim
    · exact hv.elim
    · simp only [OptRel, SpanIs] at hk hv
      simp [InnerPredicate.toPred, hk, hv]

theorem Refines.key_isSome {original : Str} {s : PState} {a : AState} (h : Refines original s a) :
    s.predKey.isSome = a.key.isSome := by
  have hk := h.key
  rcases e1 : s.predKey with _ | sp <;> rcases e2 : a.key with _ | k <;> rw [e1, e2] at hk
  · rfl
  · exact hk.elim
  · exact hk.elim
  · rfl

theorem resolve_preds (original : Str) (l : List InnerPredicate) (m : List Predicate)
    (h : l.map (fun p => p.toPred original) = m.map some) :
    (l.map ExprNode.predicate).map (ExprNode.resolve original) = (m.map RNode.pred).map some := by
  induction l generalizing m with
  | nil => cases m with
    | nil => rfl
    | cons => simp at h
  | cons p l ih => cases m with
    | nil => simp at h
    | cons q m =>
      simp only [List.map_cons, List.cons.injEq] at h
      simp [ExprNode.resolve, h.1]
      simpa using ih m h.2

theorem length_of_map {α β : Type} {f : α → Option β} {l : List α} {m : List β} (h : l.map f = m.map some) :
    l.length = m.length := by
  have := congrArg List.length h
  simpa using this

theorem flatMap_post_pred (l : List CfgTree) (p : Predicate) :
    (l ++ [CfgTree.pred p]).flatMap CfgTree.post = l.flatMap CfgTree.post ++ [.pred p] := by
  simp [CfgTree.post]

theorem sim_openFn (checks : Bool) {original : Str} {s : PState} {a : AState} (h : Refines original s a) (f : FnName)
    (lt : LexerToken) : Sim original (s.openFn checks original f lt) (a.openFn checks f) := by
  unfold PState.openFn AState.openFn
  rw [h.last]
  split
  · have hst := h.stack
    rcases e1 : s.stack with _ | ⟨fs, st⟩ <;> rcases e2 : a.frames with _ | ⟨⟨g, ch⟩, frs⟩ <;> rw [e1, e2] at hst
    · refine ⟨rfl, h.key, h.val, ⟨⟨rfl, rfl, rfl⟩, trivial⟩, ?_, h.roots⟩
      have := h.queue
      rw [e2] at this
      simpa [framesPost, CfgTree.postFns] using this
    · exact hst.elim
    · exact hst.elim
    · simp only
      obtain ⟨hf, hrest⟩ := hst
      have hn := hf.nest
      simp only [Nat.add_zero] at hn
      unfold u8Incr
      by_cases hc : fnCount ch % 256 = 255 ∧ checks = true
      · rw [if_pos hc, if_neg (by omega), if_pos hc.2]
        trivial
      · rw [if_neg hc]
        have hq := h.queue
        rw [e2] at hq
        by_cases h1 : fs.nestLevel + 1 < 256
        · rw [if_pos h1]
          refine ⟨rfl, h.key, h.val, ⟨⟨rfl, rfl, rfl⟩, ⟨hf.func, ?_, hf.preds⟩, hrest⟩, ?_, h.roots⟩
          · simp only; omega
          · simpa [framesPost, CfgTree.postFns] using hq
        · have hcf : checks = false := by
            rw [← Bool.not_eq_true]
            intro e; exact hc ⟨by omega, e⟩
          rw [if_neg h1, hcf]
          refine ⟨rfl, h.key, h.val, ⟨⟨rfl, rfl, rfl⟩, ⟨hf.func, ?_, hf.preds⟩, hrest⟩, ?_, h.roots⟩
          · simp only; omega
          · simpa [framesPost, CfgTree.postFns] using hq
  · trivial

theorem predsOf_pending (a : AState) : predsOf (a.pending.map CfgTree.pred).toList = a.pending.toList := by
  cases a.pending <;> rfl
theorem fnCount_pending (a : AState) : fnCount (a.pending.map CfgTree.pred).toList = 0 := by
  cases a.pending <;> rfl
theorem postFns_pending (a : AState) : CfgTree.postFns (a.pending.map CfgTree.pred).toList = [] := by
  cases a.pending <;> rfl

theorem sim_close {original : Str} {s : PState} {a : AState} (h : Refines original s a) (lt : LexerToken) :
    Sim original (s.close original lt) a.close := by
  unfold PState.close AState.close
  rw [h.last]
  split
  · trivial
  have hst := h.stack
  rcases e1 : s.stack with _ | ⟨fs, st⟩ <;> rcases e2 : a.frames with _ | ⟨⟨g, ch⟩, frs⟩ <;> rw [e1, e2] at hst
  · trivial
  · exact hst.elim
  · exact hst.elim
  obtain ⟨hf, hrest⟩ := hst
  have hn := hf.nest
  simp only [Nat.add_zero] at hn
  have hpend := h.pending
  have hplen : (if s.predKey.isSome then 1 else 0) = a.pending.toList.length := by
    rw [h.key_isSome]
    unfold AState.pending
    cases a.key <;> rfl
  have hcount : fs.predicates.length + (if s.predKey.isSome then 1 else 0) + fs.nestLevel =
      countOf (ch ++ (a.pending.map CfgTree.pred).toList) := by
    unfold countOf
    rw [predsOf_append, fnCount_append, predsOf_pending, fnCount_pending, List.length_append, ← length_of_map hf.preds,
      hplen, hn, Nat.add_zero]
  simp only
  rw [hcount]
  generalize hargs : ch ++ (a.pending.map CfgTree.pred).toList = args
  have hpost : (s.queue ++ fs.predicates.map ExprNode.predicate ++ s.pending.toList.map ExprNode.predicate ++
        [ExprNode.fn (g.func (countOf args))]).map (ExprNode.resolve original) =
      (a.root.flatMap CfgTree.post ++ (framesPost frs ++ CfgTree.post (.fn g args))).map some := by
    rw [List.map_append, List.map_append, List.map_append, h.queue, resolve_preds _ _ _ hf.preds, resolve_preds _ _ _ hpend, e2,
      CfgTree.post, ← hargs, postFns_append, postFns_pending, predsOf_append, predsOf_pending]
    simp [framesPost, ExprNode.resolve]
  have main : Refines original
      { s with
        last := a.last
        stack := st
        queue := s.queue ++ fs.predicates.map ExprNode.predicate ++ s.pending.toList.map ExprNode.predicate ++
          [.fn (g.func (countOf args))]
        predKey := none
        predVal := none }
      ({ a with frames := frs, key := none, val := none }.addChild (.fn g args)) := by
    unfold AState.addChild
    cases frs with
    | nil =>
      cases st with
      | nil =>
        refine ⟨rfl, trivial, trivial, trivial, ?_, ?_⟩
        · simp only
          rw [hpost]
          simp [framesPost]
        · simp only [predsOf_append, predsOf, List.append_nil]; exact h.roots
      | cons => exact hrest.elim
    | cons fr frs =>
      cases st with
      | nil => exact hrest.elim
      | cons fs2 st =>
        obtain ⟨g2, ch2⟩ := fr
        obtain ⟨hf2, hrest2⟩ := hrest
        refine ⟨rfl, trivial, trivial, ⟨⟨hf2.func, ?_, ?_⟩, hrest2⟩, ?_, h.roots⟩
        · rw [hf2.nest]; simp [fnCount_append, fnCount, CfgTree.isFn]
        · rw [hf2.preds]; simp [predsOf_append, predsOf]
        · simp only
          rw [hpost]
          simp [framesPost, postFns_append, CfgTree.postFns]
  have hfunc := hf.func
  simp only at hfunc
  unfold closedFunc
  rw [hfunc]
  cases g with
  | all => exact main
  | any => exact main
  | not =>
    by_cases hc : countOf args = 1
    · simp only [hc, ne_eq, not_true_eq_false, and_false, if_false]
      rw [hc] at main
      exact main
    · simp only [hc, ne_eq, not_false_eq_true, and_true, if_true]
      trivial

theorem Refines.pending_none {original : Str} {s : PState} {a : AState} (h : Refines original s a) :
    (s.pending = none ∧ a.pending = none) ∨ ∃ p q, s.pending = some p ∧ a.pending = some q ∧ p.toPred original = some q := by
  have := h.pending
  cases e1 : s.pending <;> cases e2 : a.pending <;> rw [e1, e2] at this <;> simp at this
  · exact Or.inl ⟨rfl, rfl⟩
  · exact Or.inr ⟨_, _, rfl, rfl, this⟩

theorem sim_comma {original : Str} {s : PState} {a : AState} (h : Refines original s a) (lt : LexerToken) :
    Sim original (s.comma original lt) a.comma := by
  unfold PState.comma AState.comma
  rw [h.last]
  split
  · trivial
  rcases h.pending_none with ⟨e1, e2⟩ | ⟨p, q, e1, e2, e3⟩ <;> rw [e1, e2]
  · exact ⟨rfl, trivial, trivial, h.stack, h.queue, h.roots⟩
  · have hst := h.stack
    unfold AState.addChild
    rcases e4 : s.stack with _ | ⟨fs, st⟩ <;> rcases e5 : a.frames with _ | ⟨⟨g, ch⟩, frs⟩ <;> rw [e4, e5] at hst
    · have hq := h.queue
      rw [e5] at hq
      simp only [framesPost, List.append_nil] at hq
      refine ⟨rfl, trivial, trivial, ?_, ?_, ?_⟩
      · simp only [e4]; trivial
      · simp only [flatMap_post_pred]
        rw [List.map_append, hq]
        simp [framesPost, ExprNode.resolve, e3]
      · simp only [predsOf_append, predsOf, List.length_append, List.length_cons, List.length_nil]
        rw [h.roots]
    · exact hst.elim
    · exact hst.elim
    · obtain ⟨hf, hrest⟩ := hst
      have hq := h.queue
      rw [e5] at hq
      refine ⟨rfl, trivial, trivial, ⟨⟨hf.func, ?_, ?_⟩, hrest⟩, ?_, h.roots⟩
      · rw [hf.nest]; simp [fnCount_append, fnCount, CfgTree.isFn]
      · rw [List.map_append, hf.preds]; simp [predsOf_append, predsOf, e3]
      · simp only
        rw [hq]
        simp [framesPost, postFns_append, CfgTree.postFns]

theorem Refines.withLast {original : Str} {s : PState} {a : AState} (h : Refines original s a) (t : Option Token) :
    Refines original { s with last := t } { a with last := t } :=
  ⟨rfl, h.key, h.val, h.stack, h.queue, h.roots⟩

theorem sim_bind {original : Str} {x : Res PState} {y : Res AState} (h : Sim original x y) (t : Option Token) :
    Sim original (x >>= fun s => .ok { s with last := t }) (y >>= fun a => .ok { a with last := t }) := by
  cases x <;> cases y <;> first | exact h.elim | trivial | exact Refines.withLast h t

theorem sim_step (checks : Bool) {original : Str} {s : PState} {a : AState} (h : Refines original s a) {lt : LexerToken}
    (hl : Spelled original lt) : Sim original (s.step checks original lt) (a.step checks lt.token) := by
  unfold PState.step AState.step
  refine sim_bind ?_ _
  have htext := hl.text
  cases ht : lt.token with
  | key k =>
    simp only [h.last]
    rw [ht] at htext
    split
    · exact ⟨rfl, htext, h.val, h.stack, h.queue, h.roots⟩
    · trivial
  | value v =>
    simp only [h.last]
    split
    · exact ⟨rfl, h.key, hl.value v ht, h.stack, h.queue, h.roots⟩
    · trivial
  | equals =>
    simp only [h.last]
    split
    · exact h
    · trivial
  | all => exact sim_openFn checks h _ _
  | any => exact sim_openFn checks h _ _
  | not => exact sim_openFn checks h _ _
  | openParen =>
    simp only [h.last]
    split
    · cases hst : s.stack with
      | nil => exact h
      | cons fs st =>
        have h2 := h.stack
        rw [hst] at h2
        refine ⟨rfl, h.key, h.val, ?_, h.queue, h.roots⟩
        cases hfr : a.frames with
        | nil => rw [hfr] at h2; exact h2.elim
        | cons fr frs =>
          rw [hfr] at h2
          exact ⟨⟨h2.1.func, h2.1.nest, h2.1.preds⟩, h2.2⟩
    · trivial
  | closeParen => exact sim_close h lt
  | comma => exact sim_comma h lt

theorem sim_run (checks : Bool) {original : Str} {s : PState} {a : AState} (h : Refines original s a) {lts : List LexerToken}
    (hl : ∀ lt ∈ lts, Spelled original lt) :
    Sim original (runTokens checks original s lts) (a.run checks (lts.map (·.token))) := by
  induction lts generalizing s a with
  | nil => exact h
  | cons lt lts ih =>
    simp only [runTokens, List.map_cons, AState.run]
    have := sim_step checks h (hl lt (by simp))
    cases hx : s.step checks original lt <;> cases hy : a.step checks lt.token <;> rw [hx, hy] at this
    · exact ih this fun lt h => hl lt (by simp [h])
    all_goals first | exact this.elim | trivial

/-- What remains to be checked after the last token. -/
def AState.Accepts (a : AState) : Prop :=
  a.last ≠ some .equals ∧ a.frames = [] ∧ a.root ++ (a.pending.map CfgTree.pred).toList ≠ [] ∧
    (predsOf (a.root ++ (a.pending.map CfgTree.pred).toList)).length ≤ 1

/-- The formulas read. -/
def AState.trees (a : AState) : List CfgTree := a.root ++ (a.pending.map CfgTree.pred).toList

theorem post_ne_nil (t : CfgTree) : t.post ≠ [] := by cases t <;> simp [CfgTree.post]

theorem flatMap_post_eq_nil {l : List CfgTree} : l.flatMap CfgTree.post = [] ↔ l = [] := by
  cases l with
  | nil => simp
  | cons t l => simp [post_ne_nil]

theorem finish_ok_iff {original : Str} {s : PState} {a : AState} (h : Refines original s a) :
    (a.Accepts ∧ ∃ e, s.finish original = .ok e ∧ e.original = original ∧
      e.expr.map (ExprNode.resolve original) = (a.trees.flatMap CfgTree.post).map some) ∨
    (¬ a.Accepts ∧ ∃ e, s.finish original = .err e) := by
  unfold PState.finish AState.Accepts
  rw [h.last]
  by_cases h1 : a.last = some .equals
  · right
    refine ⟨fun h => h.1 h1, ?_⟩
    rw [if_pos h1]; exact ⟨_, rfl⟩
  rw [if_neg h1]
  have hst := h.stack
  rcases e4 : s.stack with _ | ⟨fs, st⟩ <;> rcases e5 : a.frames with _ | ⟨⟨g, ch⟩, frs⟩ <;> rw [e4, e5] at hst
  · have hq := h.queue
    rw [e5] at hq
    simp only [framesPost, List.append_nil] at hq
    have hq2 : (s.queue ++ s.pending.toList.map ExprNode.predicate).map (ExprNode.resolve original) =
        (a.trees.flatMap CfgTree.post).map some := by
      rw [List.map_append, hq, resolve_preds _ _ _ h.pending]
      unfold AState.trees
      rw [List.flatMap_append, List.map_append]
      congr 1
      cases a.pending <;> simp [CfgTree.post]
    have hcount : s.rootCount + (if s.predKey.isSome then 1 else 0) =
        (predsOf (a.root ++ (a.pending.map CfgTree.pred).toList)).length := by
      rw [predsOf_append, predsOf_pending, List.length_append, h.roots, h.key_isSome]
      congr 1
      unfold AState.pending
      cases a.key <;> rfl
    have hempty : (s.queue ++ s.pending.toList.map ExprNode.predicate).isEmpty = true ↔ a.trees = [] := by
      rw [List.isEmpty_iff]
      constructor
      · intro he
        rw [he] at hq2
        have : a.trees.flatMap CfgTree.post = [] := by simpa using hq2.symm
        exact flatMap_post_eq_nil.1 this
      · intro he
        rw [he] at hq2
        simpa using hq2
    simp only
    rw [hcount]
    by_cases h2 : a.trees = []
    · right
      refine ⟨fun h => h.2.2.1 h2, ?_⟩
      rw [if_pos (hempty.2 h2)]; exact ⟨_, rfl⟩
    rw [if_neg (fun h => h2 (hempty.1 h))]
    by_cases h3 : (predsOf (a.root ++ (a.pending.map CfgTree.pred).toList)).length > 1
    · right
      refine ⟨fun h => by omega, ?_⟩
      rw [if_pos h3]; exact ⟨_, rfl⟩
    · left
      rw [if_neg h3]
      exact ⟨⟨h1, trivial, h2, by omega⟩, _, rfl, rfl, hq2⟩
  · exact hst.elim
  · exact hst.elim
  · right
    refine ⟨fun h => by simp at h, ?_⟩
    simp only
    split
    · exact ⟨_, rfl⟩
    · exact ⟨_, rfl⟩

end CC
