import Verif.Lemmas.CfgParse
/-
Helper lemmas: evaluation of parsed cfg expressions; results of `Expression::parse` in terms of the grammar.
-/
namespace CC

/-! ### Evaluation of resolved nodes -/

def evalRNode {T : Type} (L : Logic T) (ep : Predicate → T) (st : List T) : RNode → Option (List T)
  | .pred p => some (ep p :: st)
  | .fn (.all n) => (popFold L.and n L.top st).map fun (r, st) => r :: st
  | .fn (.any n) => (popFold L.or n L.bottom st).map fun (r, st) => r :: st
  | .fn .not => match st with
    | [] => none
    | r :: st => some (L.not r :: st)

def evalRs {T : Type} (L : Logic T) (ep : Predicate → T) : List T → List RNode → Option (List T)
  | st, [] => some st
  | st, n :: ns => (evalRNode L ep st n).bind fun st => evalRs L ep st ns

theorem evalRs_append {T : Type} (L : Logic T) (ep : Predicate → T) (st : List T) (a b : List RNode) :
    evalRs L ep st (a ++ b) = (evalRs L ep st a).bind fun st => evalRs L ep st b := by
  induction a generalizing st with
  | nil => rfl
  | cons n a ih =>
    simp only [List.cons_append, evalRs]
    cases evalRNode L ep st n <;> simp [ih]

theorem evalNodes_resolved {T : Type} (L : Logic T) (ep : Predicate → T) (original : Str) (st : List T) (ns : List ExprNode)
    (rs : List RNode) (h : ns.map (ExprNode.resolve original) = rs.map some) :
    evalNodes L ep original st ns = evalRs L ep st rs := by
  induction ns generalizing rs st with
  | nil => cases rs with
    | nil => rfl
    | cons => simp at h
  | cons n ns ih => cases rs with
    | nil => simp at h
    | cons r rs =>
      simp only [List.map_cons, List.cons.injEq] at h
      have e : evalNode L ep original st n = evalRNode L ep st r := by
        cases n with
        | fn f =>
          have := Option.some.inj h.1
          subst this
          cases f <;> rfl
        | predicate p =>
          have h1 := h.1
          simp only [ExprNode.resolve] at h1
          cases hp : p.toPred original with
          | none => rw [hp] at h1; cases h1
          | some q =>
            rw [hp] at h1
            have := Option.some.inj h1
            subst this
            simp [evalNode, hp, evalRNode]
      simp only [evalNodes, evalRs, e]
      cases evalRNode L ep st r with
      | none => rfl
      | some st => exact ih st rs h.2

theorem popFold_ok {T : Type} (op : T → T → T) (n : Nat) (acc : T) (xs st : List T) (h : n ≤ xs.length) :
    ∃ r, popFold op n acc (xs ++ st) = some (r, xs.drop n ++ st) := by
  induction n generalizing acc xs with
  | zero => exact ⟨acc, rfl⟩
  | succ n ih =>
    cases xs with
    | nil => simp at h
    | cons x xs => exact ih (op acc x) xs (by simpa using h)

/-- Pushing the predicates. -/
theorem evalRs_preds {T : Type} (L : Logic T) (ep : Predicate → T) (st : List T) (ps : List Predicate) :
    evalRs L ep st (ps.map RNode.pred) = some ((ps.map ep).reverse ++ st) := by
  induction ps generalizing st with
  | nil => rfl
  | cons p ps ih => simp [evalRs, evalRNode, ih]

mutual
/-- Evaluation never runs out of operands. -/
theorem post_total {T : Type} (L : Logic T) (ep : Predicate → T) (checks : Bool) : ∀ (t : CfgTree) (st : List T),
    t.AllFns (Counted checks) → ∃ x junk, evalRs L ep st t.post = some (x :: (junk ++ st))
  | .pred p, st, _ => ⟨ep p, [], rfl⟩
  | .fn f args, st, h => by
    obtain ⟨⟨hn, _⟩, hargs⟩ := h
    obtain ⟨xs, hlen, hx⟩ := postFns_total L ep checks args st hargs
    rw [CfgTree.post, evalRs_append, evalRs_append, hx]
    simp only [Option.bind_some]
    rw [evalRs_preds]
    simp only [Option.bind_some]
    rw [← List.append_assoc]
    generalize hys : ((predsOf args).map ep).reverse ++ xs = ys
    have hys : ys.length = (predsOf args).length + xs.length := by rw [← hys]; simp
    have hle : countOf args ≤ ys.length := by
      have := Nat.mod_le (fnCount args) 256
      unfold countOf
      omega
    cases f with
    | all =>
      obtain ⟨r, hr⟩ := popFold_ok L.and (countOf args) L.top ys st hle
      exact ⟨r, ys.drop (countOf args), by simp [evalRs, evalRNode, FnName.func, hr]⟩
    | any =>
      obtain ⟨r, hr⟩ := popFold_ok L.or (countOf args) L.bottom ys st hle
      exact ⟨r, ys.drop (countOf args), by simp [evalRs, evalRNode, FnName.func, hr]⟩
    | not =>
      rw [hn rfl] at hle
      cases ys with
      | nil => simp at hle
      | cons y ys => exact ⟨L.not y, ys, by simp [evalRs, evalRNode, FnName.func]⟩
theorem postFns_total {T : Type} (L : Logic T) (ep : Predicate → T) (checks : Bool) : ∀ (l : List CfgTree) (st : List T),
    CfgTree.AllFnsList (Counted checks) l →
    ∃ xs, fnCount l ≤ xs.length ∧ evalRs L ep st (CfgTree.postFns l) = some (xs ++ st)
  | [], st, _ => ⟨[], by simp [fnCount], rfl⟩
  | .pred p :: l, st, h => by
    obtain ⟨xs, h1, h2⟩ := postFns_total L ep checks l st h.2
    exact ⟨xs, by simpa [fnCount, CfgTree.isFn] using h1, h2⟩
  | .fn f args :: l, st, h => by
    obtain ⟨x, junk, hx⟩ := post_total L ep checks (.fn f args) st h.1
    obtain ⟨xs, h1, h2⟩ := postFns_total L ep checks l (x :: (junk ++ st)) h.2
    refine ⟨xs ++ (x :: junk), ?_, ?_⟩
    · simp only [fnCount, List.countP_cons, CfgTree.isFn, List.length_append, List.length_cons] at h1 ⊢
      simp
      omega
    · rw [CfgTree.postFns, evalRs_append, hx]
      simp only [Option.bind_some]
      rw [h2]
      simp
end

/-- Evaluation of a sequence of formulas never runs out of operands. -/
theorem flatMap_post_total {T : Type} (L : Logic T) (ep : Predicate → T) (checks : Bool) (trees : List CfgTree) (st : List T)
    (h : CfgTree.AllFnsList (Counted checks) trees) : ∃ xs, trees.length ≤ xs.length ∧
      evalRs L ep st (trees.flatMap CfgTree.post) = some (xs ++ st) := by
  induction trees generalizing st with
  | nil => exact ⟨[], by simp, rfl⟩
  | cons t ts ih =>
    obtain ⟨x, junk, hx⟩ := post_total L ep checks t st h.1
    obtain ⟨xs, h1, h2⟩ := ih (x :: (junk ++ st)) h.2
    refine ⟨xs ++ (x :: junk), by simp; omega, ?_⟩
    rw [List.flatMap_cons, evalRs_append, hx]
    simp only [Option.bind_some]
    rw [h2]
    simp

/-! ### Truth values -/

/-- The values of the functions among the formulas. -/
def fnVals (v : Predicate → Bool) : List CfgTree → List Bool
  | [] => []
  | .pred _ :: ts => fnVals v ts
  | .fn f args :: ts => CfgTree.value v (.fn f args) :: fnVals v ts

theorem fnVals_length (v : Predicate → Bool) (l : List CfgTree) : (fnVals v l).length = fnCount l := by
  induction l with
  | nil => rfl
  | cons t l ih =>
    cases t <;> simp only [fnVals, fnCount, List.countP_cons, CfgTree.isFn, List.length_cons] at ih ⊢ <;> simp [ih]

theorem allValues_eq (v : Predicate → Bool) (l : List CfgTree) :
    CfgTree.allValues v l = ((fnVals v l).all id && ((predsOf l).map v).all id) := by
  induction l with
  | nil => rfl
  | cons t l ih =>
    cases t <;> simp only [CfgTree.allValues, fnVals, predsOf, ih, List.map_cons, List.all_cons, id]
    · rw [CfgTree.value]
      rw [← Bool.and_assoc, ← Bool.and_assoc, Bool.and_comm (v _)]
    · rw [Bool.and_assoc]

theorem anyValue_eq (v : Predicate → Bool) (l : List CfgTree) :
    CfgTree.anyValue v l = ((fnVals v l).any id || ((predsOf l).map v).any id) := by
  induction l with
  | nil => rfl
  | cons t l ih =>
    cases t <;> simp only [CfgTree.anyValue, fnVals, predsOf, ih, List.map_cons, List.any_cons, id]
    · rw [CfgTree.value]
      rw [← Bool.or_assoc, ← Bool.or_assoc, Bool.or_comm (v _)]
    · rw [Bool.or_assoc]

theorem popFold_and (xs st : List Bool) (acc : Bool) :
    popFold boolLogic.and xs.length acc (xs ++ st) = some (acc && xs.all id, st) := by
  induction xs generalizing acc with
  | nil => simp [popFold]
  | cons x xs ih =>
    simp only [List.length_cons, List.cons_append, popFold, ih, List.all_cons, id, Option.some.injEq, Prod.mk.injEq, and_true]
    exact Bool.and_assoc _ _ _

theorem popFold_or (xs st : List Bool) (acc : Bool) :
    popFold boolLogic.or xs.length acc (xs ++ st) = some (acc || xs.any id, st) := by
  induction xs generalizing acc with
  | nil => simp [popFold]
  | cons x xs ih =>
    simp only [List.length_cons, List.cons_append, popFold, ih, List.any_cons, id, Option.some.injEq, Prod.mk.injEq, and_true]
    exact Bool.or_assoc _ _ _

mutual
/-- Evaluation of a formula without wide functions pushes its truth value. -/
theorem post_value (v : Predicate → Bool) : ∀ (t : CfgTree) (st : List Bool), t.AllFns (Counted true) →
    evalRs boolLogic v st t.post = some (t.value v :: st)
  | .pred p, st, _ => rfl
  | .fn f args, st, h => by
    obtain ⟨⟨hn, hnar⟩, hargs⟩ := h
    rw [CfgTree.post, evalRs_append, evalRs_append, postFns_value v args st hargs]
    simp only [Option.bind_some]
    rw [evalRs_preds]
    simp only [Option.bind_some]
    rw [← List.append_assoc]
    generalize hys : ((predsOf args).map v).reverse ++ (fnVals v args).reverse = ys
    have hlen : ys.length = countOf args := by
      have := hnar rfl
      unfold Narrow at this
      rw [← hys]
      unfold countOf fnCount
      rw [Nat.mod_eq_of_lt this]
      simp [fnVals_length]
    have hand : ys.all id = CfgTree.allValues v args := by
      rw [allValues_eq, ← hys, List.all_append, Bool.and_comm]
      simp
    have hor : ys.any id = CfgTree.anyValue v args := by
      rw [anyValue_eq, ← hys, List.any_append, Bool.or_comm]
      simp
    cases f with
    | all =>
      have := popFold_and ys st true
      rw [hlen, hand] at this
      simp [evalRs, evalRNode, FnName.func, CfgTree.value, show boolLogic.top = true from rfl, this]
    | any =>
      have := popFold_or ys st false
      rw [hlen, hor] at this
      simp [evalRs, evalRNode, FnName.func, CfgTree.value, show boolLogic.bottom = false from rfl, this]
    | not =>
      rw [hn rfl] at hlen
      match ys, hlen with
      | [y], _ =>
        have hand : y = CfgTree.allValues v args := by simpa using hand
        simp [evalRs, evalRNode, FnName.func, CfgTree.value, boolLogic, hand]
theorem postFns_value (v : Predicate → Bool) : ∀ (l : List CfgTree) (st : List Bool), CfgTree.AllFnsList (Counted true) l →
    evalRs boolLogic v st (CfgTree.postFns l) = some ((fnVals v l).reverse ++ st)
  | [], st, _ => rfl
  | .pred p :: l, st, h => by
    rw [CfgTree.postFns, postFns_value v l st h.2]
    rfl
  | .fn f args :: l, st, h => by
    rw [CfgTree.postFns, evalRs_append, post_value v (.fn f args) st h.1]
    simp only [Option.bind_some]
    rw [postFns_value v l _ h.2]
    simp [fnVals]
end

theorem flatMap_post_value (v : Predicate → Bool) (trees : List CfgTree) (st : List Bool)
    (h : CfgTree.AllFnsList (Counted true) trees) :
    evalRs boolLogic v st (trees.flatMap CfgTree.post) = some ((trees.map (CfgTree.value v)).reverse ++ st) := by
  induction trees generalizing st with
  | nil => rfl
  | cons t ts ih =>
    rw [List.flatMap_cons, evalRs_append, post_value v t st h.1]
    simp only [Option.bind_some]
    rw [ih _ h.2]
    simp

/-! ### Values in three-valued logic -/

mutual
/-- The three-valued value of a formula, by folding the connectives. -/
def optValue (ep : Predicate → Option Bool) : CfgTree → Option Bool
  | .pred p => ep p
  | .fn .all args => optAll ep args
  | .fn .any args => optAny ep args
  | .fn .not args => optLogic.not (optAll ep args)
def optAll (ep : Predicate → Option Bool) : List CfgTree → Option Bool
  | [] => some true
  | t :: ts => optLogic.and (optValue ep t) (optAll ep ts)
def optAny (ep : Predicate → Option Bool) : List CfgTree → Option Bool
  | [] => some false
  | t :: ts => optLogic.or (optValue ep t) (optAny ep ts)
end

theorem optLogic_and_comm (a b : Option Bool) : optLogic.and a b = optLogic.and b a := by
  rcases a with _ | _ | _ <;> rcases b with _ | _ | _ <;> rfl
theorem optLogic_or_comm (a b : Option Bool) : optLogic.or a b = optLogic.or b a := by
  rcases a with _ | _ | _ <;> rcases b with _ | _ | _ <;> rfl
theorem optLogic_and_assoc (a b c : Option Bool) : optLogic.and (optLogic.and a b) c = optLogic.and a (optLogic.and b c) := by
  rcases a with _ | _ | _ <;> rcases b with _ | _ | _ <;> rcases c with _ | _ | _ <;> rfl
theorem optLogic_or_assoc (a b c : Option Bool) : optLogic.or (optLogic.or a b) c = optLogic.or a (optLogic.or b c) := by
  rcases a with _ | _ | _ <;> rcases b with _ | _ | _ <;> rcases c with _ | _ | _ <;> rfl
theorem optLogic_true_and (a : Option Bool) : optLogic.and (some true) a = a := by rcases a with _ | _ | _ <;> rfl
theorem optLogic_false_or (a : Option Bool) : optLogic.or (some false) a = a := by rcases a with _ | _ | _ <;> rfl

/-- The conjunction of a list. -/
def andOf (xs : List (Option Bool)) : Option Bool := xs.foldr optLogic.and (some true)
/-- The disjunction of a list. -/
def orOf (xs : List (Option Bool)) : Option Bool := xs.foldr optLogic.or (some false)

theorem andOf_append (xs ys : List (Option Bool)) : andOf (xs ++ ys) = optLogic.and (andOf xs) (andOf ys) := by
  induction xs with
  | nil => exact (optLogic_true_and _).symm
  | cons x xs ih =>
    show optLogic.and x (andOf (xs ++ ys)) = optLogic.and (optLogic.and x (andOf xs)) _
    rw [ih, optLogic_and_assoc]
theorem orOf_append (xs ys : List (Option Bool)) : orOf (xs ++ ys) = optLogic.or (orOf xs) (orOf ys) := by
  induction xs with
  | nil => exact (optLogic_false_or _).symm
  | cons x xs ih =>
    show optLogic.or x (orOf (xs ++ ys)) = optLogic.or (optLogic.or x (orOf xs)) _
    rw [ih, optLogic_or_assoc]
theorem andOf_reverse (xs : List (Option Bool)) : andOf xs.reverse = andOf xs := by
  induction xs with
  | nil => rfl
  | cons x xs ih =>
    rw [List.reverse_cons, andOf_append, ih, optLogic_and_comm]
    show optLogic.and (optLogic.and x (some true)) _ = optLogic.and x (andOf xs)
    rw [optLogic_and_comm x (some true), optLogic_true_and]
theorem orOf_reverse (xs : List (Option Bool)) : orOf xs.reverse = orOf xs := by
  induction xs with
  | nil => rfl
  | cons x xs ih =>
    rw [List.reverse_cons, orOf_append, ih, optLogic_or_comm]
    show optLogic.or (optLogic.or x (some false)) _ = optLogic.or x (orOf xs)
    rw [optLogic_or_comm x (some false), optLogic_false_or]

/-- The three-valued values of the functions among the formulas. -/
def fnOpts (ep : Predicate → Option Bool) : List CfgTree → List (Option Bool)
  | [] => []
  | .pred _ :: ts => fnOpts ep ts
  | .fn f args :: ts => optValue ep (.fn f args) :: fnOpts ep ts

theorem fnOpts_length (ep : Predicate → Option Bool) (l : List CfgTree) : (fnOpts ep l).length = fnCount l := by
  induction l with
  | nil => rfl
  | cons t l ih =>
    cases t <;> simp only [fnOpts, fnCount, List.countP_cons, CfgTree.isFn, List.length_cons] at ih ⊢ <;> simp [ih]

theorem optAll_eq (ep : Predicate → Option Bool) (l : List CfgTree) :
    optAll ep l = optLogic.and (andOf (fnOpts ep l)) (andOf ((predsOf l).map ep)) := by
  induction l with
  | nil => rfl
  | cons t l ih =>
    cases t with
    | pred p =>
      show optLogic.and (ep p) (optAll ep l) = optLogic.and (andOf (fnOpts ep l)) (optLogic.and (ep p) (andOf ((predsOf l).map ep)))
      rw [ih, ← optLogic_and_assoc, ← optLogic_and_assoc, optLogic_and_comm (ep p)]
    | fn f args =>
      show optLogic.and _ (optAll ep l) = optLogic.and (optLogic.and _ (andOf (fnOpts ep l))) (andOf ((predsOf l).map ep))
      rw [ih, optLogic_and_assoc]

theorem optAny_eq (ep : Predicate → Option Bool) (l : List CfgTree) :
    optAny ep l = optLogic.or (orOf (fnOpts ep l)) (orOf ((predsOf l).map ep)) := by
  induction l with
  | nil => rfl
  | cons t l ih =>
    cases t with
    | pred p =>
      show optLogic.or (ep p) (optAny ep l) = optLogic.or (orOf (fnOpts ep l)) (optLogic.or (ep p) (orOf ((predsOf l).map ep)))
      rw [ih, ← optLogic_or_assoc, ← optLogic_or_assoc, optLogic_or_comm (ep p)]
    | fn f args =>
      show optLogic.or _ (optAny ep l) = optLogic.or (optLogic.or _ (orOf (fnOpts ep l))) (orOf ((predsOf l).map ep))
      rw [ih, optLogic_or_assoc]

theorem popFold_andOf (xs st : List (Option Bool)) (acc : Option Bool) :
    popFold optLogic.and xs.length acc (xs ++ st) = some (optLogic.and acc (andOf xs), st) := by
  induction xs generalizing acc with
  | nil =>
    show some (acc, st) = some (optLogic.and acc (some true), st)
    rw [optLogic_and_comm, optLogic_true_and]
  | cons x xs ih =>
    simp only [List.length_cons, List.cons_append, popFold, ih, Option.some.injEq, Prod.mk.injEq, and_true]
    exact optLogic_and_assoc _ _ _

theorem popFold_orOf (xs st : List (Option Bool)) (acc : Option Bool) :
    popFold optLogic.or xs.length acc (xs ++ st) = some (optLogic.or acc (orOf xs), st) := by
  induction xs generalizing acc with
  | nil =>
    show some (acc, st) = some (optLogic.or acc (some false), st)
    rw [optLogic_or_comm, optLogic_false_or]
  | cons x xs ih =>
    simp only [List.length_cons, List.cons_append, popFold, ih, Option.some.injEq, Prod.mk.injEq, and_true]
    exact optLogic_or_assoc _ _ _

mutual
/-- Three-valued evaluation of a formula without wide functions pushes its value. -/
theorem post_opt (ep : Predicate → Option Bool) : ∀ (t : CfgTree) (st : List (Option Bool)), t.AllFns (Counted true) →
    evalRs optLogic ep st t.post = some (optValue ep t :: st)
  | .pred p, st, _ => rfl
  | .fn f args, st, h => by
    obtain ⟨⟨hn, hnar⟩, hargs⟩ := h
    rw [CfgTree.post, evalRs_append, evalRs_append, postFns_opt ep args st hargs]
    simp only [Option.bind_some]
    rw [evalRs_preds]
    simp only [Option.bind_some]
    rw [← List.append_assoc]
    generalize hys : ((predsOf args).map ep).reverse ++ (fnOpts ep args).reverse = ys
    have hlen : ys.length = countOf args := by
      have := hnar rfl
      unfold Narrow at this
      rw [← hys]
      unfold countOf fnCount
      rw [Nat.mod_eq_of_lt this]
      simp [fnOpts_length]
    have hand : andOf ys = optAll ep args := by
      rw [optAll_eq, ← hys, andOf_append, andOf_reverse, andOf_reverse, optLogic_and_comm]
    have hor : orOf ys = optAny ep args := by
      rw [optAny_eq, ← hys, orOf_append, orOf_reverse, orOf_reverse, optLogic_or_comm]
    cases f with
    | all =>
      have := popFold_andOf ys st (some true)
      rw [hlen, hand, optLogic_true_and] at this
      simp [evalRs, evalRNode, FnName.func, optValue, show optLogic.top = some true from rfl, this]
    | any =>
      have := popFold_orOf ys st (some false)
      rw [hlen, hor, optLogic_false_or] at this
      simp [evalRs, evalRNode, FnName.func, optValue, show optLogic.bottom = some false from rfl, this]
    | not =>
      rw [hn rfl] at hlen
      match ys, hlen with
      | [y], _ =>
        have hand : y = optAll ep args := by
          rw [← hand]
          show y = optLogic.and y (some true)
          rw [optLogic_and_comm, optLogic_true_and]
        simp [evalRs, evalRNode, FnName.func, optValue, hand]
theorem postFns_opt (ep : Predicate → Option Bool) : ∀ (l : List CfgTree) (st : List (Option Bool)),
    CfgTree.AllFnsList (Counted true) l → evalRs optLogic ep st (CfgTree.postFns l) = some ((fnOpts ep l).reverse ++ st)
  | [], st, _ => rfl
  | .pred p :: l, st, h => by
    rw [CfgTree.postFns, postFns_opt ep l st h.2]
    rfl
  | .fn f args :: l, st, h => by
    rw [CfgTree.postFns, evalRs_append, post_opt ep (.fn f args) st h.1]
    simp only [Option.bind_some]
    rw [postFns_opt ep l _ h.2]
    simp [fnOpts]
end

mutual
theorem optValue_decided (ep : Predicate → Option Bool) (b : Bool) : ∀ t : CfgTree, t.AllFns (fun f l => f = .not → l.length = 1) →
    (optValue ep t == some b) = t.decided ep b
  | .pred p, _ => rfl
  | .fn .all args, h => by
    cases b
    · simpa [CfgTree.decided, optValue] using optAll_false ep args h.2
    · simpa [CfgTree.decided, optValue] using optAll_true ep args h.2
  | .fn .any args, h => by
    cases b
    · simpa [CfgTree.decided, optValue] using optAny_false ep args h.2
    · simpa [CfgTree.decided, optValue] using optAny_true ep args h.2
  | .fn .not [t], h => by
    have hd := optValue_decided ep (!b) t h.2.1
    simp only [CfgTree.decided, CfgTree.allDecided, ← hd, optValue, optAll]
    rw [optLogic_and_comm, optLogic_true_and]
    rcases optValue ep t with _ | _ | _ <;> cases b <;> rfl
  | .fn .not [], h => by have := h.1 rfl; simp at this
  | .fn .not (_ :: _ :: _), h => by have := h.1 rfl; simp at this
theorem optAll_true (ep : Predicate → Option Bool) : ∀ l : List CfgTree, CfgTree.AllFnsList (fun f l => f = .not → l.length = 1) l →
    (optAll ep l == some true) = CfgTree.allDecided ep true l
  | [], _ => rfl
  | t :: ts, h => by
    simp only [optAll, CfgTree.allDecided, ← optValue_decided ep true t h.1, ← optAll_true ep ts h.2]
    rcases optValue ep t with _ | _ | _ <;> rcases optAll ep ts with _ | _ | _ <;> rfl
theorem optAll_false (ep : Predicate → Option Bool) : ∀ l : List CfgTree, CfgTree.AllFnsList (fun f l => f = .not → l.length = 1) l →
    (optAll ep l == some false) = CfgTree.anyDecided ep false l
  | [], _ => rfl
  | t :: ts, h => by
    simp only [optAll, CfgTree.anyDecided, ← optValue_decided ep false t h.1, ← optAll_false ep ts h.2]
    rcases optValue ep t with _ | _ | _ <;> rcases optAll ep ts with _ | _ | _ <;> rfl
theorem optAny_true (ep : Predicate → Option Bool) : ∀ l : List CfgTree, CfgTree.AllFnsList (fun f l => f = .not → l.length = 1) l →
    (optAny ep l == some true) = CfgTree.anyDecided ep true l
  | [], _ => rfl
  | t :: ts, h => by
    simp only [optAny, CfgTree.anyDecided, ← optValue_decided ep true t h.1, ← optAny_true ep ts h.2]
    rcases optValue ep t with _ | _ | _ <;> rcases optAny ep ts with _ | _ | _ <;> rfl
theorem optAny_false (ep : Predicate → Option Bool) : ∀ l : List CfgTree, CfgTree.AllFnsList (fun f l => f = .not → l.length = 1) l →
    (optAny ep l == some false) = CfgTree.allDecided ep false l
  | [], _ => rfl
  | t :: ts, h => by
    simp only [optAny, CfgTree.allDecided, ← optValue_decided ep false t h.1, ← optAny_false ep ts h.2]
    rcases optValue ep t with _ | _ | _ <;> rcases optAny ep ts with _ | _ | _ <;> rfl
end

/-! ### Three-valued evaluation -/

/-- `x` is undecided or `b`. -/
def Approx (x : Option Bool) (b : Bool) : Prop := x = none ∨ x = some b

def ApproxL : List (Option Bool) → List Bool → Prop
  | [], [] => True
  | x :: xs, b :: bs => Approx x b ∧ ApproxL xs bs
  | _, _ => False

theorem Approx.and {x y : Option Bool} {a b : Bool} (h : Approx x a) (k : Approx y b) :
    Approx (optLogic.and x y) (boolLogic.and a b) := by
  rcases h with rfl | rfl <;> rcases k with rfl | rfl <;> cases a <;> cases b <;> simp [Approx, optLogic, boolLogic]
theorem Approx.or {x y : Option Bool} {a b : Bool} (h : Approx x a) (k : Approx y b) :
    Approx (optLogic.or x y) (boolLogic.or a b) := by
  rcases h with rfl | rfl <;> rcases k with rfl | rfl <;> cases a <;> cases b <;> simp [Approx, optLogic, boolLogic]
theorem Approx.not {x : Option Bool} {a : Bool} (h : Approx x a) : Approx (optLogic.not x) (boolLogic.not a) := by
  rcases h with rfl | rfl <;> simp [Approx, optLogic, boolLogic]

/-- Both stacks exist and agree, or both have run out. -/
def ApproxO : Option (List (Option Bool)) → Option (List Bool) → Prop
  | some xs, some bs => ApproxL xs bs
  | none, none => True
  | _, _ => False

theorem approx_popFold {op : Option Bool → Option Bool → Option Bool} {op' : Bool → Bool → Bool}
    (hop : ∀ x y a b, Approx x a → Approx y b → Approx (op x y) (op' a b)) (n : Nat) (x : Option Bool) (a : Bool)
    (hx : Approx x a) (xs : List (Option Bool)) (bs : List Bool) (h : ApproxL xs bs) :
    ApproxO ((popFold op n x xs).map fun (r, st) => r :: st) ((popFold op' n a bs).map fun (r, st) => r :: st) := by
  induction n generalizing x a xs bs with
  | zero => exact ⟨hx, h⟩
  | succ n ih =>
    cases xs <;> cases bs
    · trivial
    · exact h.elim
    · exact h.elim
    · exact ih _ _ (hop _ _ _ _ hx h.1) _ _ h.2

theorem approx_node {ep : Predicate → Option Bool} {v : Predicate → Bool} (hv : ∀ p, Approx (ep p) (v p)) (original : Str)
    (n : ExprNode) (xs : List (Option Bool)) (bs : List Bool) (h : ApproxL xs bs) :
    ApproxO (evalNode optLogic ep original xs n) (evalNode boolLogic v original bs n) := by
  cases n with
  | predicate p =>
    simp only [evalNode]
    cases p.toPred original with
    | none => trivial
    | some q => exact ⟨hv q, h⟩
  | fn f =>
    cases f with
    | all n => exact approx_popFold (fun _ _ _ _ => Approx.and) n _ _ (Or.inr rfl) xs bs h
    | any n => exact approx_popFold (fun _ _ _ _ => Approx.or) n _ _ (Or.inr rfl) xs bs h
    | not =>
      cases xs <;> cases bs
      · trivial
      · exact h.elim
      · exact h.elim
      · exact ⟨h.1.not, h.2⟩

theorem approx_nodes {ep : Predicate → Option Bool} {v : Predicate → Bool} (hv : ∀ p, Approx (ep p) (v p)) (original : Str)
    (ns : List ExprNode) (xs : List (Option Bool)) (bs : List Bool) (h : ApproxL xs bs) :
    ApproxO (evalNodes optLogic ep original xs ns) (evalNodes boolLogic v original bs ns) := by
  induction ns generalizing xs bs with
  | nil => exact h
  | cons n ns ih =>
    have := approx_node hv original n xs bs h
    simp only [evalNodes]
    cases h1 : evalNode optLogic ep original xs n <;> cases h2 : evalNode boolLogic v original bs n <;> rw [h1, h2] at this
    · trivial
    · exact this.elim
    · exact this.elim
    · exact ih _ _ this

/-! ### `Expression::parse` -/

theorem Lexes.all_spelled {s : Str} {lts : List LexerToken} (h : Lexes 0 s lts) : ∀ lt ∈ lts, Spelled s lt := by
  intro lt hlt
  have := h.spelled (pre := []) rfl lt hlt
  exact ⟨this.1, this.2.2.2.2⟩

/-- The nodes of the expression are those of the formulas. -/
def Holds (e : Expression) (trees : List CfgTree) : Prop :=
  e.expr.map (ExprNode.resolve e.original) = (trees.flatMap CfgTree.post).map some

/-- The formulas of a text accepted by the parser. -/
structure Parses (checks : Bool) (text inner : Str) (ts : List Token) (trees : List CfgTree) : Prop where
  isInner : CfgInner text inner
  reads : ReadsAs inner ts
  body : ∃ e, Body true trees e ts
  counts : CfgTree.AllFnsList (Counted checks) trees
  ne : trees ≠ []
  one : (predsOf trees).length ≤ 1

theorem parse_sound {checks : Bool} {text : Str} {e : Expression} (h : Expression.parse checks text = .ok e) :
    ∃ ts trees, Parses checks text e.original ts trees ∧ Holds e trees := by
  obtain ⟨t, hi, ⟨lts, hl, hp⟩ | ⟨lts, a, b, r, hl, hp⟩⟩ := parse_cases checks text
  · rw [hp] at h
    obtain ⟨s, hs, hf⟩ := Res.bind_ok h
    have hsim := sim_run checks (Refines.init t) (lts := lts) hl.all_spelled
    rw [hs] at hsim
    cases ha : AState.run checks {} (lts.map (·.token)) with
    | err => rw [ha] at hsim; exact hsim.elim
    | panic => rw [ha] at hsim; exact hsim.elim
    | ok a =>
      rw [ha] at hsim
      rcases finish_ok_iff hsim with ⟨hacc, e', he', ho, hh⟩ | ⟨_, e', he'⟩
      · rw [hf] at he'
        have := Res.ok.inj he'
        subst this
        have := run_sound ha hacc
        subst ho
        exact ⟨_, a.trees, ⟨hi, hl.reads, this.1, this.2, hacc.2.2.1, hacc.2.2.2⟩, hh⟩
      · rw [hf] at he'; cases he'
  · rw [hp] at h
    obtain ⟨s, hs, hf⟩ := Res.bind_ok h
    cases hf

theorem parse_complete {checks : Bool} {text inner : Str} {ts : List Token} {trees : List CfgTree}
    (h : Parses checks text inner ts trees) :
    ∃ e, Expression.parse checks text = .ok e ∧ e.original = inner ∧ Holds e trees := by
  obtain ⟨lts, hl, rfl⟩ := h.reads.lexes 0
  rw [parse_lexes h.isInner hl]
  obtain ⟨en, hb⟩ := h.body
  obtain ⟨a, ha, hacc, htr⟩ := run_complete hb h.counts h.ne h.one
  have hsim := sim_run checks (Refines.init inner) (lts := lts) hl.all_spelled
  rw [ha] at hsim
  cases hs : runTokens checks inner {} lts with
  | err => rw [hs] at hsim; exact hsim.elim
  | panic => rw [hs] at hsim; exact hsim.elim
  | ok s =>
    rw [hs] at hsim
    rcases finish_ok_iff hsim with ⟨_, e, he, ho, hh⟩ | ⟨hn, _⟩
    · refine ⟨e, he, ho, ?_⟩
      unfold Holds
      rw [ho, ← htr]
      exact hh
    · exact (hn hacc).elim

/-- The tokens determine the formulas. -/
theorem Parses.unique {checks : Bool} {t1 t2 i1 i2 : Str} {ts : List Token} {l m : List CfgTree} (h : Parses checks t1 i1 ts l)
    (k : Parses checks t2 i2 ts m) : l = m := by
  obtain ⟨_, hb⟩ := h.body
  obtain ⟨_, kb⟩ := k.body
  obtain ⟨a, ha, _, h1⟩ := run_complete hb h.counts h.ne h.one
  obtain ⟨b, hb, _, h2⟩ := run_complete kb k.counts k.ne k.one
  rw [ha] at hb
  have := Res.ok.inj hb
  rw [← h1, ← h2, this]

theorem Holds.eval {T : Type} {e : Expression} {trees : List CfgTree} (h : Holds e trees) (L : Logic T) (ep : Predicate → T) :
    e.eval L ep = (evalRs L ep [] (trees.flatMap CfgTree.post)).bind List.head? := by
  unfold Expression.eval
  rw [evalNodes_resolved L ep e.original [] e.expr _ h]

/-! ### The strict grammar is part of the accepted one -/

mutual
theorem Item.sloppy : ∀ {t : CfgTree} {ts : List Token}, Item false t ts → Item true t ts
  | _, _, .flag k => .flag k
  | _, _, .keyValue k v => .keyValue k v
  | _, _, .fn f args e body h => .fn f args e body (Body.sloppy h)
theorem Body.sloppy : ∀ {args : List CfgTree} {e : BodyEnd} {ts : List Token}, Body false args e ts → Body true args e ts
  | _, _, _, .start => .start
  | _, _, _, .item args e p t q h1 h2 h3 => .item args e p t q (Body.sloppy h1) h2 (Item.sloppy h3)
  | _, _, _, .comma args e p h1 h2 => .comma args e p (Body.sloppy h1) (h2.imp_right fun h => ⟨rfl, h.2⟩)
end

mutual
theorem AllFns_imp {P Q : FnName → List CfgTree → Prop} (h : ∀ f args, P f args → Q f args) : ∀ t : CfgTree, t.AllFns P → t.AllFns Q
  | .pred _, _ => trivial
  | .fn f args, hp => ⟨h f args hp.1, AllFnsList_imp h args hp.2⟩
theorem AllFnsList_imp {P Q : FnName → List CfgTree → Prop} (h : ∀ f args, P f args → Q f args) :
    ∀ l : List CfgTree, CfgTree.AllFnsList P l → CfgTree.AllFnsList Q l
  | [], _ => trivial
  | t :: ts, hp => ⟨AllFns_imp h t hp.1, AllFnsList_imp h ts hp.2⟩
end

mutual
theorem AllFns_and {P Q : FnName → List CfgTree → Prop} : ∀ t : CfgTree, t.AllFns P → t.AllFns Q →
    t.AllFns fun f args => P f args ∧ Q f args
  | .pred _, _, _ => trivial
  | .fn _ args, hp, hq => ⟨⟨hp.1, hq.1⟩, AllFnsList_and args hp.2 hq.2⟩
theorem AllFnsList_and {P Q : FnName → List CfgTree → Prop} : ∀ l : List CfgTree, CfgTree.AllFnsList P l →
    CfgTree.AllFnsList Q l → CfgTree.AllFnsList (fun f args => P f args ∧ Q f args) l
  | [], _, _ => trivial
  | t :: ts, hp, hq => ⟨AllFns_and t hp.1 hq.1, AllFnsList_and ts hp.2 hq.2⟩
end

theorem counted_of_unary (checks : Bool) {f : FnName} {args : List CfgTree} (h : NotUnary f args)
    (hc : checks = true → Narrow f args) : Counted checks f args := by
  refine ⟨fun hf => ?_, hc⟩
  have h1 := h hf
  have h2 := length_eq args
  unfold countOf
  rw [Nat.mod_eq_of_lt (by omega)]
  omega

theorem IsCfg.parses {checks : Bool} {text : Str} {t : CfgTree} (h : IsCfg text t) (hc : checks = true → t.AllFns Narrow) :
    ∃ inner ts, Parses checks text inner ts [t] := by
  obtain ⟨inner, ts, h1, h2, h3, h4⟩ := h
  refine ⟨inner, ts, h1, h2, ⟨.item, ?_⟩, ⟨?_, trivial⟩, by simp, ?_⟩
  · exact Body.item [] .start [] t ts .start (by simp) h3.sloppy
  · cases checks with
    | false => exact AllFns_imp (fun f args h => counted_of_unary false h (by simp)) t h4
    | true => exact AllFns_imp (fun f args h => counted_of_unary true h.1 fun _ => h.2) t (AllFns_and t h4 (hc rfl))
  · cases t <;> simp [predsOf]

/-! ### Doubled commas -/

theorem DoubleComma_append (p q : List Token) : DoubleComma (p ++ q) =
    (DoubleComma p || DoubleComma q || (decide (p.getLast? = some .comma) && decide (q.head? = some .comma))) := by
  induction p with
  | nil => simp [DoubleComma]
  | cons t p ih =>
    cases p with
    | nil =>
      cases t <;> cases q with
      | nil => simp [DoubleComma]
      | cons u q => cases u <;> simp [DoubleComma]
    | cons u p =>
      have e : ∀ l, DoubleComma (t :: u :: l) = ((decide (t = .comma) && decide (u = .comma)) || DoubleComma (u :: l)) := by
        intro l
        cases t <;> cases u <;> simp [DoubleComma]
      rw [List.cons_append, List.cons_append, e, ← List.cons_append, ih, e]
      simp only [List.getLast?_cons_cons, Bool.or_assoc]

mutual
theorem Item.noDouble : ∀ {t : CfgTree} {ts : List Token}, Item false t ts →
    DoubleComma ts = false ∧ ts.head? ≠ some .comma ∧ ts.getLast? ≠ some .comma
  | _, _, .flag k => by simp [DoubleComma]
  | _, _, .keyValue k v => by simp [DoubleComma]
  | _, _, .fn f args e body h => by
    have hb := Body.noDouble h
    have e1 : f.token :: .openParen :: (body ++ [.closeParen]) = [f.token, .openParen] ++ (body ++ [.closeParen]) := rfl
    refine ⟨?_, ?_, ?_⟩
    · rw [e1, DoubleComma_append, DoubleComma_append, hb.1]
      have : (body ++ [Token.closeParen]).head? ≠ some .comma := by
        cases body with
        | nil => simp
        | cons t body => exact hb.2.1
      cases f <;> simp [DoubleComma, FnName.token]
    · cases f <;> simp [FnName.token]
    · have : f.token :: .openParen :: (body ++ [.closeParen]) = (f.token :: .openParen :: body) ++ [.closeParen] := rfl
      rw [this, List.getLast?_append]; simp
theorem Body.noDouble : ∀ {args : List CfgTree} {e : BodyEnd} {ts : List Token}, Body false args e ts →
    DoubleComma ts = false ∧ ts.head? ≠ some .comma ∧ (e ≠ .comma → ts.getLast? ≠ some .comma) ∧ (e ≠ .start → ts ≠ [])
  | _, _, _, .start => by simp [DoubleComma]
  | _, _, _, .item args e p t q h1 h2 h3 => by
    have hp := Body.noDouble h1
    have hq := Item.noDouble h3
    have hqne : q ≠ [] := by cases h3 <;> simp
    refine ⟨?_, ?_, fun _ => ?_, fun _ => by simp [hqne]⟩
    · rw [DoubleComma_append, hp.1, hq.1]; simp [hq.2.1]
    · rw [List.head?_append]
      cases p with
      | nil => simpa using hq.2.1
      | cons x p => have := hp.2.1; simpa using this
    · rw [List.getLast?_append]
      cases hl : q.getLast? with
      | none => simp at hl; exact (hqne hl).elim
      | some x => have := hq.2.2; rw [hl] at this; simpa using this
  | _, _, _, .comma args e p h1 h2 => by
    have hp := Body.noDouble h1
    have he : e = .item := by simpa using h2
    subst he
    have h3 := hp.2.2.1 (by simp)
    have h4 := hp.2.2.2 (by simp)
    refine ⟨?_, ?_, fun h => (h rfl).elim, fun _ => by simp⟩
    · rw [DoubleComma_append, hp.1]; simp [DoubleComma, h3]
    · rw [List.head?_append]
      cases p with
      | nil => exact (h4 rfl).elim
      | cons x p => have := hp.2.1; simpa using this
end

theorem Body.comma_last {b : Bool} {args : List CfgTree} {ts : List Token} (h : Body b args .comma ts) :
    ts.getLast? = some .comma := by
  cases h with
  | comma args e p h1 h2 => simp

mutual
theorem Item.strict : ∀ {t : CfgTree} {ts : List Token}, Item true t ts → DoubleComma ts = false → Item false t ts
  | _, _, .flag k, _ => .flag k
  | _, _, .keyValue k v, _ => .keyValue k v
  | _, _, .fn f args e body h, hd => by
    refine .fn f args e body (Body.strict h ?_)
    have e1 : f.token :: .openParen :: (body ++ [.closeParen]) = [f.token, .openParen] ++ (body ++ [.closeParen]) := rfl
    rw [e1, DoubleComma_append, DoubleComma_append] at hd
    simp only [Bool.or_eq_false_iff] at hd
    exact hd.1.2.1.1
theorem Body.strict : ∀ {args : List CfgTree} {e : BodyEnd} {ts : List Token}, Body true args e ts → DoubleComma ts = false →
    Body false args e ts
  | _, _, _, .start, _ => .start
  | _, _, _, .item args e p t q h1 h2 h3, hd => by
    rw [DoubleComma_append] at hd
    simp only [Bool.or_eq_false_iff] at hd
    exact .item args e p t q (Body.strict h1 hd.1.1) h2 (Item.strict h3 hd.1.2)
  | _, _, _, .comma args e p h1 h2, hd => by
    rw [DoubleComma_append] at hd
    simp only [Bool.or_eq_false_iff] at hd
    refine .comma args e p (Body.strict h1 hd.1.1) ?_
    rcases h2 with h2 | ⟨_, rfl⟩
    · exact Or.inl h2
    · have h3 := h1.comma_last
      have := hd.2
      rw [h3] at this
      simp at this
end

theorem predsOf_length (l : List CfgTree) : (predsOf l).length = l.countP (fun t => !t.isFn) := by
  induction l with
  | nil => rfl
  | cons t l ih => cases t <;> simp [predsOf, CfgTree.isFn, ih]

theorem countedNot_iff (f : FnName) (args : List CfgTree) : CountedNot f args ↔ NotUnaryMod f args := by
  unfold CountedNot NotUnaryMod countOf fnCount
  rw [predsOf_length]

end CC
