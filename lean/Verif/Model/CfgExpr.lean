import Verif.Model.Basic
/-
`cfg(..)` expressions: lexer, parser and evaluation (src/cfg_expr).

Panics are explicit: slicing off a character boundary (`slice`, `sliceFrom`), `unwrap` of an empty stack, and the overflow of the
`u8` counter `nest_level`, which panics if overflow checks are enabled (debug builds) and wraps otherwise (release builds).  The
flag `checks` selects between the two.

Simplification: the counters of type `usize` and `i32` are `Nat` (they are bounded by the length of the text).
-/
namespace CC

/-! ### Lexer (src/cfg_expr/expr/lexer.rs) -/

/-- `Err(ParseError { original, span: start..stop, reason })`. -/
def cfgErr {α : Type} (original : Str) (start stop : Nat) (reason : Reason) : Res α :=
  .err (.cfgParse { original := original, span := ⟨start, stop⟩, reason := reason })

/-- Models `Token` of src/cfg_expr/expr/lexer.rs 10-29. -/
inductive Token where
  | key (s : Str)
  | value (s : Str)
  | equals
  | all
  | any
  | not
  | openParen
  | closeParen
  | comma
deriving DecidableEq, Repr

/-- Models `Token::len` of src/cfg_expr/expr/lexer.rs 38-45. -/
def Token.len : Token → Nat
  | .key s => utf8Len s
  | .value s => utf8Len s + 2
  | .equals | .openParen | .closeParen | .comma => 1
  | .all | .any | .not => 3

/-- Models `Lexer` of src/cfg_expr/expr/lexer.rs 53-57. -/
structure Lexer where
  inner : Str
  original : Str
  offset : Nat
deriving DecidableEq, Repr

/-- The string that `Lexer::new` of src/cfg_expr/expr/lexer.rs 62-67 works on; `none` is the panic of slicing. -/
def cfgText (text : Str) : Option Str :=
  if startsWith "cfg(".toList text && endsWith ")".toList text then slice text 4 (utf8Len text - 1) else some text

/-- Models `LexerToken` of src/cfg_expr/expr/lexer.rs 75-81. -/
structure LexerToken where
  token : Token
  span : Span
deriving DecidableEq, Repr

/-- Models `is_ident_start` of src/cfg_expr/expr/lexer.rs 88-90. -/
def isIdentStart (c : Char) : Bool :=
  c == '_' || (97 ≤ c.toNat && c.toNat ≤ 122) || (65 ≤ c.toNat && c.toNat ≤ 90)

/-- Models `is_ident_rest` of src/cfg_expr/expr/lexer.rs 93-95. -/
def isIdentRest (c : Char) : Bool := isIdentStart c || (48 ≤ c.toNat && c.toNat ≤ 57)

/-- `str::find` with a predicate (std): the byte index of the first character that satisfies it. -/
def strFind (p : Char → Bool) : Str → Option Nat
  | [] => none
  | c :: cs => if p c then some 0 else (strFind p cs).map (c.utf8Size + ·)

/-- `sub_str` in `Lexer::next`, src/cfg_expr/expr/lexer.rs 123-126, for `t = inner[1..]`; `none` is the panic of slicing. -/
def subStr (inner t : Str) : Option Str :=
  match strFind (fun c => !isIdentRest c) t with
  | some ind => sliceTo inner (ind + 1)
  | none => some inner

/-- The part of `Lexer::next` that recognises a token, src/cfg_expr/expr/lexer.rs 106-142, after the white space was skipped.
`none` is the end of the input. -/
def Lexer.recognise (l : Lexer) : Option (Res Token) :=
  match l.inner with
  | [] => none
  | c :: _ =>
    if c = '=' then some (.ok .equals)
    else if c = '(' then some (.ok .openParen)
    else if c = ')' then some (.ok .closeParen)
    else if c = ',' then some (.ok .comma)
    else if c = '"' then
      match sliceFrom l.inner 1 with
      | none => some .panic
      | some t =>
        match strFind (· == '"') t with
        | some ind =>
          match slice l.inner 1 (ind + 1) with
          | some v => some (.ok (.value v))
          | none => some .panic
        | none => some (cfgErr l.original l.offset (utf8Len l.original) .unclosedQuotes)
    else if isIdentStart c then
      match sliceFrom l.inner 1 with
      | none => some .panic
      | some t =>
        match subStr l.inner t with
        | none => some .panic
        | some s =>
          if s = "all".toList then some (.ok .all)
          else if s = "any".toList then some (.ok .any)
          else if s = "not".toList then some (.ok .not)
          else some (.ok (.key s))
    else some (cfgErr l.original l.offset (l.offset + 1)
          (.unexpected ["<key>".toList, "all".toList, "any".toList, "not".toList]))

/-- Skipping of white space, src/cfg_expr/expr/lexer.rs 97-104; `none` is the panic of slicing. -/
def Lexer.skipWs (l : Lexer) : Option Lexer :=
  let i := (strFind (fun c => !isWhitespace c) l.inner).getD (utf8Len l.inner)
  (sliceFrom l.inner i).map fun t => { l with inner := t, offset := l.offset + i }

/-- Models `Lexer::next` of src/cfg_expr/expr/lexer.rs 86-155: `none` is the end of the input.  The new state is returned; after an
error it does not matter, because the parser stops. -/
def Lexer.next (l : Lexer) : Option (Res (LexerToken × Lexer)) :=
  match l.skipWs with
  | none => some .panic
  | some l =>
    match l.recognise with
    | none => none
    | some (.err e) => some (.err e)
    | some .panic => some .panic
    | some (.ok t) =>
      match sliceFrom l.inner t.len with
      | none => some .panic
      | some rest => some (.ok ({ token := t, span := ⟨l.offset, l.offset + t.len⟩ },
          { l with inner := rest, offset := l.offset + t.len }))

/-! ### Parser (src/cfg_expr/expr/parser.rs) -/

/-- The three functions (`Func` of src/cfg_expr/expr/mod.rs 11-27 without the counts). -/
inductive FnName where
  | all | any | not
deriving DecidableEq, Repr

/-- Models `Func` of src/cfg_expr/expr/mod.rs 11-27. -/
inductive Func where
  | not
  | all (n : Nat)
  | any (n : Nat)
deriving DecidableEq, Repr

/-- Models `Predicate` of src/cfg_expr/expr/mod.rs 30-36. -/
inductive Predicate where
  | flag (name : Str)
  | keyValue (key val : Str)
deriving DecidableEq, Repr

/-- Models `InnerPredicate` of src/cfg_expr/expr/mod.rs 38-42. -/
structure InnerPredicate where
  identifier : Span
  value : Option Span
deriving DecidableEq, Repr

/-- Models `ExprNode` of src/cfg_expr/expr/mod.rs 55-59. -/
inductive ExprNode where
  | fn (f : Func)
  | predicate (p : InnerPredicate)
deriving DecidableEq, Repr

/-- Models `Expression` of src/cfg_expr/expr/mod.rs 61-68. -/
structure Expression where
  expr : List ExprNode
  original : Str
deriving DecidableEq, Repr

/-- Models `FuncAndSpan` of src/cfg_expr/expr/parser.rs 16-22. -/
structure FuncAndSpan where
  func : FnName
  parensIndex : Nat
  span : Span
  predicates : List InnerPredicate
  nestLevel : Nat
deriving DecidableEq, Repr

/-- The local variables of `Expression::parse`, src/cfg_expr/expr/parser.rs 30-67.  The head of `stack` is the top of `func_stack`;
of `pred_key` and `pred_val` only the spans are kept (the strings are not used, parser.rs 36-41). -/
structure PState where
  stack : List FuncAndSpan := []
  queue : List ExprNode := []
  last : Option Token := none
  predKey : Option Span := none
  predVal : Option Span := none
  rootCount : Nat := 0
deriving DecidableEq, Repr

/-- The list in `token_err!` of src/cfg_expr/expr/parser.rs 45-54. -/
def expectedAfter : Option Token → List Str
  | none => ["<key>".toList, "all".toList, "any".toList, "not".toList]
  | some .all | some .any | some .not => ["(".toList]
  | some .closeParen => [")".toList, ",".toList]
  | some .comma => [")".toList, "<key>".toList]
  | some .equals => ["\"".toList]
  | some (.key _) => ["=".toList, ",".toList, ")".toList]
  | some (.value _) => [",".toList, ")".toList]
  | some .openParen => ["<key>".toList, ")".toList, "all".toList, "any".toList, "not".toList]

/-- `token_err!` of src/cfg_expr/expr/parser.rs 43-62. -/
def tokenErr {α : Type} (original : Str) (last : Option Token) (span : Span) : Res α :=
  cfgErr original span.start span.stop (.unexpected (expectedAfter last))

/-- `matches!(last_token, None | Some(OpenParen | Comma))`, src/cfg_expr/expr/parser.rs 74 and 98. -/
def startsItem : Option Token → Bool
  | none | some .openParen | some .comma => true
  | _ => false

/-- `matches!(last_token, Some(All | Any | Not))`, src/cfg_expr/expr/parser.rs 124. -/
def afterFn : Option Token → Bool
  | some .all | some .any | some .not => true
  | _ => false

/-- `matches!(last_token, Some(Key(_)))`, src/cfg_expr/expr/parser.rs 93. -/
def afterKey : Option Token → Bool
  | some (.key _) => true
  | _ => false

/-- `matches!(last_token, None | Some(All | Any | Not | Equals))`, src/cfg_expr/expr/parser.rs 133-136. -/
def badBeforeClose : Option Token → Bool
  | none | some .all | some .any | some .not | some .equals => true
  | _ => false

/-- `matches!(last_token, None | Some(OpenParen | All | Any | Not | Equals))`, src/cfg_expr/expr/parser.rs 189-194. -/
def badBeforeComma : Option Token → Bool
  | none | some .openParen | some .all | some .any | some .not | some .equals => true
  | _ => false

/-- `nest_level += 1` on a `u8` (src/cfg_expr/expr/parser.rs 109): panics on overflow if overflow checks are on, else wraps. -/
def u8Incr (checks : Bool) (n : Nat) : Option Nat :=
  if n + 1 < 256 then some (n + 1) else if checks then none else some 0

/-- `key.map(|key| parse_predicate(key, val))`, src/cfg_expr/expr/parser.rs 168-171, 200 and 246-249: the predicate whose key (and
value) were read last. -/
def PState.pending (s : PState) : Option InnerPredicate :=
  s.predKey.map fun k => { identifier := k, value := s.predVal }

/-- The arm for `all`, `any` and `not` of the loop in `Expression::parse`, src/cfg_expr/expr/parser.rs 97-122. -/
def PState.openFn (checks : Bool) (original : Str) (s : PState) (f : FnName) (lt : LexerToken) : Res PState :=
  if startsItem s.last then
    let new : FuncAndSpan := { func := f, parensIndex := 0, span := lt.span, predicates := [], nestLevel := 0 }
    match s.stack with
    | [] => .ok { s with stack := [new] }
    | fs :: rest =>
      match u8Incr checks fs.nestLevel with
      | none => .panic
      | some n => .ok { s with stack := new :: { fs with nestLevel := n } :: rest }
  else tokenErr original s.last lt.span

/-- `Func` of a closed function, src/cfg_expr/expr/parser.rs 146-162. -/
def closedFunc (original : Str) (top : FuncAndSpan) (n : Nat) (stop : Nat) : Res Func :=
  match top.func with
  | .all => .ok (.all n)
  | .any => .ok (.any n)
  | .not =>
    if n ≠ 1 then
      cfgErr original top.span.start stop (.invalidNot n)
    else .ok .not

/-- The arm for `)` of the loop in `Expression::parse`, src/cfg_expr/expr/parser.rs 132-187. -/
def PState.close (original : Str) (s : PState) (lt : LexerToken) : Res PState :=
  if badBeforeClose s.last then tokenErr original s.last lt.span
  else
    match s.stack with
    | [] => cfgErr original lt.span.start lt.span.stop .unopenedParens
    | top :: rest =>
      let n := top.predicates.length + (if s.predKey.isSome then 1 else 0) + top.nestLevel
      closedFunc original top n lt.span.stop >>= fun func =>
        .ok { s with
          stack := rest
          queue := s.queue ++ top.predicates.map ExprNode.predicate ++ s.pending.toList.map ExprNode.predicate ++ [.fn func]
          predKey := none
          predVal := none }

/-- The arm for `,` of the loop in `Expression::parse`, src/cfg_expr/expr/parser.rs 188-213. -/
def PState.comma (original : Str) (s : PState) (lt : LexerToken) : Res PState :=
  if badBeforeComma s.last then tokenErr original s.last lt.span
  else
    let s' := { s with predKey := none, predVal := none }
    match s.pending with
    | none => .ok s'
    | some pred =>
      match s.stack with
      | fs :: rest => .ok { s' with stack := { fs with predicates := fs.predicates ++ [pred] } :: rest }
      | [] => .ok { s' with rootCount := s.rootCount + 1, queue := s.queue ++ [.predicate pred] }

/-- One round of the loop in `Expression::parse`, src/cfg_expr/expr/parser.rs 71-216. -/
def PState.step (checks : Bool) (original : Str) (s : PState) (lt : LexerToken) : Res PState :=
  (match lt.token with
    | .key _ =>
      if startsItem s.last then .ok { s with predKey := some lt.span } else tokenErr original s.last lt.span
    | .value _ =>
      if s.last = some .equals then .ok { s with predVal := some ⟨lt.span.start + 1, lt.span.stop - 1⟩ }
      else tokenErr original s.last lt.span
    | .equals => if afterKey s.last then .ok s else tokenErr original s.last lt.span
    | .all => s.openFn checks original .all lt
    | .any => s.openFn checks original .any lt
    | .not => s.openFn checks original .not lt
    | .openParen =>
      if afterFn s.last then
        match s.stack with
        | fs :: rest => .ok { s with stack := { fs with parensIndex := lt.span.start } :: rest }
        | [] => .ok s
      else tokenErr original s.last lt.span
    | .closeParen => s.close original lt
    | .comma => s.comma original lt) >>= fun s => .ok { s with last := some lt.token }

/-- The part of `Expression::parse` after the loop, src/cfg_expr/expr/parser.rs 219-266. -/
def PState.finish (original : Str) (s : PState) : Res Expression :=
  if s.last = some .equals then
    cfgErr original (utf8Len original) (utf8Len original) (.unexpected ["\"<value>\"".toList])
  else
    match s.stack with
    | top :: _ =>
      if top.parensIndex = 0 then
        cfgErr original top.span.start top.span.stop (.unexpected ["(".toList])
      else
        cfgErr original top.parensIndex (utf8Len original) .unclosedParens
    | [] =>
      let queue := s.queue ++ s.pending.toList.map ExprNode.predicate
      let count := s.rootCount + (if s.predKey.isSome then 1 else 0)
      if queue.isEmpty then
        cfgErr original 0 (utf8Len original) .empty
      else if count > 1 then
        cfgErr original 0 (utf8Len original) .multipleRootPredicates
      else .ok { expr := queue, original := original }

/-- The loop of `Expression::parse` and what follows it, src/cfg_expr/expr/parser.rs 69-266.  Every round consumes at least one
character, so that `fuel` (the number of rounds still allowed) is never exhausted when it starts above the length of the text;
exhaustion is a panic here, and `C37` shows that there is none. -/
def parseLoop (checks : Bool) (original : Str) : Nat → Lexer → PState → Res Expression
  | 0, _, _ => .panic
  | fuel + 1, l, s =>
    match l.next with
    | none => s.finish original
    | some (.err e) => .err e
    | some .panic => .panic
    | some (.ok (lt, l)) => s.step checks original lt >>= fun s => parseLoop checks original fuel l s

/-- Models `Expression::parse` of src/cfg_expr/expr/parser.rs 14-267. -/
def Expression.parse (checks : Bool) (text : Str) : Res Expression :=
  match cfgText text with
  | none => .panic
  | some t => parseLoop checks t (t.length + 1) { inner := t, original := t, offset := 0 } {}

/-! ### Display of errors (src/cfg_expr/error.rs) -/

/-- ", " between the elements, src/cfg_expr/error.rs 80-82. -/
def joinExpected : List Str → Str
  | [] => []
  | [e] => '`' :: (e ++ ['`'])
  | e :: es => '`' :: (e ++ "`, ".toList) ++ joinExpected es

/-- Models `Display for Reason` of src/cfg_expr/error.rs 64-94. -/
def Reason.display : Reason → Str
  | .unclosedParens => "unclosed parens".toList
  | .unopenedParens => "unopened parens".toList
  | .unclosedQuotes => "unclosed quotes".toList
  | .empty => "empty expression".toList
  | .unexpected [] => "the term was not expected here".toList
  | .unexpected [e] => "expected a `".toList ++ e ++ "` here".toList
  | .unexpected es => "expected one of ".toList ++ joinExpected es ++ " here".toList
  | .invalidNot n => "not() takes 1 predicate, found ".toList ++ (toString n).toList
  | .multipleRootPredicates => "multiple root predicates".toList

/-- Models `Display for ParseError` of src/cfg_expr/error.rs 37-62. -/
def ParseError.display (e : ParseError) : Str :=
  e.original ++ '\n' :: (List.replicate e.span.start ' ' ++
    match e.reason with
    | .unclosedParens | .unclosedQuotes => '-' :: ' ' :: e.reason.display
    | .unopenedParens => '^' :: ' ' :: e.reason.display
    | r => List.replicate (e.span.stop - e.span.start) '^' ++ ' ' :: r.display)

/-! ### Evaluation (src/cfg_expr/expr/mod.rs) -/

/-- Models `InnerPredicate::to_pred` of src/cfg_expr/expr/mod.rs 45-52; `none` is the panic of slicing. -/
def InnerPredicate.toPred (p : InnerPredicate) (s : Str) : Option Predicate :=
  match p.value with
  | some vs => (slice s p.identifier.start p.identifier.stop).bind fun k =>
      (slice s vs.start vs.stop).map fun v => .keyValue k v
  | none => (slice s p.identifier.start p.identifier.stop).map .flag

/-- Models the trait `Logic` of src/cfg_expr/expr/mod.rs 145-161. -/
structure Logic (T : Type) where
  top : T
  bottom : T
  and : T → T → T
  or : T → T → T
  not : T → T

/-- Models `Logic for bool` of src/cfg_expr/expr/mod.rs 164-189. -/
def boolLogic : Logic Bool where
  top := true
  bottom := false
  and a b := a && b
  or a b := a || b
  not a := !a

/-- Models `Logic for Option<bool>` of src/cfg_expr/expr/mod.rs 195-234. -/
def optLogic : Logic (Option Bool) where
  top := some true
  bottom := some false
  and a b := match a, b with
    | some false, _ => some false
    | _, some false => some false
    | some true, some true => some true
    | _, _ => none
  or a b := match a, b with
    | some true, _ => some true
    | _, some true => some true
    | some false, some false => some false
    | _, _ => none
  not a := a.map fun v => !v

/-- `for _ in 0..count { let r = stack.pop().unwrap(); result = op(result, r) }`, src/cfg_expr/expr/mod.rs 110-113 and 121-124, on a
stack whose head is its top; `none` is the panic. -/
def popFold {T : Type} (op : T → T → T) : Nat → T → List T → Option (T × List T)
  | 0, acc, st => some (acc, st)
  | _ + 1, _, [] => none
  | n + 1, acc, r :: st => popFold op n (op acc r) st

/-- One round of the loop in `Expression::eval`, src/cfg_expr/expr/mod.rs 99-136, given the values of the predicates. -/
def evalNode {T : Type} (L : Logic T) (ep : Predicate → T) (original : Str) (st : List T) : ExprNode → Option (List T)
  | .predicate p => (p.toPred original).map fun q => ep q :: st
  | .fn (.all n) => (popFold L.and n L.top st).map fun (r, st) => r :: st
  | .fn (.any n) => (popFold L.or n L.bottom st).map fun (r, st) => r :: st
  | .fn .not => match st with
    | [] => none
    | r :: st => some (L.not r :: st)

/-- The loop in `Expression::eval`, src/cfg_expr/expr/mod.rs 99-136. -/
def evalNodes {T : Type} (L : Logic T) (ep : Predicate → T) (original : Str) : List T → List ExprNode → Option (List T)
  | st, [] => some st
  | st, n :: ns => (evalNode L ep original st n).bind fun st => evalNodes L ep original st ns

/-- Models `Expression::eval` of src/cfg_expr/expr/mod.rs 89-139; `none` is a panic.  Simplification: `eval_predicate` is a function
(the closures passed by the library have no side effects). -/
def Expression.eval {T : Type} (e : Expression) (L : Logic T) (ep : Predicate → T) : Option T :=
  (evalNodes L ep e.original [] e.expr).bind List.head?

/-! ### The cfg set of a target (src/resolve.rs) -/

/-- Models `Cfg` of src/resolve.rs 334-338.  The hash sets are lists; only membership matters. -/
structure CfgSet where
  flags : List Str := []
  keyValues : List (Str × List Str) := []
deriving DecidableEq, Repr

/-- `HashMap::get` on `key_values`. -/
def CfgSet.values (l : List (Str × List Str)) (k : Str) : Option (List Str) :=
  match l with
  | [] => none
  | (k', v) :: l => if k' = k then some v else CfgSet.values l k

/-- `if let Some(values) = key_values.get_mut(name) { values.insert(v) } else { key_values.insert(name, {v}) }`,
src/resolve.rs 371-377. -/
def CfgSet.addValue (name v : Str) : List (Str × List Str) → List (Str × List Str)
  | [] => [(name, [v])]
  | (k, vs) :: l => if k = name then (k, if vs.contains v then vs else vs ++ [v]) :: l else (k, vs) :: CfgSet.addValue name v l

/-- One round of the loop in `Cfg::parse`, src/resolve.rs 351-380 (without `cfg(test)`); `none` is the panic of slicing. -/
def CfgSet.addLine (c : CfgSet) (line : Str) : Option CfgSet :=
  let line := trim line
  if line.isEmpty then some c
  else
    match splitOnce '=' line with
    | none => some { c with flags := if c.flags.contains line then c.flags else c.flags ++ [line] }
    | some (name, value) =>
      if utf8Len value < 2 || !startsWith ['"'] value || !endsWith ['"'] value then some c
      else
        match slice value 1 (utf8Len value - 1) with
        | none => none
        | some v => if v.isEmpty then some c else some { c with keyValues := CfgSet.addValue name v c.keyValues }

/-- The loop in `Cfg::parse`, src/resolve.rs 351-380. -/
def CfgSet.addLines : CfgSet → List Str → Option CfgSet
  | c, [] => some c
  | c, l :: ls => (c.addLine l).bind fun c => CfgSet.addLines c ls

/-- Models `Cfg::parse` of src/resolve.rs 347-383; `none` is a panic. -/
def CfgSet.parse (list : Str) : Option CfgSet := CfgSet.addLines {} (lines list)

/-- The closure in `CfgMap::eval_cfg` of src/resolve.rs 315-330: the value of a predicate. -/
def CfgSet.holds (c : CfgSet) : Predicate → Bool
  | .flag f =>
    if f = "test".toList ∨ f = "debug_assertions".toList ∨ f = "proc_macro".toList then false else c.flags.contains f
  | .keyValue k v =>
    if k = "feature".toList then false
    else match CfgSet.values c.keyValues k with
      | some vs => vs.contains v
      | none => false

example : ((Expression.parse true "cfg(all(unix, any(b, not(c = \"x\"))))".toList).toOption.bind
    fun e => e.eval boolLogic fun p => p = .flag "unix".toList) = some true := by decide +kernel
example : (Expression.parse true "all(a,, é)".toList).isErr = true := by decide +kernel

end CC
