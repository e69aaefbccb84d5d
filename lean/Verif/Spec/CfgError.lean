import Verif.Spec.CfgExpr
/-
Specification vocabulary for the errors of `cfg(..)` expressions: which tokens may follow which, and where tokens are in a text.
-/
namespace CC

/-- The tokens can be continued to a list of formulas.  As in `IsCfgList` commas may be repeated; `not` may have any number of
operands here. -/
def Extends (ts : List Token) : Prop := ∃ us trees e, Body true trees e (ts ++ us)

/-- Every finished `not` among the tokens has one operand (functions being counted modulo 256). -/
def NotsUnary (ts : List Token) : Prop :=
  ∀ p m q args, ts = p ++ m ++ q → Item true (.fn .not args) m → NotUnaryMod .not args

/-- Nothing is wrong with the tokens so far. -/
def InOrder (ts : List Token) : Prop := Extends ts ∧ NotsUnary ts

/-- The token `t` is in the text between `pre`, which consists of the tokens `ts`, and `post`. -/
structure TokenAt (inner pre : Str) (ts : List Token) (t : Token) (post : Str) : Prop where
  text : inner = pre ++ t.text ++ post
  before : ReadsAs pre ts
  wf : t.WF
  word : t.IsWord → ∀ c, post.head? = some c → ¬ IdentRest c

/-- The tokens meant by the elements of "expected one of ..". -/
def Names (e : Str) (t : Token) : Prop :=
  (e = "<key>".toList ∧ ∃ k, t = .key k) ∨ (e = "\"".toList ∧ ∃ v, t = .value v) ∨
  ((∀ k, t ≠ .key k) ∧ (∀ v, t ≠ .value v) ∧ e = t.text)

/-- The tokens that may begin a formula. -/
def beginnings : List Str := ["<key>".toList, "all".toList, "any".toList, "not".toList]

/-- `es` lists what may follow the tokens `ts`: everything listed may follow, except that `)` is listed although no function is open;
and everything that may follow is listed, except for a function or another comma after a comma. -/
def ListsWhatFits (ts : List Token) (es : List Str) : Prop :=
  (∀ x ∈ es, ∀ t, Names x t → Extends (ts ++ [t]) ∨ (t = .closeParen ∧ ∃ trees e, Body true trees e ts)) ∧
  (∀ t, Extends (ts ++ [t]) → (∃ x ∈ es, Names x t) ∨
    (ts.getLast? = some .comma ∧ (t = .all ∨ t = .any ∨ t = .not ∨ t = .comma)))

/-- `Blame inner a b r`: what is wrong with the text `inner`, at the bytes `a` to `b`, for the reason `r`. -/
inductive Blame (inner : Str) : Nat → Nat → Reason → Prop where
  /-- The first token that cannot follow those before it, unless it is the `)` of the next case.  The message lists what could. -/
  | token (pre : Str) (ts : List Token) (t : Token) (post : Str) (es : List Str) : TokenAt inner pre ts t post → InOrder ts →
      ¬ Extends (ts ++ [t]) → ¬ (t = .closeParen ∧ ts ≠ [] ∧ ∃ trees e, Body true trees e ts) → ListsWhatFits ts es →
      Blame inner (utf8Len pre) (utf8Len pre + utf8Len t.text) (.unexpected es)
  /-- A `)` after complete formulas, where no function is open. -/
  | unopened (pre : Str) (ts : List Token) (trees : List CfgTree) (e : BodyEnd) (post : Str) : TokenAt inner pre ts .closeParen post →
      InOrder ts → Body true trees e ts → ts ≠ [] → Blame inner (utf8Len pre) (utf8Len pre + 1) .unopenedParens
  /-- A character that does not begin any token. -/
  | char (pre : Str) (ts : List Token) (c : Char) (post : Str) : inner = pre ++ c :: post → ReadsAs pre ts → InOrder ts →
      isWhitespace c = false → (∀ t : Token, t.WF → t.text.head? ≠ some c) →
      Blame inner (utf8Len pre) (utf8Len pre + 1) (.unexpected beginnings)
  /-- A string that does not end. -/
  | quotes (pre : Str) (ts : List Token) (post : Str) : inner = pre ++ '"' :: post → '"' ∉ post → ReadsAs pre ts → InOrder ts →
      Blame inner (utf8Len pre) (utf8Len inner) .unclosedQuotes
  /-- The first `not(..)` to be finished that has not exactly one operand (functions being counted modulo 256), from the word to the
  closing parenthesis. -/
  | not (pre mid post : Str) (ts m : List Token) (args : List CfgTree) : inner = pre ++ mid ++ post → ReadsAs pre ts → ReadsAs mid m →
      (∃ r, mid = Token.not.text ++ r) → Item true (.fn .not args) m → Extends (ts ++ m) → NotsUnary (ts ++ m.dropLast) →
      ¬ NotUnaryMod .not args → Blame inner (utf8Len pre) (utf8Len (pre ++ mid))
        (.invalidNot (args.countP (fun t => !t.isFn) + args.countP CfgTree.isFn % 256))
  /-- The text ends after `key =`. -/
  | value (ts : List Token) (k : Str) : ReadsAs inner (ts ++ [.key k, .equals]) → InOrder (ts ++ [.key k, .equals]) →
      Blame inner (utf8Len inner) (utf8Len inner) (.unexpected ["\"<value>\"".toList])
  /-- The text ends after the word of a function. -/
  | paren (pre : Str) (ts : List Token) (f : FnName) (post : Str) : TokenAt inner pre ts f.token post → ReadsAs post [] →
      InOrder (ts ++ [f.token]) → Blame inner (utf8Len pre) (utf8Len pre + utf8Len f.token.text) (.unexpected ["(".toList])
  /-- The text ends inside functions; the innermost of their parentheses. -/
  | unclosed (pre : Str) (ts : List Token) (f : FnName) (post : Str) (p : List Token) (args : List CfgTree) (e : BodyEnd) :
      TokenAt inner pre (ts ++ [f.token]) .openParen post → ReadsAs post p → Body true args e p →
      InOrder (ts ++ [f.token, .openParen] ++ p) → Blame inner (utf8Len pre) (utf8Len inner) .unclosedParens
  /-- There is no token. -/
  | empty : ReadsAs inner [] → Blame inner 0 (utf8Len inner) .empty
  /-- More than one predicate outside of functions. -/
  | multiple (ts : List Token) (trees : List CfgTree) (e : BodyEnd) : ReadsAs inner ts → Body true trees e ts → NotsUnary ts →
      2 ≤ trees.countP (fun t => !t.isFn) → Blame inner 0 (utf8Len inner) .multipleRootPredicates

/-- The reason in words. -/
def reasonText : Reason → Str
  | .unclosedParens => "unclosed parens".toList
  | .unopenedParens => "unopened parens".toList
  | .unclosedQuotes => "unclosed quotes".toList
  | .empty => "empty expression".toList
  | .multipleRootPredicates => "multiple root predicates".toList
  | .invalidNot n => "not() takes 1 predicate, found ".toList ++ (Nat.repr n).toList
  | .unexpected es =>
    if es = [] then "the term was not expected here".toList
    else (if es.length = 1 then "expected a ".toList else "expected one of ".toList) ++
      List.intercalate ", ".toList (es.map fun e => "`".toList ++ e ++ "`".toList) ++ " here".toList

/-- The marks below the text: one dash for what is not closed, carets for everything else. -/
def marks (a b : Nat) (r : Reason) : Str :=
  if r = .unclosedParens ∨ r = .unclosedQuotes then ['-'] else List.replicate (b - a) '^'

end CC
