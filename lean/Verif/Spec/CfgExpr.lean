import Verif.Model.CfgExpr
import Verif.Spec.Text
/-
Specification vocabulary for `cfg(..)` expressions: tokens in a text, the grammar, and truth values.

Of the model only the data types `Token`, `FnName` and `Predicate` are used, and `isWhitespace`.
-/
namespace CC

/-! ### Texts and tokens -/

/-- A letter or underscore. -/
def IdentStart (c : Char) : Prop := ('a' ≤ c ∧ c ≤ 'z') ∨ ('A' ≤ c ∧ c ≤ 'Z') ∨ c = '_'

/-- A letter, underscore or digit. -/
def IdentRest (c : Char) : Prop := IdentStart c ∨ ('0' ≤ c ∧ c ≤ '9')

/-- The spelling of a token. -/
def Token.text : Token → Str
  | .key s => s
  | .value s => '"' :: (s ++ ['"'])
  | .equals => ['=']
  | .all => ['a', 'l', 'l']
  | .any => ['a', 'n', 'y']
  | .not => ['n', 'o', 't']
  | .openParen => ['(']
  | .closeParen => [')']
  | .comma => [',']

/-- Keys are identifiers other than `all`, `any` and `not`; values do not contain quotes. -/
def Token.WF : Token → Prop
  | .key s => (∃ c r, s = c :: r ∧ IdentStart c ∧ ∀ d ∈ r, IdentRest d) ∧
      s ≠ Token.all.text ∧ s ≠ Token.any.text ∧ s ≠ Token.not.text
  | .value s => '"' ∉ s
  | _ => True

/-- The tokens that must not be directly followed by another letter, underscore or digit. -/
def Token.IsWord : Token → Prop
  | .key _ | .all | .any | .not => True
  | _ => False

/-- `ReadsAs s ts`: the text `s` consists of the tokens `ts`, with any white space before, between and after them. -/
inductive ReadsAs : Str → List Token → Prop where
  | nil (w : Str) : (∀ c ∈ w, isWhitespace c = true) → ReadsAs w []
  | cons (w : Str) (t : Token) (rest : Str) (ts : List Token) : (∀ c ∈ w, isWhitespace c = true) → t.WF →
      (t.IsWord → ∀ c, rest.head? = some c → ¬ IdentRest c) → ReadsAs rest ts → ReadsAs (w ++ t.text ++ rest) (t :: ts)

/-- The text inside `cfg(` and `)`, or the text itself if it is not of that form. -/
def CfgInner (s t : Str) : Prop :=
  s = "cfg(".toList ++ t ++ ")".toList ∨ (s = t ∧ ¬ ∃ r, s = "cfg(".toList ++ r ++ ")".toList)

/-! ### Grammar -/

/-- A formula. -/
inductive CfgTree where
  | pred (p : Predicate)
  | fn (f : FnName) (args : List CfgTree)
deriving Repr

/-- The word of a function. -/
def FnName.token : FnName → Token
  | .all => .all
  | .any => .any
  | .not => .not

/-- How a (possibly unfinished) list of operands ends. -/
inductive BodyEnd where
  | start | item | comma
deriving DecidableEq

mutual
/-- The tokens of one formula.  With `sloppy = false` this is the usual grammar; with `sloppy = true` commas may be repeated. -/
inductive Item (sloppy : Bool) : CfgTree → List Token → Prop where
  | flag (k : Str) : Item sloppy (.pred (.flag k)) [.key k]
  | keyValue (k v : Str) : Item sloppy (.pred (.keyValue k v)) [.key k, .equals, .value v]
  | fn (f : FnName) (args : List CfgTree) (e : BodyEnd) (body : List Token) : Body sloppy args e body →
      Item sloppy (.fn f args) (f.token :: .openParen :: (body ++ [.closeParen]))
/-- The tokens of a list of formulas separated by commas, with an optional comma at the end. -/
inductive Body (sloppy : Bool) : List CfgTree → BodyEnd → List Token → Prop where
  | start : Body sloppy [] .start []
  | item (args : List CfgTree) (e : BodyEnd) (p : List Token) (t : CfgTree) (q : List Token) : Body sloppy args e p →
      e ≠ .item → Item sloppy t q → Body sloppy (args ++ [t]) .item (p ++ q)
  | comma (args : List CfgTree) (e : BodyEnd) (p : List Token) : Body sloppy args e p →
      (e = .item ∨ (sloppy = true ∧ e = .comma)) → Body sloppy args .comma (p ++ [.comma])
end

/-- Whether a formula is a function (and not a predicate). -/
def CfgTree.isFn : CfgTree → Bool
  | .pred _ => false
  | .fn .. => true

mutual
/-- Every function in the formula has operands that satisfy `P`. -/
def CfgTree.AllFns (P : FnName → List CfgTree → Prop) : CfgTree → Prop
  | .pred _ => True
  | .fn f args => P f args ∧ CfgTree.AllFnsList P args
/-- Every function in the formulas has operands that satisfy `P`. -/
def CfgTree.AllFnsList (P : FnName → List CfgTree → Prop) : List CfgTree → Prop
  | [] => True
  | t :: ts => CfgTree.AllFns P t ∧ CfgTree.AllFnsList P ts
end

/-- `not` has exactly one operand. -/
def NotUnary (f : FnName) (args : List CfgTree) : Prop := f = .not → args.length = 1

/-- At most 255 of the operands are functions. -/
def Narrow (_ : FnName) (args : List CfgTree) : Prop := args.countP CfgTree.isFn < 256

mutual
/-- The truth value of a formula, given those of the predicates. -/
def CfgTree.value (v : Predicate → Bool) : CfgTree → Bool
  | .pred p => v p
  | .fn .all args => CfgTree.allValues v args
  | .fn .any args => CfgTree.anyValue v args
  | .fn .not args => !CfgTree.allValues v args
/-- All formulas are true. -/
def CfgTree.allValues (v : Predicate → Bool) : List CfgTree → Bool
  | [] => true
  | t :: ts => CfgTree.value v t && CfgTree.allValues v ts
/-- One of the formulas is true. -/
def CfgTree.anyValue (v : Predicate → Bool) : List CfgTree → Bool
  | [] => false
  | t :: ts => CfgTree.value v t || CfgTree.anyValue v ts
end

mutual
/-- Whether the formula is decided to be `b` if only some predicates have known truth values: a conjunction is true if
all operands are true and false if one is false, whatever the others are; dually for a disjunction. -/
def CfgTree.decided (ep : Predicate → Option Bool) (b : Bool) : CfgTree → Bool
  | .pred p => ep p == some b
  | .fn .all args => if b then CfgTree.allDecided ep true args else CfgTree.anyDecided ep false args
  | .fn .any args => if b then CfgTree.anyDecided ep true args else CfgTree.allDecided ep false args
  | .fn .not args => CfgTree.allDecided ep (!b) args
/-- All formulas are decided to be `b`. -/
def CfgTree.allDecided (ep : Predicate → Option Bool) (b : Bool) : List CfgTree → Bool
  | [] => true
  | t :: ts => CfgTree.decided ep b t && CfgTree.allDecided ep b ts
/-- One of the formulas is decided to be `b`. -/
def CfgTree.anyDecided (ep : Predicate → Option Bool) (b : Bool) : List CfgTree → Bool
  | [] => false
  | t :: ts => CfgTree.decided ep b t || CfgTree.anyDecided ep b ts
end

/-- The text is a `cfg` expression: one formula of the usual grammar, in which `not` has one operand. -/
def IsCfg (s : Str) (t : CfgTree) : Prop :=
  ∃ inner ts, CfgInner s inner ∧ ReadsAs inner ts ∧ Item false t ts ∧ t.AllFns NotUnary

/-- Two commas in a row. -/
def DoubleComma : List Token → Bool
  | .comma :: .comma :: _ => true
  | _ :: ts => DoubleComma ts
  | [] => false

/-- `not` has one operand, where functions are counted modulo 256. -/
def NotUnaryMod (f : FnName) (args : List CfgTree) : Prop :=
  f = .not → args.countP (fun t => !t.isFn) + args.countP CfgTree.isFn % 256 = 1

/-- The text consists of the formulas `trees`, at most one of which is a bare predicate, separated by one or more commas. -/
def IsCfgList (s : Str) (trees : List CfgTree) : Prop :=
  ∃ inner ts e, CfgInner s inner ∧ ReadsAs inner ts ∧ Body true trees e ts ∧ trees ≠ [] ∧ trees.countP (fun t => !t.isFn) ≤ 1

/-- `BeginsWith s ts`: the first tokens of the text `s` are `ts`, whatever follows them. -/
inductive BeginsWith : Str → List Token → Prop where
  | nil (s : Str) : BeginsWith s []
  | cons (w : Str) (t : Token) (rest : Str) (ts : List Token) : (∀ c ∈ w, isWhitespace c = true) → t.WF →
      (t.IsWord → ∀ c, rest.head? = some c → ¬ IdentRest c) → BeginsWith rest ts → BeginsWith (w ++ t.text ++ rest) (t :: ts)

/-- What is asked of the operands of a finished function: `not` has one, and at most 255 are functions. -/
def Finished (f : FnName) (args : List CfgTree) : Prop := NotUnaryMod f args ∧ Narrow f args

/-- `Unfinished depth args ts`: the tokens `ts` end at a place where a formula may begin, inside `depth` functions.  `args` are the
formulas read at that place, the operands of the innermost of these functions.  Around it fewer than 255 functions have been read
among the operands of each function. -/
inductive Unfinished : Nat → List CfgTree → List Token → Prop where
  | outside (args : List CfgTree) (e : BodyEnd) (p : List Token) : Body true args e p → e ≠ .item →
      CfgTree.AllFnsList Finished args → Unfinished 0 args p
  | inside (depth : Nat) (outer : List CfgTree) (q : List Token) (f : FnName) (args : List CfgTree) (e : BodyEnd) (p : List Token) :
      Unfinished depth outer q → (depth ≠ 0 → outer.countP CfgTree.isFn < 255) → Body true args e p → e ≠ .item →
      CfgTree.AllFnsList Finished args → Unfinished (depth + 1) args (q ++ [f.token, .openParen] ++ p)

/-! ### The cfg set printed by rustc -/

/-- `s` is `l` without the white space at both ends. -/
def Strips (l s : Str) : Prop :=
  ∃ a b, l = a ++ s ++ b ∧ (∀ c ∈ a, isWhitespace c = true) ∧ (∀ c ∈ b, isWhitespace c = true) ∧ Trimmed s

/-- `l` is a line that prints the flag `f`. -/
def PrintsFlag (l f : Str) : Prop := Strips l f ∧ f ≠ [] ∧ '=' ∉ f

/-- `l` is a line that prints the pair `k="v"`. -/
def PrintsPair (l k v : Str) : Prop := Strips l (k ++ '=' :: '"' :: (v ++ ['"'])) ∧ '=' ∉ k

/-- The text of lines that end with line feeds, and a last line without. -/
def printed (ls : List Str) (last : Str) : Str := ls.flatMap (fun l => l ++ ['\n']) ++ last

end CC
