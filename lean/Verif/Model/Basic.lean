/-
Strings, results and errors.
-/
namespace CC

/-- A Rust `str` / `String`: its sequence of Unicode scalar values. -/
abbrev Str := List Char

/-- An `OsString` (Unix): either valid UTF-8, or some other byte sequence which `into_string` / `to_str`
reject.  The bytes are kept because an error value may carry them (src/error.rs 42-47). -/
inductive OsStr where
  | unicode (s : Str)
  | invalid (bytes : List Nat)
deriving DecidableEq, Repr

/-- `OsStr::to_str`, `OsString::into_string(..).ok()`. -/
def OsStr.toStr? : OsStr → Option Str
  | .unicode s => some s
  | .invalid _ => none

/-- `core::ops::Range<usize>`, in bytes. -/
structure Span where
  start : Nat
  stop : Nat
deriving DecidableEq, Repr

/-- Models `Reason` of src/cfg_expr/error.rs 19-35. -/
inductive Reason where
  | invalidNot (n : Nat)
  | unclosedParens
  | unopenedParens
  | unclosedQuotes
  | empty
  | unexpected (expected : List Str)
  | multipleRootPredicates
deriving DecidableEq, Repr

/-- Models `ParseError` of src/cfg_expr/error.rs 6-15. -/
structure ParseError where
  original : Str
  span : Span
  reason : Reason
deriving DecidableEq, Repr

/-- The tree behind a `{:?}` rendering: the structure handed to the formatter by `derive(Debug)` or
`debug_struct`.  The rendering of a tree to text (core::fmt) is not modelled; it is a function of the
tree. -/
inductive Dbg where
  | str (s : Str)
  | atom (s : Str)
  | osstr (s : OsStr)
  | node (name : Str) (children : List (Str × Dbg))
deriving Repr

/-- Models `Error` / `ErrorKind` of src/error.rs 20-35 together with the kinds of boxed sources that the
library attaches.  Simplification: message texts are kept as the fixed part and its arguments. -/
inductive Err where
  /-- `ErrorKind::CfgExprParse` -/
  | cfgParse (e : ParseError)
  /-- `ErrorKind::Other(msg)` with its formatted arguments -/
  | other (msg : Str) (args : List Str)
  /-- `ErrorKind::WithContext(msg, source)`; `args` are the arguments formatted by `{}` and `dbg` those
  formatted by `{:?}` -/
  | context (msg : Str) (args : List Str) (dbg : List Dbg) (source : Option Err)
  /-- a boxed `io::Error` -/
  | io (what : Str)
  /-- a boxed `toml_edit::de::Error` -/
  | toml (what : Str)
  /-- a boxed `std::env::VarError::NotUnicode(bytes)` -/
  | notUnicode (raw : OsStr)
  /-- the boxed string "environment variable was not valid unicode: [REDACTED]" -/
  | redacted
  /-- a boxed `ParseIntError`, `ParseBoolError` or `FromUtf8Error` -/
  | std (what : Str)
deriving Repr

/-- `Result<a, Error>`, with panics as a separate visible outcome. -/
inductive Res (α : Type) where
  | ok (a : α)
  | err (e : Err)
  | panic
deriving Repr

namespace Res

@[inline] def bind {α β : Type} : Res α → (α → Res β) → Res β
  | .ok a, f => f a
  | .err e, _ => .err e
  | .panic, _ => .panic

instance : Monad Res where
  pure := .ok
  bind := Res.bind

@[simp] theorem pure_eq {α : Type} (a : α) : (pure a : Res α) = .ok a := rfl
@[simp] theorem ok_bind {α β : Type} (a : α) (f : α → Res β) : (Res.ok a >>= f) = f a := rfl
@[simp] theorem err_bind {α β : Type} (e : Err) (f : α → Res β) : (Res.err e >>= f) = .err e := rfl
@[simp] theorem panic_bind {α β : Type} (f : α → Res β) : (Res.panic >>= f) = .panic := rfl

/-- The call returned `Ok(_)`. -/
def isOk {α : Type} : Res α → Bool
  | .ok _ => true
  | _ => false

/-- The call returned `Err(_)`. -/
def isErr {α : Type} : Res α → Bool
  | .err _ => true
  | _ => false

/-- The value, if the call returned `Ok(_)`. -/
def toOption {α : Type} : Res α → Option α
  | .ok a => some a
  | _ => none

/-- The call panicked. -/
def isPanic {α : Type} : Res α → Bool
  | .panic => true
  | _ => false

/-- Equality of outcomes, not distinguishing error values. -/
def Same {α : Type} : Res α → Res α → Prop
  | .ok a, .ok b => a = b
  | .err _, .err _ => True
  | .panic, .panic => True
  | _, _ => False

/-- `Context::with_context` of src/error.rs 152-161 on `Result`. -/
def withContext {α : Type} (r : Res α) (msg : Str) (args : List Str) (dbg : List Dbg) : Res α :=
  match r with
  | .ok a => .ok a
  | .err e => .err (.context msg args dbg (some e))
  | .panic => .panic

/-- `Context::context` of src/error.rs 164-172 on `Option`, and `Option::ok_or_else`. -/
def ofOption {α : Type} (e : Err) : Option α → Res α
  | some a => .ok a
  | none => .err e

end Res

/-! ### `str` methods used by the library (Rust standard library) -/

/-- `char::is_whitespace`: the 25 characters with the Unicode property White_Space. -/
def isWhitespace (c : Char) : Bool :=
  let n := c.toNat
  (9 ≤ n && n ≤ 13) || n == 0x20 || n == 0x85 || n == 0xA0 || n == 0x1680 ||
  (0x2000 ≤ n && n ≤ 0x200A) || n == 0x2028 || n == 0x2029 || n == 0x202F || n == 0x205F ||
  n == 0x3000

/-- `str::split(sep)` for a `char` separator, collected: always at least one piece. -/
def splitOn (sep : Char) : Str → List Str
  | [] => [[]]
  | c :: cs =>
    if c = sep then [] :: splitOn sep cs
    else match splitOn sep cs with
      | [] => [[c]]
      | p :: ps => (c :: p) :: ps

/-- `[..].join(sep)`. -/
def joinWith (sep : Char) : List Str → Str
  | [] => []
  | [p] => p
  | p :: q :: ps => p ++ sep :: joinWith sep (q :: ps)

/-- `str::trim_start`. -/
def trimStart (s : Str) : Str := s.dropWhile isWhitespace

/-- `str::trim_end`. -/
def trimEnd (s : Str) : Str := (s.reverse.dropWhile isWhitespace).reverse

/-- `str::trim`. -/
def trim (s : Str) : Str := trimEnd (trimStart s)

/-- `str::strip_prefix(&str)`. -/
def stripPrefix : Str → Str → Option Str
  | [], s => some s
  | _ :: _, [] => none
  | p :: ps, c :: cs => if p = c then stripPrefix ps cs else none

/-- `str::strip_suffix(&str)`. -/
def stripSuffix (suf s : Str) : Option Str :=
  (stripPrefix suf.reverse s.reverse).map List.reverse

/-- `str::starts_with(&str)`. -/
def startsWith (p s : Str) : Bool := (stripPrefix p s).isSome

/-- `str::ends_with(&str)`. -/
def endsWith (suf s : Str) : Bool := (stripSuffix suf s).isSome

/-- `str::split_once(char)`: split at the first occurrence. -/
def splitOnce (sep : Char) : Str → Option (Str × Str)
  | [] => none
  | c :: cs =>
    if c = sep then some ([], cs)
    else (splitOnce sep cs).map fun (a, b) => (c :: a, b)

/-- `str::splitn(n, char)`, collected: at most `n` pieces, the last one unsplit. -/
def splitN : Nat → Char → Str → List Str
  | 0, _, _ => []
  | 1, _, s => [s]
  | n + 2, sep, s =>
    match splitOnce sep s with
    | none => [s]
    | some (a, b) => a :: splitN (n + 1) sep b

/-- `str::lines` without the carriage-return rule: pieces of `split_inclusive('\n')` with the line feed
removed and whether there was one. -/
def rawLines : Str → List (Str × Bool)
  | [] => []
  | c :: cs =>
    if c = '\n' then ([], true) :: rawLines cs
    else match rawLines cs with
      | [] => [([c], false)]
      | (l, t) :: ls => (c :: l, t) :: ls

/-- The carriage-return rule of `str::lines`: a `\r` directly before the line feed is removed too. -/
def chompCr (l : Str × Bool) : Str :=
  if l.2 then
    match l.1.reverse with
    | '\r' :: r => r.reverse
    | _ => l.1
  else l.1

/-- `str::lines`, collected. -/
def lines (s : Str) : List Str := (rawLines s).map chompCr

/-- Value of an ASCII digit. -/
def digitVal (c : Char) : Option Nat :=
  if 48 ≤ c.toNat ∧ c.toNat ≤ 57 then some (c.toNat - 48) else none

/-- Decimal digits to a number, `none` on any other character. -/
def digitsVal : Nat → Str → Option Nat
  | acc, [] => some acc
  | acc, c :: cs => match digitVal c with
    | some d => digitsVal (acc * 10 + d) cs
    | none => none

/-- The optional sign accepted by the integer parsers of std. -/
def dropPlus : Str → Str
  | '+' :: r => r
  | s => s

/-- `<u32 as FromStr>::from_str(s).ok()`: an optional `+`, at least one digit, value below 2^32.
(Checked multiplication/addition per digit in std is equivalent to a range check of the exact value.) -/
def parseU32 (s : Str) : Option Nat :=
  let ds := dropPlus s
  match ds with
  | [] => none
  | _ => match digitsVal 0 ds with
    | some n => if n < 2 ^ 32 then some n else none
    | none => none

/-- `<i32 as FromStr>::from_str(s).ok()`: an optional sign, at least one digit, value in range. -/
def parseI32 (s : Str) : Option Int :=
  match s with
  | '-' :: ds =>
    match ds with
    | [] => none
    | _ => match digitsVal 0 ds with
      | some n => if n ≤ 2 ^ 31 then some (-(n : Int)) else none
      | none => none
  | _ =>
    let ds := dropPlus s
    match ds with
    | [] => none
    | _ => match digitsVal 0 ds with
      | some n => if n < 2 ^ 31 then some (n : Int) else none
      | none => none

/-- `<bool as FromStr>::from_str(s).ok()`. -/
def parseBool (s : Str) : Option Bool :=
  if s = "true".toList then some true
  else if s = "false".toList then some false
  else none

/-- Number of bytes of the UTF-8 encoding: `str::len`. -/
def utf8Len : Str → Nat
  | [] => 0
  | c :: cs => c.utf8Size + utf8Len cs

/-- `&s[n..]` with a byte index: `none` is the panic "not a char boundary / out of bounds". -/
def sliceFrom : Str → Nat → Option Str
  | s, 0 => some s
  | [], _ + 1 => none
  | c :: cs, n + 1 => if c.utf8Size ≤ n + 1 then sliceFrom cs (n + 1 - c.utf8Size) else none

/-- `&s[..n]` with a byte index: `none` is the panic. -/
def sliceTo : Str → Nat → Option Str
  | _, 0 => some []
  | [], _ + 1 => none
  | c :: cs, n + 1 =>
    if c.utf8Size ≤ n + 1 then (sliceTo cs (n + 1 - c.utf8Size)).map (c :: ·) else none

/-- `&s[a..b]` with byte indices: `none` is the panic (also for `a > b`). -/
def slice (s : Str) (a b : Nat) : Option Str :=
  if a ≤ b then (sliceFrom s a).bind fun t => sliceTo t (b - a) else none

example : splitOn ' ' "a  b".toList = ["a".toList, [], "b".toList] := by decide
example : lines "a\r\n\nb\r".toList = ["a".toList, [], "b\r".toList] := by decide
example : trim "\t a b\n".toList = "a b".toList := by decide
example : splitN 3 '.' "1.2.3.4".toList = ["1".toList, "2".toList, "3.4".toList] := by decide
example : parseU32 "+42".toList = some 42 := by decide
example : parseU32 "4294967296".toList = none := by decide
example : parseI32 "-2147483648".toList = some (-2147483648) := by decide
example : slice "aé(".toList 1 3 = some "é".toList := by decide
example : slice "aé(".toList 2 3 = none := by decide
example : stripSuffix "_INDEX".toList "A_INDEX".toList = some "A".toList := by decide

end CC
