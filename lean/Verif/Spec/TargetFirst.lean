import Verif.Spec.QueryCause
/-
Specification of which of the variables of a target an error is about if several are malformed.

Of the model only data types are used.
-/
namespace CC

/-- What can be wrong with a variable of a target: the message and its cause. -/
inductive TargetDefect where
  | notText (name : Str) (bytes : List Nat)
  | blankRunner
deriving DecidableEq, Repr

/-- The message. -/
def TargetDefect.message : TargetDefect → Str
  | .notText n _ => varMessage n
  | .blankRunner => "invalid length 0, expected at least one element".toList

/-- The cause: `std::env::VarError::NotUnicode` with the value, if it is not text. -/
def TargetDefect.cause : TargetDefect → Option Err
  | .notText _ bytes => some (.notUnicode (.invalid bytes))
  | .blankRunner => none

/-- What is wrong with the variable for `what`, if there is something; only the runner must have a word. -/
def targetDefect (look : Str → Option OsStr) (triple : Str) (what : String) : Option TargetDefect :=
  match look (targetEnvName triple what) with
  | none => none
  | some (.invalid bytes) => some (.notText (targetEnvName triple what) bytes)
  | some (.unicode s) => if what = "RUNNER" ∧ wordsIn s = [] then some .blankRunner else none

/-- The variables in the order in which they are looked at. -/
def firstTargetDefect (look : Str → Option OsStr) (triple : Str) : Option TargetDefect :=
  firstSome (["LINKER", "RUNNER", "RUSTFLAGS", "RUSTDOCFLAGS"].map (targetDefect look triple))

end CC
