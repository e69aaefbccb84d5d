import Verif.Spec.Cause
import Verif.Spec.Tools
import Verif.Spec.TargetDocs
import Verif.Spec.CfgExpr
/-
Specification of what the error of a failed query says: the command that failed, or what is wrong with the target.

Of the model only data types, the cfg parser and the query for the compiler are used.
-/
namespace CC

/-- The command in a message. -/
def Cmd.shown (c : Cmd) : Str := quoted (List.intercalate [' '] c.line)

/-- The output in a message: only if it is text and not blank. -/
def OutputShown (title : Str) (o : OsStr) (shown : Str) : Prop :=
  (∃ s, o = .unicode s ∧ ¬ Blank s ∧ shown = "\n--- ".toList ++ title ++ "\n".toList ++ s) ∨
  ((∃ s, o = .unicode s ∧ Blank s) ∨ ∃ b, o = .invalid b) ∧ shown = []

/-- The message (with its cause) for a command that was not run successfully. -/
inductive CommandBlamed (c : Cmd) : ProcOut → Str → Option Err → Prop where
  | notStarted (what : Str) :
      CommandBlamed c (.notStarted what) ("could not execute process ".toList ++ c.shown ++ " (never executed)".toList) (some (.io what))
  | failed (status : Str) (stdout stderr : OsStr) (out err : Str) : OutputShown "stdout".toList stdout out →
      OutputShown "stderr".toList stderr err →
      CommandBlamed c (.failed status stdout stderr)
        ("process didn't exit successfully: ".toList ++ c.shown ++ " (".toList ++ status ++ ")".toList ++ out ++ err) none
  | notText (bytes : List Nat) (src : Err) : ¬ src.Foreign →
      CommandBlamed c (.succeeded (.invalid bytes)) ("failed to parse output from ".toList ++ c.shown) (some src)

/-- The same for a command that is asked for a version or host with `-vV`: it may also print something else. -/
inductive VersionBlamed (c : Cmd) (o : ProcOut) : Str → Option Err → Prop where
  | command (msg : Str) (src : Option Err) : CommandBlamed c o msg src → VersionBlamed c o msg src
  | output (out : Str) : Printed o out →
      VersionBlamed c o ("unexpected version output from ".toList ++ c.shown ++ ": ".toList ++ out) none

/-- The compiler was asked for the cfg set with the command `cmd`, which was the last thing done, and answered `o`. -/
def CfgAsked (c : EConfig) (t : TargetTriple) (w : World) (s s' : Cells) (cmd : Cmd) (o : ProcOut) : Prop :=
  ∃ r s1, c.rustc w s = (.ok r, s1) ∧ cmd.line = r.line ++ ["--print".toList, "cfg".toList, "--target".toList, t.cliTarget] ∧
    o = w.run s1.clock cmd ∧ s'.trace = s.trace ++ [cmd]

/-- The message (with its cause) about a target: `asked` tells which command was run and what it answered. -/
inductive TargetBlamed (look : Str → Option OsStr) (docs : List (Path × Toml)) (checks : Bool) (t : TargetTriple)
    (asked : Cmd → ProcOut → Prop) : Str → Option Err → Prop where
  | triple : isCfgKey t.triple = true →
      TargetBlamed look docs checks t asked ('\'' :: (t.triple ++ "' is not valid target triple".toList)) none
  | variable (what : String) (bytes : List Nat) (src : Err) : what ∈ ["LINKER", "RUNNER", "RUSTFLAGS", "RUSTDOCFLAGS"] →
      look (targetEnvName t.triple what) = some (.invalid bytes) → ¬ src.Foreign →
      TargetBlamed look docs checks t asked (varMessage (targetEnvName t.triple what)) (some src)
  /-- The variable is not named. -/
  | runner (text : Str) : look (targetEnvName t.triple "RUNNER") = some (.unicode text) → Blank text →
      TargetBlamed look docs checks t asked "invalid length 0, expected at least one element".toList none
  /-- The text of the expression is followed by an explanation. -/
  | key (k inner rest : Str) : isCfgKey k = true → HasTable docs k → (∀ e, Expression.parse checks k ≠ .ok e) → CfgInner k inner →
      TargetBlamed look docs checks t asked (inner ++ '\n' :: rest) none
  | compiler (c : Cmd) (o : ProcOut) (msg : Str) (src : Option Err) : asked c o → CommandBlamed c o msg src →
      TargetBlamed look docs checks t asked msg src

end CC
