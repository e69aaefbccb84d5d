import Verif.Model.Lists
import Verif.Model.Path
/-
External processes (src/process.rs).
-/
namespace CC

/-- A command: program and arguments.  (OS strings that are not Unicode are sequences of characters, see `OsStr.path`.) -/
structure Cmd where
  program : Path
  args : List Str
deriving DecidableEq, Repr

/-- Models `Display for ProcessBuilder` of src/process.rs 78-97, not alternate.  Simplification: the lossy conversion of what is not
Unicode is the identity. -/
def Cmd.display (c : Cmd) : Str := '`' :: (c.program ++ (c.args.map fun a => ' ' :: a).flatten ++ ['`'])

/-- What the operating system reports for a command: it could not be started; it was successful, with standard output either valid
UTF-8 or not; or it ran to an exit status (as a text) that is not success, with standard output and standard error.  (Standard error
is not looked at on success.) -/
inductive ProcOut where
  | notStarted (what : Str)
  | succeeded (stdout : OsStr)
  | failed (status : Str) (stdout stderr : OsStr)
deriving DecidableEq, Repr

/-- The parts of the message for standard output and standard error in `process_error`, src/process.rs 114-127. -/
def outputPart (header : Str) : OsStr → Str
  | .unicode s => if !(trimStart s).isEmpty then header ++ s else []
  | .invalid _ => []

/-- Models `ProcessBuilder::run_with_output` of src/process.rs 50-63 with `process_error` of 103-131. -/
def runWithOutput (c : Cmd) : ProcOut → Res OsStr
  | .notStarted what => .err (.context "could not execute process {} (never executed)".toList [c.display] [] (some (.io what)))
  | .succeeded stdout => .ok stdout
  | .failed status stdout stderr =>
    .err (.other "process didn't exit successfully: {} ({}){}{}".toList
      [c.display, status, outputPart "\n--- stdout\n".toList stdout, outputPart "\n--- stderr\n".toList stderr])

/-- Models the loop of `ProcessBuilder::read` of src/process.rs 70-72: pop while the text ends in a line feed or
carriage return (on the reversed text). -/
def popLineEnds : Str → Str
  | '\n' :: cs => popLineEnds cs
  | '\r' :: cs => popLineEnds cs
  | cs => cs

/-- `String::from_utf8`.  Simplification: the text of its error does not name the byte position. -/
def fromUtf8 : OsStr → Res Str
  | .unicode s => .ok s
  | .invalid _ => .err (.std "invalid utf-8 sequence".toList)

/-- Models `ProcessBuilder::read` of src/process.rs 67-74. -/
def procRead (c : Cmd) (o : ProcOut) : Res Str := do
  let stdout ← runWithOutput c o
  let output ← (fromUtf8 stdout).withContext "failed to parse output from {}".toList [c.display] []
  .ok (popLineEnds output.reverse).reverse

example : (Cmd.mk "rustc".toList ["-vV".toList]).display = "`rustc -vV`".toList := by decide +kernel

end CC
