import Verif.Model.Query
/-
Errors as the user sees them: `Display`, `source` and the conversions from and to `io::Error` (src/error.rs).
-/
namespace CC

/-- `format!`: every `{..}` of the template is replaced by the next argument.  The first component tells whether the text is inside
braces.  Simplification: whether an argument is formatted by `{}` or `{:?}` is not part of the template. -/
def fillGo : Bool → Str → List Str → Str
  | _, [], _ => []
  | false, '{' :: cs, a :: as => a ++ fillGo true cs as
  | false, c :: cs, as => c :: fillGo false cs as
  | true, '}' :: cs, as => fillGo false cs as
  | true, _ :: cs, as => fillGo true cs as

/-- `format!(template, args..)`. -/
def fill (template : Str) (args : List Str) : Str := fillGo false template args

/-- How `core::fmt` and `std` show what the library only hands on: the trees behind `{:?}` and the errors of `std` and of
`toml_edit`.  These are parameters. -/
structure Shown where
  dbg : Dbg → Str
  io : Str → Str
  toml : Str → Str
  std : Str → Str
  notUnicode : OsStr → Str

/-- Models `Display for Error` of src/error.rs 56-64, and that of the boxed sources. -/
def Err.display (sh : Shown) : Err → Str
  | .cfgParse e => e.display
  | .other msg args => fill msg args
  | .context msg args dbg _ => fill msg (args ++ dbg.map sh.dbg)
  | .io what => sh.io what
  | .toml what => sh.toml what
  | .notUnicode raw => sh.notUnicode raw
  | .redacted => "environment variable was not valid unicode: [REDACTED]".toList
  | .std what => sh.std what

/-- Models `std::error::Error::source` for `Error` of src/error.rs 66-75, and for the boxed sources.  Simplification: errors of `std`
and of `toml_edit` that the library wraps have no sources of their own. -/
def Err.source : Err → Option Err
  | .context _ _ _ s => s
  | _ => none

/-- `io::ErrorKind`: that of an error reported by the operating system, `InvalidData`, or `Other`. -/
inductive IoKind where
  | os (what : Str)
  | invalidData
  | other
deriving DecidableEq, Repr

/-- An `io::Error`: either one reported by the operating system, or a kind with an error (of this library, a string or a
`ParseError`) inside. -/
inductive IoError where
  | os (what : Str)
  | custom (kind : IoKind) (inner : Err)
deriving Repr

/-- `io::Error::kind`. -/
def IoError.kind : IoError → IoKind
  | .os what => .os what
  | .custom kind _ => kind

/-- `Display for io::Error`: forwards to the error inside. -/
def IoError.display (sh : Shown) : IoError → Str
  | .os what => sh.io what
  | .custom _ e => e.display sh

/-- `source` of `io::Error`: forwards to the error inside. -/
def IoError.source : IoError → Option Err
  | .os _ => none
  | .custom _ e => e.source

/-- The kind chosen from the boxed source by `downcast_ref`, src/error.rs 87-93. -/
def Err.sourceKind : Err → IoKind
  | .io what => .os what
  | .toml _ => .invalidData
  | _ => .other

/-- Models `From<Error> for io::Error` of src/error.rs 78-98.  (`.toml`, `.notUnicode`, `.redacted` and `.std` only occur as
sources.) -/
def Err.toIo : Err → IoError
  | .io what => .os what
  | .context msg args dbg (some src) => .custom src.sourceKind (.context msg args dbg (some src))
  | .context msg args dbg none => .custom .other (.context msg args dbg none)
  | e => .custom .other e

end CC
