import Verif.Model.Value
import Verif.Model.BMap
/-
Target triples (src/resolve.rs 386-556).

Simplification: paths are strings of characters, so `to_string_lossy` is the identity on them.
-/
namespace CC

/-- Models `TargetTripleRef` / `TargetTriple` of src/resolve.rs 386-392.  Borrowed and owned strings are not distinguished, so
`into_owned` (476-481) and `From<&TargetTripleRef>` (517-524) are the identity. -/
structure TargetTriple where
  triple : Str
  specPath : Option Path
deriving DecidableEq, Repr

/-- Models `TargetTripleRef::cli_target` of src/resolve.rs 509-514 and `cli_target_string` 489-508. -/
def TargetTriple.cliTarget (t : TargetTriple) : Str :=
  match t.specPath with
  | some p => p
  | none => t.triple

/-- Models `PartialEq for TargetTripleRef` of src/resolve.rs 394-398. -/
def TargetTriple.beq (a b : TargetTriple) : Bool := a.cliTarget == b.cliTarget

/-- Models `Ord for TargetTripleRef` of src/resolve.rs 405-409 (and `PartialOrd` 400-404): bytewise order of the OS strings. -/
def TargetTriple.cmp (a b : TargetTriple) : Ordering :=
  if strLt a.cliTarget b.cliTarget then .lt
  else if a.cliTarget == b.cliTarget then .eq
  else .gt

/-- Models `Hash for TargetTripleRef` of src/resolve.rs 410-414, for the hasher `hash` of OS strings. -/
def TargetTriple.hashWith {H : Type} (hash : Str → H) (t : TargetTriple) : H := hash t.cliTarget

/-- Models `is_spec_path` of src/resolve.rs 428-432. -/
def isSpecPath (s : Str) : Bool :=
  Path.extension s == some "json".toList || s.contains '/' || s.contains '\\'

/-- Models `resolve_spec_path` of src/resolve.rs 433-444; the outer `none` is the panic of `root_opt`. -/
def resolveSpecPath (s : Str) (d : Option Definition) (cwd : Option Path) : Option (Option Path) :=
  match d with
  | some d =>
    match d.rootOpt cwd with
    | none => none
    | some (some root) => some (some (Path.join root s))
    | some none => some none
  | none => some none

/-- Models `TargetTripleRef::new` of src/resolve.rs 447-474. -/
def TargetTriple.new (s : Str) (d : Option Definition) (cwd : Option Path) : Res TargetTriple :=
  if isSpecPath s then
    (Res.unwrap (Path.fileStem s)) >>= fun triple =>
      (Res.unwrap (resolveSpecPath s d cwd)) >>= fun p =>
        match p with
        | some v => .ok { triple := triple, specPath := some v }
        | none => .ok { triple := triple, specPath := some s }
  else .ok { triple := s, specPath := none }

/-- Models `From<String>`, `From<&String>` and `From<&str>` for `TargetTripleRef` of src/resolve.rs 525-539, and its
`Deserialize` 549-556 given the string. -/
def TargetTriple.ofStr (s : Str) : Res TargetTriple := TargetTriple.new s none none

/-- Models `Serialize for TargetTripleRef` of src/resolve.rs 541-548: the string. -/
def TargetTriple.serialize (t : TargetTriple) : Str := t.cliTarget

end CC
