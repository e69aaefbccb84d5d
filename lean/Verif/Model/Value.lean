import Verif.Model.Path
/-
Values with the location they were defined at (src/value.rs).
-/
namespace CC

/-- Models `Definition` of src/value.rs 55-65.  Environment keys and paths are strings. -/
inductive Definition where
  | path (p : Path)
  | environment (key : Str)
  | cli (p : Option Path)
deriving DecidableEq, Repr

/-- Models `Value<T>` of src/value.rs 16-26. -/
structure Val (α : Type) where
  val : α
  defn : Option Definition
deriving DecidableEq, Repr

/-- The base directory computed by `p.parent().unwrap().parent().unwrap()`; `none` is the panic of
`unwrap` (src/value.rs 74). -/
def grandparent (p : Path) : Option Path := (Path.parent p).bind Path.parent

/-- Models `Definition::root` of src/value.rs 72-77; `none` is the panic. -/
def Definition.root (d : Definition) (cwd : Path) : Option Path :=
  match d with
  | .path p => grandparent p
  | .cli (some p) => grandparent p
  | .environment _ => some cwd
  | .cli none => some cwd

/-- Models `Definition::root_opt` of src/value.rs 78-85; the outer `none` is the panic. -/
def Definition.rootOpt (d : Definition) (cwd : Option Path) : Option (Option Path) :=
  match d with
  | .path p => (grandparent p).map some
  | .cli (some p) => (grandparent p).map some
  | .environment _ => some cwd
  | .cli none => some cwd

/-- Models `impl Display for Definition` of src/value.rs 99-107.  Simplification: a path is displayed as its characters (`Path::display`
replaces what is not Unicode). -/
def Definition.display : Definition → Str
  | .path p => p
  | .cli (some p) => p
  | .environment key => "environment variable `".toList ++ key ++ "`".toList
  | .cli none => "--config cli option".toList

/-- Models `impl PartialEq for Definition` of src/value.rs 109-117: comparison of discriminants. -/
def Definition.eq : Definition → Definition → Bool
  | .path _, .path _ => true
  | .environment _, .environment _ => true
  | .cli _, .cli _ => true
  | _, _ => false

/-- Models the derived `PartialEq` of `Value<T>` (src/value.rs 17) given the one of `T`: fieldwise. -/
def Val.eq {α : Type} (eqT : α → α → Bool) (a b : Val α) : Bool :=
  eqT a.val b.val && (match a.defn, b.defn with
    | some x, some y => x.eq y
    | none, none => true
    | _, _ => false)

/-- A panic-or-value as an outcome. -/
def Res.unwrap {α : Type} : Option α → Res α
  | some a => .ok a
  | none => .panic

/-- Models `Value::<String>::resolve_as_program_path` of src/value.rs 33-43. -/
def Val.resolveAsProgramPath (v : Val Str) (cwd : Path) : Res Path :=
  match v.defn with
  | some d =>
    if !Path.isAbsolute v.val && (v.val.contains '/' || v.val.contains '\\') then
      (Res.unwrap (d.root cwd)) >>= fun r => .ok (Path.join r v.val)
    else .ok v.val
  | none => .ok v.val

/-- Models `Value::<String>::resolve_as_path` of src/value.rs 44-51. -/
def Val.resolveAsPath (v : Val Str) (cwd : Path) : Res Path :=
  match v.defn with
  | some d =>
    if !Path.isAbsolute v.val then
      (Res.unwrap (d.root cwd)) >>= fun r => .ok (Path.join r v.val)
    else .ok v.val
  | none => .ok v.val

/-- Models `SetPath for Value<T>` of src/value.rs 143-147. -/
def Val.setPath {α : Type} (p : Path) (v : Val α) : Val α := { v with defn := some (.path p) }

end CC
