import Verif.Model.Basic
/-
Unix paths: the part of `std::path` the library uses.

A path is its string.  Simplifications: Unix only (separator `/`, no prefixes); paths are sequences of characters
(the code works on bytes, but only ever looks at `/` and `.`, so the choice of unit is immaterial).
-/
namespace CC

/-- A path, as the string it is made of. -/
abbrev Path := Str

namespace Path

/-- A piece between slashes that contributes no component: empty, or `.` (std `parse_single_component`; a
leading `.` is accounted for by `lead`). -/
def junk (p : Str) : Bool := p == [] || p == ['.']

/-- `std::path::Component` (Unix). -/
inductive Comp where
  | root
  | cur
  | parent
  | normal (s : Str)
deriving DecidableEq, Repr

/-- `Path::is_absolute` (= `has_root` on Unix). -/
def isAbsolute (s : Path) : Bool :=
  match s with
  | '/' :: _ => true
  | _ => false

/-- The pieces that become `Normal` or `ParentDir` components. -/
def kept (s : Path) : List Str := (splitOn '/' s).filter fun p => !junk p

/-- The leading component, if any: `RootDir`, or `CurDir` for a path starting with a `.` piece. -/
def lead (s : Path) : List Comp :=
  if isAbsolute s then [.root]
  else if (splitOn '/' s).head? = some ['.'] then [.cur]
  else []

/-- A kept piece as component. -/
def toComp (p : Str) : Comp := if p = "..".toList then .parent else .normal p

/-- `Path::components`. -/
def components (s : Path) : List Comp := lead s ++ (kept s).map toComp

/-- `impl PartialEq for Path`: comparison of components. -/
def eqv (a b : Path) : Bool := components a == components b

/-- `Path::join` / `PathBuf::push`. -/
def join (d x : Path) : Path :=
  if isAbsolute x then x
  else match d.getLast? with
    | none => x
    | some '/' => d ++ x
    | some _ => d ++ '/' :: x

/-- The string of the leading component. -/
def leadStr (s : Path) : Path :=
  if isAbsolute s then ['/']
  else if (splitOn '/' s).head? = some ['.'] then ['.']
  else []

/-- `Path::parent` = `components().next_back()` then `as_path()`: drops trailing junk, the last component, and
trailing junk again, but never the root / leading `.`; `None` for `/` and the empty path. -/
def parent (s : Path) : Option Path :=
  match (splitOn '/' s).reverse.dropWhile junk with
  | [] => if isAbsolute s then none
          else if (splitOn '/' s).head? = some ['.'] then some []
          else none
  | _ :: r =>
    match r.dropWhile junk with
    | [] => some (leadStr s)
    | q => some (joinWith '/' q.reverse)

/-- `Path::ancestors` with an explicit bound on the number of steps. -/
def ancestorsFuel : Nat → Path → List Path
  | 0, s => [s]
  | n + 1, s => s :: match parent s with
    | none => []
    | some p => ancestorsFuel n p

/-- `Path::ancestors`, collected: the path itself, its parent, and so on.  The bound is never reached
(`ancestors_eq` in Lemmas/Path.lean). -/
def ancestors (s : Path) : List Path := ancestorsFuel ((splitOn '/' s).length + 1) s

/-- `Path::file_name`: the last component if it is `Normal`. -/
def fileName (s : Path) : Option Str :=
  match (kept s).getLast? with
  | none => none
  | some p => if p = "..".toList then none else some p

/-- Split at the last dot: `(before, after)`, `none` without a dot (slice `rsplitn(2, '.')`). -/
def rsplitDot (s : Str) : Option (Str × Str) :=
  (splitOnce '.' s.reverse).map fun (a, b) => (b.reverse, a.reverse)

/-- `Path::file_stem`. -/
def fileStem (s : Path) : Option Str :=
  (fileName s).map fun f =>
    match rsplitDot f with
    | none => f
    | some (before, _) => if before = [] then f else before

/-- `Path::extension`. -/
def extension (s : Path) : Option Str :=
  (fileName s).bind fun f =>
    match rsplitDot f with
    | none => none
    | some (before, after) => if before = [] then none else some after

example : parent "/a//b/./".toList = some "/a".toList := by decide
example : parent "//a".toList = some "/".toList := by decide
example : parent "./a".toList = some ".".toList := by decide
example : parent ".".toList = some [] := by decide
example : parent "/".toList = none := by decide
example : parent [] = none := by decide
example : ancestors "/a/b".toList = ["/a/b".toList, "/a".toList, "/".toList] := by decide
example : ancestors "./a".toList = ["./a".toList, ".".toList, []] := by decide
example : ancestors "a".toList = ["a".toList, []] := by decide
example : components "./a/../b//.".toList = [.cur, .normal "a".toList, .parent, .normal "b".toList] := by
  decide
example : fileStem "x/foo.bar.json".toList = some "foo.bar".toList := by decide
example : extension ".json".toList = none := by decide
example : fileStem "a/..".toList = none := by decide
example : eqv "/a/./b/".toList "/a/b".toList = true := by decide

end Path
end CC
