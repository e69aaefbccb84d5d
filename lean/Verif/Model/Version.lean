import Verif.Model.Process
/-
Versions and the host triple in the output of `-vV` (src/resolve.rs 558-635).
-/
namespace CC

/-- Models `RustcVersion` of src/resolve.rs 558-565. -/
structure RustcVersion where
  major : Nat
  minor : Nat
  patch : Option Nat
  nightly : Bool
deriving DecidableEq, Repr

/-- Models `CargoVersion` of src/resolve.rs 566-573. -/
structure CargoVersion where
  major : Nat
  minor : Nat
  patch : Nat
  nightly : Bool
deriving DecidableEq, Repr

/-- Models `RustcVersion::major_minor` of src/resolve.rs 575-582. -/
def RustcVersion.majorMinor (v : RustcVersion) : Nat × Nat := (v.major, v.minor)

/-- Models `CargoVersion::major_minor` of src/resolve.rs 583-590. -/
def CargoVersion.majorMinor (v : CargoVersion) : Nat × Nat := (v.major, v.minor)

/-- `a < b` for pairs: `PartialOrd` of tuples compares the first components, and the second ones if these are equal. -/
def pairLt (a b : Nat × Nat) : Bool := if a.1 = b.1 then decide (a.2 < b.2) else decide (a.1 < b.1)

/-- `lines.find_map(|line| line.strip_prefix(p))`. -/
def findLine (p : Str) : List Str → Option Str
  | [] => none
  | l :: ls =>
    match stripPrefix p l with
    | some r => some r
    | none => findLine p ls

/-- The part of `parse_version` after the line was found, src/resolve.rs 603-612. -/
def parseRelease (release : Str) : Option (Nat × Nat × Option Nat × Bool) :=
  let (version, channel) := (splitOnce '-' release).getD (release, [])
  let nightly : Bool := channel = "nightly".toList ∨ channel = "dev".toList
  match splitN 3 '.' version with
  | [a, b] =>
    (parseU32 a).bind fun major => (parseU32 b).bind fun minor => some (major, minor, none, nightly)
  | [a, b, c] =>
    (parseU32 a).bind fun major => (parseU32 b).bind fun minor => (parseU32 c).bind fun patch =>
      some (major, minor, some patch, nightly)
  | _ => none

/-- Models `parse_version` of src/resolve.rs 601-613. -/
def parseVersion (out : Str) : Option (Nat × Nat × Option Nat × Bool) :=
  (findLine "release: ".toList (lines out)).bind parseRelease

/-- The error of src/resolve.rs 617, 623 and 632. -/
def Err.unexpectedVersion (c : Cmd) (out : Str) : Err := .other "unexpected version output from {}: {}".toList [c.display, out]

/-- Models `rustc_version` of src/resolve.rs 615-619. -/
def rustcVersionOf (c : Cmd) (out : Str) : Res RustcVersion :=
  Res.ofOption (.unexpectedVersion c out) ((parseVersion out).map fun (a, b, p, n) => ⟨a, b, p, n⟩)

/-- Models `cargo_version` of src/resolve.rs 620-625. -/
def cargoVersionOf (c : Cmd) (out : Str) : Res CargoVersion :=
  Res.ofOption (.unexpectedVersion c out) ((parseVersion out).bind fun (a, b, p, n) => p.map fun p => ⟨a, b, p, n⟩)

/-- Models `host_triple` of src/resolve.rs 628-635. -/
def hostTripleOf (c : Cmd) (out : Str) : Res Str :=
  Res.ofOption (.unexpectedVersion c out) (findLine "host: ".toList (lines out))

example : parseVersion "rustc 1.84.0\nrelease: 1.84.0-nightly\nhost: x".toList = some (1, 84, some 0, true) := by decide +kernel

end CC
