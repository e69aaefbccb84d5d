import Verif.Model.Query
import Verif.Spec.Version
import Verif.Spec.Env
import Verif.Spec.Resolve
import Verif.Spec.Target
/-
Specification vocabulary for running `rustc` and `cargo`.
-/
namespace CC

/-- The process ran successfully and printed `out`, up to line ends at the end. -/
def Printed (o : ProcOut) (out : Str) : Prop :=
  ∃ b, o = .succeeded (.unicode (out ++ b)) ∧ (∀ c ∈ b, c = '\n' ∨ c = '\r') ∧
    ∀ c, out.getLast? = some c → ¬ (c = '\n' ∨ c = '\r')

/-- Cargo's output reports a version (with a patch number) and the host `h`. -/
def CargoTells (o : ProcOut) (h : Str) : Prop :=
  ∃ out rest major minor patch nightly, Printed o out ∧ FirstLine out "release: ".toList rest ∧
    IsRelease rest major minor (some patch) nightly ∧ FirstLine out "host: ".toList h

/-- The compiler's output reports a version and the host `h`. -/
def RustcTells (o : ProcOut) (h : Str) : Prop :=
  ∃ out rest major minor patch nightly, Printed o out ∧ FirstLine out "release: ".toList rest ∧
    IsRelease rest major minor patch nightly ∧ FirstLine out "host: ".toList h

/-- The compiler's output reports the version `v`. -/
def RustcReports (o : ProcOut) (v : RustcVersion) : Prop :=
  ∃ out rest, Printed o out ∧ FirstLine out "release: ".toList rest ∧ IsRelease rest v.major v.minor v.patch v.nightly

/-- Cargo's output reports the version `v`. -/
def CargoReports (o : ProcOut) (v : CargoVersion) : Prop :=
  ∃ out rest, Printed o out ∧ FirstLine out "release: ".toList rest ∧ IsRelease rest v.major v.minor (some v.patch) v.nightly

/-- The host triple, given the output of cargo and that of the compiler. -/
inductive HostRule (cargo rustc : ProcOut) : Res Str → Prop where
  | cargo (h : Str) : CargoTells cargo h → HostRule cargo rustc (.ok h)
  | rustc (h : Str) : (∀ h', ¬ CargoTells cargo h') → RustcTells rustc h → HostRule cargo rustc (.ok h)
  | neither (e : Err) : (∀ h', ¬ CargoTells cargo h') → (∀ h', ¬ RustcTells rustc h') → HostRule cargo rustc (.err e)

/-- The path of the compiler: `build.rustc`, or the one next to cargo if it exists, or `rustc`. -/
inductive IsRustc (c : EConfig) (exist : Path → Bool) : Path → Prop where
  | given (p : Path) : c.build.rustc = some p → IsRustc c exist p
  | sibling : c.build.rustc = none → exist (Path.join (Path.pop c.cx.cargo.path) "rustc".toList) = true →
      IsRustc c exist (Path.join (Path.pop c.cx.cargo.path) "rustc".toList)
  | plain : c.build.rustc = none → exist (Path.join (Path.pop c.cx.cargo.path) "rustc".toList) = false →
      IsRustc c exist "rustc".toList

/-- The components of the directory that contains a file, given those of the file.  There is nothing above the root directory. -/
def upFrom (l : List Path.Comp) : List Path.Comp := if l.getLast? = some .root then l else l.dropLast

/-- Program and arguments of a command line. -/
def EPathAndArgs.line (x : EPathAndArgs) : List Str := x.path :: x.args
/-- Program and arguments of a command. -/
def Cmd.line (x : Cmd) : List Str := x.program :: x.args

/-- `cargo -vV`. -/
def cargoVV (c : EConfig) : Cmd := ⟨c.cx.cargo.path, ["-vV".toList]⟩

/-- `[wrapper] rustc -vV`. -/
def IsRustcVV (c : EConfig) (exist : Path → Bool) (x : Cmd) : Prop :=
  ∃ p, IsRustc c exist p ∧ x.line = c.build.rustcWrapper.toList ++ [p, "-vV".toList]

/-- The queries for the host triple and the versions. -/
def Query.IsVersion (q : Query) : Prop := q = .hostTriple ∨ q = .rustcVersion ∨ q = .cargoVersion

/-- The target that an entry of `build.target` stands for: a triple, or a target-spec file relative to where it was written. -/
inductive ConfigTarget (cwd : Path) : Val Str → TargetTriple → Prop where
  | triple (s : Str) (d : Option Definition) : ¬ NamesSpecFile s → ConfigTarget cwd ⟨s, d⟩ ⟨s, none⟩
  | file (s : Str) (d : Definition) (f stem base : Str) : NamesSpecFile s → EndsInFile s f → IsStem f stem → BaseDir cwd d base →
      ConfigTarget cwd ⟨s, some d⟩ ⟨stem, some (Path.join base s)⟩
  | unlocated (s f stem : Str) : NamesSpecFile s → EndsInFile s f → IsStem f stem → ConfigTarget cwd ⟨s, none⟩ ⟨stem, some s⟩

end CC
