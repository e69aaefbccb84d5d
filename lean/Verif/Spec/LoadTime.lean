import Verif.Model.LoadTime
import Verif.Spec.Walk
/-
Specification of the accesses of a load to a file system that may change.
-/
namespace CC

/-- The answers in a list of accesses are those of their moments. -/
def Truthful (fs : ChangingFs) (l : List FsEvent) : Prop := ∀ i p b, l[i]? = some (.test p b) → b = fs.ex i p

/-- The accesses of a search of some directories, in order: in each, `config` is looked for, then, if it was not there, `config.toml`;
the file that was found is read at once. -/
inductive Searches : List Path → List FsEvent → Prop where
  | nil : Searches [] []
  | config {d ds l} : Searches ds l →
      Searches (d :: ds) (.test (Path.join d "config".toList) true :: .read (Path.join d "config".toList) :: l)
  | toml {d ds l} : Searches ds l →
      Searches (d :: ds) (.test (Path.join d "config".toList) false :: .test (Path.join d "config.toml".toList) true ::
        .read (Path.join d "config.toml".toList) :: l)
  | nothing {d ds l} : Searches ds l →
      Searches (d :: ds) (.test (Path.join d "config".toList) false :: .test (Path.join d "config.toml".toList) false :: l)

/-- The path looked for. -/
def FsEvent.tested : FsEvent → Option Path
  | .test p _ => some p
  | .read _ => none

/-- The file read. -/
def FsEvent.file : FsEvent → Option Path
  | .test _ _ => none
  | .read p => some p

/-- A fixed file system each of whose answers is the one that the changing file system gives at some moment among the first `n`. -/
def SeenWithin (fs : ChangingFs) (n : Nat) (fs0 : Fs) : Prop :=
  (∀ p, ∃ t < n, fs0.ex p = fs.ex t p) ∧ (∀ p, ∃ t < n, fs0.read p = fs.read t p)

/-- A file system that does not change. -/
def Fs.still (fs : Fs) : ChangingFs := { ex := fun _ => fs.ex, read := fun _ => fs.read }

end CC
