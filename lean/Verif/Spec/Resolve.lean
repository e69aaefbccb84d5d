import Verif.Spec.Config
/-
Specification vocabulary for resolving paths against the place where they were written.
-/
namespace CC

/-- Both unset, or both set and related. -/
inductive OptionRel {α β : Type} (R : α → β → Prop) : Option α → Option β → Prop where
  | none : OptionRel R none none
  | some {a : α} {b : β} : R a b → OptionRel R (some a) (some b)

/-- Lists of the same length whose elements are related in order. -/
inductive ListRel {α β : Type} (R : α → β → Prop) : List α → List β → Prop where
  | nil : ListRel R [] []
  | cons {a : α} {b : β} {as : List α} {bs : List β} : R a b → ListRel R as bs → ListRel R (a :: as) (b :: bs)

/-- The directory against which a relative path is resolved: for a config file it is the file's path without its last two components
(`dir/.cargo/config` gives `dir`), otherwise the current directory. -/
def BaseDir (cwd : Path) : Definition → Path → Prop
  | .path f, base => ∃ a b, Path.components f = Path.components base ++ [a, b]
  | .cli (some f), base => ∃ a b, Path.components f = Path.components base ++ [a, b]
  | .environment _, base => base = cwd
  | .cli none, base => base = cwd

/-- The path of a configured program. -/
inductive ProgramPath (cwd : Path) : Val Str → Path → Prop where
  /-- a name without separators is to be searched in PATH -/
  | name (s : Str) (d : Option Definition) : '/' ∉ s → '\\' ∉ s → ProgramPath cwd ⟨s, d⟩ s
  /-- an absolute path stays as it is -/
  | absolute (r : Str) (d : Option Definition) : ProgramPath cwd ⟨'/' :: r, d⟩ ('/' :: r)
  /-- any other path is relative to where it was written -/
  | relative (s : Str) (d : Definition) (base : Path) : ('/' ∈ s ∨ '\\' ∈ s) → (∀ r, s ≠ '/' :: r) → BaseDir cwd d base →
      ProgramPath cwd ⟨s, some d⟩ (Path.join base s)
  /-- values that were not loaded from anywhere -/
  | unlocated (s : Str) : ProgramPath cwd ⟨s, none⟩ s

/-- The path of a configured directory. -/
inductive DirPath (cwd : Path) : Val Str → Path → Prop where
  | absolute (r : Str) (d : Option Definition) : DirPath cwd ⟨'/' :: r, d⟩ ('/' :: r)
  | relative (s : Str) (d : Definition) (base : Path) : (∀ r, s ≠ '/' :: r) → BaseDir cwd d base →
      DirPath cwd ⟨s, some d⟩ (Path.join base s)
  | unlocated (s : Str) : DirPath cwd ⟨s, none⟩ s

end CC
