import Verif.Spec.EndToEnd
/-
Specification of the outcome of loading in terms of the documents found and the environment: when it succeeds, when it is an error
and when it is a panic.

As in `Spec/EndToEnd`, no function of the model that loads, merges, applies the environment or resolves is used.
-/
namespace CC

/-- Whether the value is a string. -/
def Toml.isStr : Toml → Bool
  | .str _ => true
  | _ => false

/-- The places that take a string or something else: lists and commands (an array) and the entries of `[env]` (a table). -/
def TwoSpellings (path : List Str) : Prop :=
  (∃ k : ListKey, path = k.path) ∨ (∃ k : ProgKey, path = k.path) ∨ ∃ k : Str, path = ["env".toList, k]

/-- One document has a string where the other has something else. -/
def SpelledApart (t u : Toml) : Prop :=
  ∃ path x y, TwoSpellings path ∧ t.at path = some x ∧ u.at path = some y ∧ x.isStr ≠ y.isStr

/-- The documents are configs and agree in how they write what can be written in two ways. -/
structure DocsGood (docs : List (Path × Toml)) : Prop where
  configs : ∀ f t, (f, t) ∈ docs → t.IsConfig
  spelling : docs.Pairwise fun x y => ¬ SpelledApart x.2 y.2

/-- No variable that counts is malformed: of the variables of a setting the first that is set counts; the variable of a command
only counts if no document has the command. -/
structure VarsGood (look : Str → Option OsStr) (docs : List (Path × Toml)) : Prop where
  scalars : ∀ k : ScalarKey, readEnv look k.consulted ≠ some none
  lists : ∀ k : ListKey, readEnv look k.sources ≠ some none
  commands : ∀ k : ProgKey, (∀ f t, (f, t) ∈ docs → t.at k.path = none) → readEnv look k.sources ≠ some none

/-- There is a directory against which relative paths are resolved.  Only missing for a file whose path has fewer than two components
after the root directory. -/
def HasBase : Definition → Prop
  | .path f => ∃ l a b, a ≠ .root ∧ Path.components f = l ++ [a, b]
  | .cli (some f) => ∃ l a b, a ≠ .root ∧ Path.components f = l ++ [a, b]
  | .cli none => True
  | .environment _ => True

/-- The program `s`, written at `d`, can be located: relative paths need a base directory. -/
def ProgramPlaced (s : Str) (d : Definition) : Prop := ('/' ∈ s ∨ '\\' ∈ s) → (∀ r, s ≠ '/' :: r) → HasBase d

/-- The directory `s`, written at `d`, can be located. -/
def DirPlaced (s : Str) (d : Definition) : Prop := (∀ r, s ≠ '/' :: r) → HasBase d

/-- The target `s`, written at `d`, can be located: a target-spec file needs a file name and (also if absolute) a base directory. -/
def TargetPlaced (s : Str) (d : Definition) : Prop := NamesSpecFile s → (∃ f, EndsInFile s f) ∧ HasBase d

/-- All paths that are part of the resolved config can be located. -/
structure Resolvable (look : Str → Option OsStr) (docs : List (Path × Toml)) : Prop where
  programs : ∀ k ∈ [ScalarKey.buildRustc, .buildRustcWrapper, .buildRustcWorkspaceWrapper, .buildRustdoc], ∀ s d,
    k.source look docs = some (.str s, d) → ProgramPlaced s d
  directories : ∀ k ∈ [ScalarKey.buildTargetDir, .buildDepInfoBasedir], ∀ s d,
    k.source look docs = some (.str s, d) → DirPlaced s d
  browser : ∀ r s d ws, ProgKey.docBrowser.Source look docs (some (r, ⟨s, some d⟩ :: ws)) → ProgramPlaced s d
  targets : ∀ r l, ListKey.buildTarget.Source look docs (some (r, l)) → ∀ s d, ⟨s, some d⟩ ∈ l → TargetPlaced s d
  env : ∀ k x d d', (ScalarKey.envValue k).source look docs = some (x, d) →
    (ScalarKey.envRelative k).source look docs = some (.bool true, d') → HasBase d

end CC
