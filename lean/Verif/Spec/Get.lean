import Verif.Model.Get
import Verif.Spec.Outcome
/-
Specification for C84: what the example `get` prints.
-/
namespace CC

/-- The order of places in a document: segment by segment. -/
inductive PlaceBefore : List Str → List Str → Prop where
  | here {a b : Str} {as bs : List Str} : strLt a b = true → PlaceBefore (a :: as) (b :: bs)
  | later {a : Str} {as bs : List Str} : PlaceBefore as bs → PlaceBefore (a :: as) (a :: bs)

/-- The line for the value `e.2` at the place `e.1`. -/
def GetLine.ofEntry (e : List Str × Toml) : GetLine := .setting (joinWith '.' e.1) e.2

/-- How a list is shown: flags as an array, others as they are spelled. -/
def ListKey.shown (k : ListKey) (x : Repr' × List (Val Str)) : Toml :=
  if k.isFlags ∨ x.1 = .array then .arr (x.2.map fun v => .str v.val) else .str (joinWith ' ' (x.2.map Val.val))

/-- How a command is shown: as it is spelled. -/
def progShown (x : Repr' × List (Val Str)) : Toml :=
  if x.1 = .array then .arr (x.2.map fun v => .str v.val) else .str (joinWith ' ' (x.2.map Val.val))

/-- `es` are the settings of the documents `docs` (nearest first) taken together: in order, each with its value, and nothing else.
The place of the value of an `[env]` entry depends on the entry being a table. -/
structure Shows (docs : List (Path × Toml)) (es : List (List Str × Toml)) : Prop where
  ordered : es.Pairwise fun a b => PlaceBefore a.1 b.1
  scalars : ∀ (k : ScalarKey) (v : Toml), (∃ isTable, (k.path isTable, v) ∈ es) ↔
    firstSome (docs.map fun (_, t) => t.at (k.path t.envIsTable)) = some v
  lists : ∀ k : ListKey, ∃ xs y, ListsIn k.splits k.path docs xs ∧ JoinedList xs y ∧
    ∀ v, (k.path, v) ∈ es ↔ y.map k.shown = some v
  commands : ∀ k : ProgKey, ∃ xs y, ListsIn true k.path docs xs ∧ JoinedProg xs y ∧
    ∀ v, (k.path, v) ∈ es ↔ y.map progShown = some v
  only : ∀ e ∈ es, (∃ (k : ScalarKey) (isTable : Str → Option Bool), e.1 = k.path isTable) ∨ (∃ k : ListKey, e.1 = k.path) ∨
    ∃ k : ProgKey, e.1 = k.path

/-- The part of the output for the file `f`: its name, its settings, an empty line. -/
inductive FileBlock (f : Path) (t : Toml) : List GetLine → Prop where
  | mk {es : List (List Str × Toml)} : Shows [(f, t)] es → FileBlock f t (.comment f :: es.map .ofEntry ++ [.blank])

/-- The parts for the files `docs`, in order. -/
inductive FileBlocks : List (Path × Toml) → List GetLine → Prop where
  | nil : FileBlocks [] []
  | cons {f t docs b bs} : FileBlock f t b → FileBlocks docs bs → FileBlocks ((f, t) :: docs) (b ++ bs)

end CC
