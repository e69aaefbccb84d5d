import Verif.Spec.Config
/-
Specification vocabulary for loading a hierarchy of config files.
-/
namespace CC

/-- `raws` are the contents of the files `paths`, in order. -/
def FilesRead (read : Path → Res Str) (parse : Str → Res Config) (paths : List Path) (raws : List (Path × Config)) : Prop :=
  raws.map Prod.fst = paths ∧ ∀ p raw, (p, raw) ∈ raws → ∃ text, read p = .ok text ∧ parse text = .ok raw

/-- A list setting after joining the files `xs` (nearest first) that set it: arrays are concatenated, the nearest last; of
strings the nearest one is taken. -/
inductive JoinedList {α : Type} : List (Repr' × List α) → Option (Repr' × List α) → Prop where
  | unset : JoinedList [] none
  | array {xs} : xs ≠ [] → (∀ x ∈ xs, x.1 = .array) → JoinedList xs (some (.array, (xs.reverse.map Prod.snd).flatten))
  | string {x xs} : (∀ y ∈ x :: xs, y.1 = .string) → JoinedList (x :: xs) (some x)

/-- A command setting after joining the files `xs` (nearest first) that set it: arrays are concatenated, the nearest first; of
strings the nearest one is taken. -/
inductive JoinedProg {α : Type} : List (Repr' × List α) → Option (Repr' × List α) → Prop where
  | unset : JoinedProg [] none
  | array {xs} : xs ≠ [] → (∀ x ∈ xs, x.1 = .array) → JoinedProg xs (some (.array, (xs.map Prod.snd).flatten))
  | string {x xs} : (∀ y ∈ x :: xs, y.1 = .string) → JoinedProg (x :: xs) (some x)

/-- The elements of a list as found in the file `p`. -/
def allFoundIn (p : Path) (x : Repr' × List (Val Str)) : Repr' × List (Val Str) := (x.1, x.2.map (Val.foundIn p))

/-- A config that sets nothing. -/
def SetsNothing (c : Config) : Prop :=
  (∀ k : ScalarKey, k.get c = none) ∧ (∀ k : ListKey, k.get c = none) ∧ (∀ k : ProgKey, k.get c = none) ∧
  (∀ k : TableKey, k.present c = false)

end CC
