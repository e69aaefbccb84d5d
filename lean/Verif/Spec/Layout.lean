import Verif.Spec.Serde
import Verif.Model.Load
/-
Specification vocabulary for the layout of config files: documents that differ only in the order of keys and in keys the library does not
know.
-/
namespace CC

/-- An element of an array, without what is inside tables and arrays. -/
def Toml.flat : Toml → Toml
  | .tbl _ => .tbl []
  | .arr _ => .arr []
  | x => x

/-- What is to be seen at a place of a document without looking deeper: of a table that it is one, of an array its elements. -/
def Toml.surface : Toml → Toml
  | .tbl _ => .tbl []
  | .arr l => .arr (l.map Toml.flat)
  | x => x

/-- The places the library knows: the document, the sections, the entries of the tables with arbitrary keys, and the settings. -/
inductive KnownPath : List Str → Prop where
  | document : KnownPath []
  | sections {p : List Str} : p ∈ sectionPaths → KnownPath p
  | entry (k : TableKey) : KnownPath k.path
  | scalar (k : ScalarKey) (table : Bool) : KnownPath (k.path fun _ => some table)
  | list (k : ListKey) : KnownPath k.path
  | command (k : ProgKey) : KnownPath k.path

/-- Both documents have the same at all places the library knows. -/
def SameKnown (t t' : Toml) : Prop := ∀ p, KnownPath p → (t.at p).map Toml.surface = (t'.at p).map Toml.surface

/-- `Reordered t t'`: the document `t'` is `t` with the keys of its tables in another order. -/
inductive Reordered : Toml → Toml → Prop where
  | same (t : Toml) : Reordered t t
  | keys {l l' : List (Str × Toml)} : l.Perm l' → Reordered (.tbl l) (.tbl l')
  | inside (l₁ l₂ : List (Str × Toml)) (k : Str) {x y : Toml} : Reordered x y →
      Reordered (.tbl (l₁ ++ (k, x) :: l₂)) (.tbl (l₁ ++ (k, y) :: l₂))
  | trans {t t' t'' : Toml} : Reordered t t' → Reordered t' t'' → Reordered t t''

/-- `Extended p t t'`: `t'` is `t` with a further key at which, and below which, there is nothing the library knows.  `p` is the place
of `t` in the whole document. -/
inductive Extended : List Str → Toml → Toml → Prop where
  | here {p : List Str} (l₁ l₂ : List (Str × Toml)) (k : Str) (x : Toml) : (∀ q, ¬ KnownPath (p ++ k :: q)) →
      Extended p (.tbl (l₁ ++ l₂)) (.tbl (l₁ ++ (k, x) :: l₂))
  | inside {p : List Str} (l₁ l₂ : List (Str × Toml)) (k : Str) {x y : Toml} : Extended (p ++ [k]) x y →
      Extended p (.tbl (l₁ ++ (k, x) :: l₂)) (.tbl (l₁ ++ (k, y) :: l₂))

/-- Two texts of config files say the same: both are TOML documents with the same settings, or neither is a TOML document. -/
def SameText (toml : Str → Res Toml) (s s' : Str) : Prop :=
  (∃ t t', toml s = .ok t ∧ toml s' = .ok t' ∧ SameKnown t t') ∨ (∀ t, toml s ≠ .ok t) ∧ ∀ t, toml s' ≠ .ok t

/-- Two file systems have the same files, and the config files say the same: each can be read in both or in neither, and the texts say
the same. -/
structure SameFiles (toml : Str → Res Toml) (fs fs' : Fs) : Prop where
  ex : ∀ p, fs.ex p = fs'.ex p
  read : ∀ p, (∃ s s', fs.read p = .ok s ∧ fs'.read p = .ok s' ∧ SameText toml s s') ∨
    (∀ s, fs.read p ≠ .ok s) ∧ ∀ s, fs'.read p ≠ .ok s

end CC
