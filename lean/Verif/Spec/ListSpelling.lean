import Verif.Spec.Settings
/-
Specification vocabulary for lists and commands that may be written as a string or as an array.
-/
namespace CC

/-- Two TOML values stand for the same list: each is an array of strings or one string, which stands for the words in it (if `split`)
or for itself. -/
def SpellSame (split : Bool) (a b : Toml) : Prop := ∃ r r' ws, TomlList split a r ws ∧ TomlList split b r' ws

/-- The documents say the same about a list: literally, or only one document says anything, and in other spelling. -/
def SaidAlike (split : Bool) (l l' : List (Path × Toml)) : Prop :=
  l = l' ∨ ∃ f a b, l = [(f, a)] ∧ l' = [(f, b)] ∧ SpellSame split a b

/-- The documents differ only in how lists and commands are spelled that are stated by one document only. -/
structure RespelledLists (docs docs' : List (Path × Toml)) : Prop where
  scalar : ∀ k : ScalarKey, saidAt k.place docs = saidAt k.place docs'
  list : ∀ k : ListKey, SaidAlike k.splits (saidAt k.path docs) (saidAt k.path docs')
  prog : ∀ k : ProgKey, SaidAlike true (saidAt k.path docs) (saidAt k.path docs')
  tables : ∀ k : Str, (saidAt ["target".toList, k] docs).map Prod.fst = (saidAt ["target".toList, k] docs').map Prod.fst

end CC
