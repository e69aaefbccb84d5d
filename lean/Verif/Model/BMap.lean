import Verif.Model.Basic
/-
`BTreeMap<String, V>` as an association list sorted by key.
-/
namespace CC

/-- `<str as Ord>::lt`.  Rust compares the UTF-8 bytes, which is the same order as comparing the code points. -/
def strLt : Str → Str → Bool
  | [], [] => false
  | [], _ :: _ => true
  | _ :: _, [] => false
  | a :: as, b :: bs => if a.toNat < b.toNat then true else if a = b then strLt as bs else false

/-- `BTreeMap<String, V>` (std): its entries in iteration (key) order. -/
abbrev BMap (V : Type) := List (Str × V)

namespace BMap
variable {V W : Type}

/-- `BTreeMap::get`. -/
def get : BMap V → Str → Option V
  | [], _ => none
  | (k', v) :: m, k => if k' = k then some v else get m k

/-- `BTreeMap::insert` (replaces an existing entry). -/
def insert (k : Str) (v : V) : BMap V → BMap V
  | [] => [(k, v)]
  | (k', v') :: m =>
    if k = k' then (k, v) :: m
    else if strLt k k' then (k, v) :: (k', v') :: m
    else (k', v') :: insert k v m

/-- The keys in iteration order. -/
def keys (m : BMap V) : List Str := m.map Prod.fst

/-- Representation invariant of `BTreeMap`: keys strictly increasing. -/
def Sorted (m : BMap V) : Prop := m.Pairwise fun a b => strLt a.1 b.1 = true

instance (m : BMap V) : Decidable (Sorted m) := inferInstanceAs (Decidable (List.Pairwise _ m))

/-- `for v in map.values_mut() { f(v) }`. -/
def mapVals (f : V → W) (m : BMap V) : BMap W := m.map fun (k, v) => (k, f v)

end BMap
end CC
