import Verif.Model.Basic
/-
Specification vocabulary for the output of `rustc -vV` and `cargo -vV`.
-/
namespace CC

/-- A non-empty sequence of decimal digits and the number it stands for. -/
inductive Decimal : Str → Nat → Prop where
  | digit (d : Nat) : d < 10 → Decimal [Char.ofNat (48 + d)] d
  | snoc (s : Str) (n d : Nat) : Decimal s n → d < 10 → Decimal (s ++ [Char.ofNat (48 + d)]) (10 * n + d)

/-- A number below 2^32 in decimal, possibly with a plus sign. -/
def IsU32 (s : Str) (n : Nat) : Prop := (Decimal s n ∨ ∃ r, s = '+' :: r ∧ Decimal r n) ∧ n < 4294967296

/-- The lines of a text: each ends with a line feed, possibly preceded by a carriage return, or with the text. -/
inductive LinesOf : Str → List Str → Prop where
  | nil : LinesOf [] []
  | last (l : Str) : l ≠ [] → '\n' ∉ l → LinesOf l [l]
  | lf (l s : Str) (ls : List Str) : '\n' ∉ l → l.getLast? ≠ some '\r' → LinesOf s ls → LinesOf (l ++ '\n' :: s) (l :: ls)
  | crlf (l s : Str) (ls : List Str) : '\n' ∉ l → LinesOf s ls → LinesOf (l ++ '\r' :: '\n' :: s) (l :: ls)

/-- The first line that starts with `p` continues with `rest`. -/
def FirstLine (out p rest : Str) : Prop :=
  ∃ before after, LinesOf out (before ++ (p ++ rest) :: after) ∧ ∀ l ∈ before, ¬ p <+: l

/-- `MAJOR.MINOR[.PATCH][-CHANNEL]`. -/
def IsRelease (s : Str) (major minor : Nat) (patch : Option Nat) (nightly : Bool) : Prop :=
  ∃ a b channel, IsU32 a major ∧ IsU32 b minor ∧
    ((patch = none ∧ s = a ++ '.' :: (b ++ channel)) ∨
      ∃ c p, patch = some p ∧ IsU32 c p ∧ s = a ++ '.' :: (b ++ '.' :: (c ++ channel))) ∧
    ((channel = [] ∧ nightly = false) ∨
      ∃ ch, channel = '-' :: ch ∧ (nightly = true ↔ ch = "nightly".toList ∨ ch = "dev".toList))

end CC
