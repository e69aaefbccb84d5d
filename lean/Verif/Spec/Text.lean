import Verif.Model.Basic
/-
Specification vocabulary for strings, independent of the model's functions.
-/
namespace CC

/-- The characters with the Unicode property White_Space (PropList.txt), by their code points: tab to carriage return, space, next line,
no-break space, and the spaces and separators of the later blocks.  The model's `isWhitespace`, which the definitions below use, is this
(see `C38_white_space`). -/
def WhiteSpace (c : Char) : Prop :=
  c.toNat ∈ [0x09, 0x0A, 0x0B, 0x0C, 0x0D, 0x20, 0x85, 0xA0, 0x1680, 0x2000, 0x2001, 0x2002, 0x2003, 0x2004, 0x2005, 0x2006, 0x2007,
    0x2008, 0x2009, 0x200A, 0x2028, 0x2029, 0x202F, 0x205F, 0x3000]

/-- A string whose first and last characters, if any, are not white space. -/
def Trimmed (s : Str) : Prop :=
  (∀ c, s.head? = some c → isWhitespace c = false) ∧ (∀ c, s.getLast? = some c → isWhitespace c = false)

/-- A word: non-empty, without spaces, and without white space at either end. -/
def Word (s : Str) : Prop := s ≠ [] ∧ ' ' ∉ s ∧ Trimmed s

/-- White space only (possibly empty). -/
def Blank (s : Str) : Prop := ∀ c ∈ s, isWhitespace c = true

/-- `Items sep s l`: `l` are the pieces into which the separators cut `s`. -/
inductive Items (sep : Char) : Str → List Str → Prop where
  | last (p : Str) : sep ∉ p → Items sep p [p]
  | more (p s : Str) (l : List Str) : sep ∉ p → Items sep s l → Items sep (p ++ sep :: s) (p :: l)

/-- The word of a text without spaces: none if it is blank, else the text without the white space (tabs, line ends,
…) around it. -/
inductive WordIn : Str → List Str → Prop where
  | blank (p : Str) : Blank p → WordIn p []
  | word (a w b : Str) : Blank a → Blank b → Word w → WordIn (a ++ w ++ b) [w]

/-- `WordsOf s ws`: `ws` are the words of `s`, in order. -/
inductive WordsOf : Str → List Str → Prop where
  | last (p : Str) (ws : List Str) : ' ' ∉ p → WordIn p ws → WordsOf p ws
  | more (p s : Str) (ws vs : List Str) : ' ' ∉ p → WordIn p ws → WordsOf s vs →
      WordsOf (p ++ ' ' :: s) (ws ++ vs)

/-- The pieces into which the separators cut a text; `piece` holds the characters of the current piece, the last one first. -/
def cutAt (sep : Char) (piece : Str) : Str → List Str
  | [] => [piece.reverse]
  | c :: s => if c = sep then piece.reverse :: cutAt sep [] s else cutAt sep (c :: piece) s

/-- The pieces into which the separators cut a text (see `C50_pieces`). -/
def piecesAt (sep : Char) (s : Str) : List Str := cutAt sep [] s

/-- The text without the white space at its ends. -/
def stripped (s : Str) : Str := ((s.dropWhile isWhitespace).reverse.dropWhile isWhitespace).reverse

/-- The words of a text: its pieces between spaces, stripped, without the empty ones (see `C51_wordsIn`). -/
def wordsIn (s : Str) : List Str := ((piecesAt ' ' s).map stripped).filter (· ≠ [])

/-- Two lists of the same length, related element by element. -/
inductive Pointwise {α β : Type} (R : α → β → Prop) : List α → List β → Prop where
  | nil : Pointwise R [] []
  | cons {a b as bs} : R a b → Pointwise R as bs → Pointwise R (a :: as) (b :: bs)

/-- `-`, `.` and `_`, which environment variable names do not distinguish. -/
def IsDash (c : Char) : Prop := c = '-' ∨ c = '.' ∨ c = '_'

/-- `u` is the ASCII upper-case letter of the lower-case letter `l`. -/
def UpperOf (l u : Char) : Prop := 97 ≤ l.toNat ∧ l.toNat ≤ 122 ∧ l.toNat = u.toNat + 32

/-- Characters that environment variable names do not distinguish. -/
def SameEnvChar (c d : Char) : Prop := c = d ∨ (IsDash c ∧ IsDash d) ∨ UpperOf c d ∨ UpperOf d c

/-- `u` is the triple `t` as it is written in names of environment variables: `-` and `.` become `_`, lower-case ASCII letters become
upper-case, and all other characters stay. -/
def EnvNameOf (t u : Str) : Prop :=
  Pointwise (fun c u =>
    ((c = '-' ∨ c = '.') ∧ u = '_') ∨ UpperOf c u ∨
    (c ≠ '-' ∧ c ≠ '.' ∧ ¬(97 ≤ c.toNat ∧ c.toNat ≤ 122) ∧ u = c)) t u

/-- A line feed or carriage return. -/
def IsLineEnd (c : Char) : Prop := c = '\n' ∨ c = '\r'

end CC
