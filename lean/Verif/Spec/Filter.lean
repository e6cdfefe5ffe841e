/-
Specification vocabulary for filter expressions: sequences of words and characters, comparisons combined by and/or.
Nothing in this file models malstroem code.
-/
import Verif.Model.Filter

namespace Malstroem
namespace Spec

/-- The parts of a filter text. -/
inductive Piece
  | area
  | maxdepth
  | volume
  | and
  | or
  | char (c : Char)
  deriving DecidableEq

/-- The characters `<>=!0123456789.()`. -/
def IsFilterChar (c : Char) : Prop := c ∈ ['<', '>', '=', '!', '.', '(', ')'] ∨ c.isDigit

/-- The white space characters of Unicode, as Python counts them: tab to carriage return, the separators 28 to 31, space, next
line, no-break space, and the typographical spaces and separators. -/
def IsWhite (c : Char) : Prop :=
  c.toNat ∈ [9, 10, 11, 12, 13, 28, 29, 30, 31, 32, 133, 160, 5760, 8192, 8193, 8194, 8195, 8196, 8197, 8198, 8199, 8200, 8201,
    8202, 8232, 8233, 8239, 8287, 12288]

instance (c : Char) : Decidable (IsWhite c) := by unfold IsWhite; infer_instance

/-- A part that may occur in a filter: a word, or one of `<>=!0123456789.()`, or white space. -/
def Piece.Allowed : Piece → Prop
  | .char c => IsFilterChar c ∨ IsWhite c
  | _ => True

/-- How a part is written. -/
def Piece.text : Piece → List Char
  | .area => "area".toList
  | .maxdepth => "maxdepth".toList
  | .volume => "volume".toList
  | .and => "and".toList
  | .or => "or".toList
  | .char c => [c]

/-- The Python expression a part stands for. -/
def Piece.python : Piece → List Char
  | .area => "stats[\"area\"]".toList
  | .maxdepth => "stats[\"max\"]".toList
  | .volume => "stats[\"volume\"]".toList
  | p => p.text

/-- `s` is a sequence of the words area, maxdepth, volume, and, or, the allowed characters and white space. -/
def IsSequence (s : List Char) : Prop := ∃ ps : List Piece, (∀ p ∈ ps, p.Allowed) ∧ s = ps.flatMap Piece.text

/-- The letters of the five words. -/
def filterLetters : List Char := "areamaxdepthvolumeandor".toList

/-- `w` occurs in `s`. -/
def Occurs (w s : List Char) : Prop := ∃ a b, s = a ++ w ++ b

/-- A character that is neither an allowed character nor white space. -/
def IsOther (c : Char) : Prop := ¬ IsFilterChar c ∧ ¬ IsWhite c

/-- `run` is a maximal run of other characters in `s`: what stands between allowed characters and white space. -/
def IsRun (run s : List Char) : Prop :=
  run ≠ [] ∧ (∀ c ∈ run, IsOther c) ∧ ∃ a b, s = a ++ run ++ b ∧
    (∀ c, a.getLast? = some c → ¬ IsOther c) ∧ (∀ c, b.head? = some c → ¬ IsOther c)

/-- A quantity of a bluespot. -/
inductive Quantity
  | area
  | maxdepth
  | volume

/-- A comparison operator. -/
inductive Comparison
  | lt
  | le
  | gt
  | ge
  | eq
  | ne

def Comparison.text : Comparison → List Char
  | .lt => "<".toList
  | .le => "<=".toList
  | .gt => ">".toList
  | .ge => ">=".toList
  | .eq => "==".toList
  | .ne => "!=".toList

/-- A filter expression: comparisons of quantities with decimal numbers, and, or, parentheses. -/
inductive FilterExpr
  | compare (q : Quantity) (op : Comparison) (whole fraction : Nat)
  | and (a b : FilterExpr)
  | or (a b : FilterExpr)
  | paren (a : FilterExpr)

/-- How an expression is written, given how quantities are written. -/
def FilterExpr.text (quantity : Quantity → List Char) : FilterExpr → List Char
  | .compare q op n m => quantity q ++ ' ' :: op.text ++ ' ' :: Nat.toDigits 10 n ++ '.' :: Nat.toDigits 10 m
  | .and a b => a.text quantity ++ " and ".toList ++ b.text quantity
  | .or a b => a.text quantity ++ " or ".toList ++ b.text quantity
  | .paren a => '(' :: a.text quantity ++ [')']

/-- The names of the quantities in filters. -/
def Quantity.name : Quantity → List Char
  | .area => "area".toList
  | .maxdepth => "maxdepth".toList
  | .volume => "volume".toList

/-- The entries of the bluespot statistics. -/
def Quantity.stats : Quantity → List Char
  | .area => "stats[\"area\"]".toList
  | .maxdepth => "stats[\"max\"]".toList
  | .volume => "stats[\"volume\"]".toList

end Spec
end Malstroem
