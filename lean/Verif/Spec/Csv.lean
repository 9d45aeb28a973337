import Verif.Model.Csv

/-!
# Specification vocabulary for CSV files
-/

namespace Hrm

/-- A value of type `float` (without its exponent limits): an integer of at most 24 bits times a power of two. -/
def IsFloat (v : ℝ) : Prop := ∃ m e : ℤ, |m| ≤ 2 ^ 24 ∧ v = (m : ℝ) * (2 : ℝ) ^ e

/-- What is assumed of `std::stof`: it yields `float` values; decimal numerals up to 2^24 (which are `float` values) are
read exactly; the empty text and texts that begin with the letter `x` contain no number. -/
structure StofOk (stof : List Char → Scan) : Prop where
  float : ∀ s v, stof s = .val v → IsFloat v
  nat : ∀ n : ℕ, n ≤ 2 ^ 24 → stof (Nat.toDigits 10 n) = .val n
  empty : stof [] = .invalid
  word : ∀ s, stof ('x' :: s) = .invalid

/-- What is assumed of `operator<<` for doubles: a non-empty text without commas, line ends and number signs. -/
def PrintOk (pr : ℝ → List Char) : Prop :=
  ∀ x, pr x ≠ [] ∧ ∀ c ∈ pr x, c ≠ ',' ∧ c ≠ '\n' ∧ c ≠ '#'

/-- The text of a line with the fields `fs`. -/
def joinFields : List (List Char) → List Char
  | [] => []
  | [f] => f
  | f :: g :: l => f ++ ',' :: joinFields (g :: l)

/-- The number in a field, if it is one. -/
def Scan.toOption : Scan → Option ℝ
  | .val v => some v
  | _ => none

/-- The text of a file with these lines. -/
def joinLines (lines : List (List Char)) : List Char := lines.flatMap fun l => l ++ ['\n']

end Hrm
