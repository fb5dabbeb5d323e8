import Verif.Model.Parse

/-!
# Specification vocabulary for number texts

The grammar of the numbers that can be parsed and what they mean, independent of the parser.
-/

namespace Verif

/-- Decimal digit. -/
def IsDigit (c : Char) : Prop := '0' ≤ c ∧ c ≤ '9'

instance (c : Char) : Decidable (IsDigit c) := inferInstanceAs (Decidable (_ ∧ _))

/-- A sign. -/
def IsSign (c : Char) : Prop := c = '+' ∨ c = '-'

instance (c : Char) : Decidable (IsSign c) := inferInstanceAs (Decidable (_ ∨ _))

/-- The texts allowed before the exponent: digits, underscores, at most one point, at most one sign and that not after a
digit. -/
structure Mantissa (m : List Char) : Prop where
  chars : ∀ c ∈ m, IsDigit c ∨ c = '.' ∨ c = '_' ∨ IsSign c
  point : m.count '.' ≤ 1
  sign : m.countP (fun c => IsSign c) ≤ 1
  first : ∀ c ∈ m.dropWhile (fun c => !decide (IsDigit c)), ¬ IsSign c

/-- Values of the digits of a text, in order. -/
def digitsOf (m : List Char) : List ℕ := (m.filter (fun c => IsDigit c)).map (fun c => c.toNat - 48)

/-- The number the digits of a text form, ignoring all other characters. -/
def intOf (m : List Char) : ℕ := digitsVal (digitsOf m)

/-- Number of digits after the point. -/
def fracDigits (m : List Char) : ℕ := (digitsOf (m.dropWhile (· ≠ '.'))).length

/-- Text of an `i32`: optional sign, at least one digit, in range. -/
def I32Text (t : List Char) (e : ℤ) : Prop :=
  ∃ sg ds, t = sg ++ ds ∧ (sg = [] ∨ sg = ['+'] ∨ sg = ['-']) ∧ ds ≠ [] ∧ (∀ c ∈ ds, IsDigit c) ∧
    e = (if sg = ['-'] then -(intOf ds : ℤ) else intOf ds) ∧ -2 ^ 31 ≤ e ∧ e < 2 ^ 31

/-- The optional exponent: nothing, or `e` and an `i32`. -/
def ExpText (x : List Char) (e : ℤ) : Prop := (x = [] ∧ e = 0) ∨ ∃ t, x = 'e' :: t ∧ I32Text t e

/-- A text of the grammar of numbers, split into mantissa and exponent. -/
def NumText (s m : List Char) (e : ℤ) : Prop := ∃ x, s = m ++ x ∧ Mantissa m ∧ ExpText x e

/-- The texts of NaN and the infinities. -/
def specialTexts : List (List Char) :=
  ["nan".toList, "inf".toList, "infinity".toList, "-inf".toList, "-infinity".toList]

/-- The text with surrounding white space removed and ASCII letters in lower case. -/
def cleaned (s : List Char) : List Char := lower (trim s)

end Verif
