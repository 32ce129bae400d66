import Verif.Model.Numerals

/-!
What slice ranges mean, independent of the model.
-/

namespace Pizza

/-- `i` is an element of Python's `range(start, stop, step)`. -/
def InPyRange (start stop step i : ℤ) : Prop :=
  ∃ k : ℕ, i = start + k * step ∧ ((0 < step ∧ i < stop) ∨ (step < 0 ∧ stop < i))

/-- A decimal digit and its value. -/
def IsDigit (c : Char) (d : Nat) : Prop := d < 10 ∧ c = Char.ofNat (48 + d)

/-- More digits after the value `acc`, each with at most one underscore before it. -/
inductive DigitsAfter : Nat → List Char → Nat → Prop
  | nil (acc) : DigitsAfter acc [] acc
  | digit (acc c d l n) : IsDigit c d → DigitsAfter (10 * acc + d) l n → DigitsAfter acc (c :: l) n
  | underscore (acc c d l n) : IsDigit c d → DigitsAfter (10 * acc + d) l n → DigitsAfter acc ('_' :: c :: l) n

/-- A whole number without sign. -/
def IsNumeral (s : List Char) (n : Nat) : Prop := ∃ c d l, s = c :: l ∧ IsDigit c d ∧ DigitsAfter d l n

/-- A whole number with an optional sign. -/
inductive IsSigned : List Char → ℤ → Prop
  | bare (s n) : IsNumeral s n → IsSigned s (n : ℤ)
  | plus (s n) : IsNumeral s n → IsSigned ('+' :: s) (n : ℤ)
  | minus (s n) : IsNumeral s n → IsSigned ('-' :: s) (-(n : ℤ))

/-- The white space of ASCII. -/
def asciiSpace : List Char :=
  [' ', '\t', '\n', '\x0b', '\x0c', '\r', '\x1c', '\x1d', '\x1e', '\x1f']

/-- What `int` takes for the number `n`: a whole number with white space around it. -/
def IsIntLiteral (s : List Char) (n : ℤ) : Prop :=
  ∃ a m b, s = a ++ m ++ b ∧ (∀ c ∈ a, c ∈ asciiSpace) ∧ (∀ c ∈ b, c ∈ asciiSpace) ∧ IsSigned m n

end Pizza
