import Mathlib.Data.Nat.Digits.Defs

/-!
Decimal numerals: Python's `%d` and `%0nd` for natural numbers.
-/

namespace Pizza

/-- `"%d" % n`: the decimal numeral of a natural number. -/
def decimal (n : Nat) : List Char :=
  if n = 0 then ['0'] else ((Nat.digits 10 n).reverse.map fun d => Char.ofNat (48 + d))

/-- `"%0wd" % n`: padded with zeros to width `w`. -/
def decimalPad (w n : Nat) : List Char := List.replicate (w - (decimal n).length) '0' ++ decimal n

end Pizza
