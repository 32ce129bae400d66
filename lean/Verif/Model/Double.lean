import Mathlib.Data.Rat.Floor
import Mathlib.Tactic.Linarith
import Mathlib.Tactic.Ring
import Mathlib.Tactic.NormNum
import Mathlib.Algebra.Order.Ring.Abs
import Mathlib.Algebra.Order.Field.Power

/-!
Floating point numbers with `p` binary digits (numpy `float64` has 53, `float32` has 24) and rounding to
nearest.  The range of exponents is not limited here: overflow and underflow are not modelled.  How ties
are broken is left open.
-/

namespace Pizza

/-- A number with at most `p` binary digits: the values of a numpy floating point array, all of the
arithmetic of /repo.  (`2 ^ p` itself is one too, with the next exponent.) -/
def IsFloat (p : ℕ) (x : ℚ) : Prop := ∃ m e : ℤ, |m| ≤ 2 ^ p ∧ x = m * (2 : ℚ) ^ e

/-- Rounding to nearest, in which every operation `+ - * /` of numpy ends (IEEE 754, any rule for ties). -/
structure Rounds (p : ℕ) (rnd : ℚ → ℚ) : Prop where
  float : ∀ x, IsFloat p (rnd x)
  nearest : ∀ x y, IsFloat p y → |x - rnd x| ≤ |x - y|

end Pizza
