import Mathlib.Algebra.Order.Ring.Rat

/-! The median (specification). -/

namespace Pizza

/-- `m` is the median of the values: the middle value of the sorted values, or the mean of the
two middle values (specification). -/
def IsMedian (l : List ℚ) (m : ℚ) : Prop :=
  ∃ s : List ℚ, s.Perm l ∧ s.Pairwise (· ≤ ·) ∧
    ∃ a b, s[(l.length - 1) / 2]? = some a ∧ s[l.length / 2]? = some b ∧ m = (a + b) / 2

end Pizza
