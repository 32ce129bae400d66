import Mathlib.Algebra.Order.Field.Basic
import Mathlib.Algebra.BigOperators.Group.Finset.Basic
import Verif.Model.Lanczos

/-! Vocabulary for the Lanczos properties, without floors or loops. -/

namespace Pizza

section
variable {K : Type} [Field K] [LinearOrder K] [FloorRing K]

/-- Pixel coordinate `k` is one of the `2a` coordinates of a kernel of size `a` placed at `p`:
those in the half open interval `(p - a, p + a]` (specification). -/
def InKernel (a : ℤ) (p : K) (k : Nat) : Prop := p - a < k ∧ (k : K) ≤ p + a

/-- `lanczos_resample` of `im` with kernel size `a` at the single position `(y, x)` returns the
value `v` and the edge flag `e` (specification). -/
def Resampled (im : Img K) (a : ℤ) (y x v : K) (e : Bool) : Prop :=
  lanczosResample im [(y, x)] a = .ok [(v, e)]

/-- `im'` is `im` moved by `s` rows and `t` columns; pixels not covered by the other image are
zero in either (specification). -/
def ShiftedBy (im im' : Img K) (s t : ℤ) : Prop :=
  ∀ r c : ℤ, (im'.getZ? (r + s) (c + t)).getD 0 = (im.getZ? r c).getD 0

end
end Pizza
