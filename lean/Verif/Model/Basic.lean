import Mathlib.Data.Rat.Floor

/-!
Shared vocabulary of the model: exceptions as values, images as functions, floats.
-/

namespace Pizza

/-- Python exceptions that the modelled code can raise (modelling convention, no single
source line: each `raise`/`assert`/implicit failure is cited where it is used). -/
inductive Err where
  | valueError
  | runtimeError
  | assertionError
  | keyError
  | attributeError
  | indexError
  | ioError
  | typeError
  | unboundLocal
  | zeroDivision
  deriving DecidableEq, Repr

/-- A 2-D numpy array: shape and pixel function.  Only pixels in range are meaningful
(modelling convention, used for every image in /repo). -/
structure Img (α : Type) where
  nrow : Nat
  ncol : Nat
  px : Nat → Nat → α

/-- A floating point value: finite ones are exact rationals, the others are kept apart
because `np.isfinite` distinguishes them (pizza_cutter/wcs.py:22,30). Rounding is not
modelled. -/
inductive Flt where
  | fin (q : ℚ)
  | posInf
  | negInf
  | nan
  deriving DecidableEq, Repr

/-- Python `range(a, b)`. -/
def pyRange (a b : ℤ) : List ℤ := (List.range (b - a).toNat).map fun (i : Nat) => a + (i : ℤ)

namespace Img
variable {α β : Type}

/-- Checked read `a[r, c]` with non-negative indices, `none` when out of range
(numpy raises IndexError; compiled numba code would read foreign memory). -/
def get? (a : Img α) (r c : Nat) : Option α :=
  if r < a.nrow ∧ c < a.ncol then some (a.px r c) else none

/-- Checked read with signed indices and no negative-index wrap-around. -/
def getZ? (a : Img α) (r c : Int) : Option α :=
  if 0 ≤ r ∧ r < a.nrow ∧ 0 ≤ c ∧ c < a.ncol then some (a.px r.toNat c.toNat) else none

/-- Pixel-wise map. -/
def map (f : α → β) (a : Img α) : Img β := ⟨a.nrow, a.ncol, fun r c => f (a.px r c)⟩

/-- Equality of arrays: same shape and same pixels in range. -/
def Eqv (a b : Img α) : Prop :=
  a.nrow = b.nrow ∧ a.ncol = b.ncol ∧ ∀ r < a.nrow, ∀ c < a.ncol, a.px r c = b.px r c

end Img
end Pizza
