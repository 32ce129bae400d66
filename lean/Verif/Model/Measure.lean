import Verif.Model.Basic
import Mathlib.Analysis.Real.Sqrt
import Mathlib.Analysis.Real.Pi.Bounds

/-!
The FWHM measure.  Models pizza_cutter/slice_utils/measure.py.
-/

namespace Pizza

/-- All pixel values in row-major order (the order does not matter to `max` and `sum`). -/
def Img.values {α : Type} (a : Img α) : List α :=
  (List.range a.nrow).flatMap fun r => (List.range a.ncol).map fun c => a.px r c

/-- `image.max()`; an empty array raises ValueError (measure.py:26). -/
noncomputable def npMax (l : List ℝ) : Except Err ℝ :=
  match l with
  | [] => .error .valueError
  | v :: l => .ok (l.foldl max v)

/-- `measure_fwhm(image, smooth)` (pizza_cutter/slice_utils/measure.py:5-36) over the reals.
`erf` is a parameter (`scipy.special.erf`); rounding is not modelled, and the results for
`maxval == 0` or `smooth == 0` (nan or inf in numpy) are not meaningful here. -/
noncomputable def measureFwhm (erf : ℝ → ℝ) (image : Img ℝ) (smooth : ℝ) : Except Err ℝ := do
  let thresh : ℝ := 0.5
  let maxval ← npMax image.values
  let nim := image.map fun v => v / maxval
  let arg := nim.map fun v => (v - thresh) / smooth
  let vals := arg.map fun v => 0.5 * (1 + erf v)
  let area := vals.values.sum
  pure (2 * √(area / Real.pi))

end Pizza
