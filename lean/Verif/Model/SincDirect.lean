import Mathlib.Analysis.SpecialFunctions.Trigonometric.Basic
import Verif.Model.Lanczos

/-! The function `sinc` (pizza_cutter/coadding/_sinc.py:6-12), which is compiled instead of `sinc_pade` when the condition in
pizza_cutter/coadding/_lanczos.py:4-7 is turned. -/

namespace Pizza

/-- `sinc` (pizza_cutter/coadding/_sinc.py:6-12), over the reals. -/
noncomputable def sincDirect (x : ℝ) : Except Err ℝ :=
  if |x| < 1e-4 then .ok (1 - Real.pi * Real.pi / 6 * x * x)
  else checkedDiv (Real.sin (Real.pi * x)) (Real.pi * x)

end Pizza
