import Mathlib.Analysis.SpecialFunctions.Integrals.Basic
import Mathlib.Analysis.SpecialFunctions.Trigonometric.Sinc

/-!
The sinc function changes by at most half of the change of its argument.
-/

namespace Pizza

open intervalIntegral

theorem sinc_eq_integral (x : ℝ) : Real.sinc x = ∫ t in (0 : ℝ)..1, Real.cos (x * t) := by
  by_cases hx : x = 0
  · simp [hx]
  · rw [Real.sinc_of_ne_zero hx, intervalIntegral.integral_comp_mul_left (fun t => Real.cos t) hx, integral_cos]
    simp [div_eq_inv_mul]

theorem abs_cos_sub_le (x y : ℝ) : |Real.cos x - Real.cos y| ≤ |x - y| := by
  rw [Real.cos_sub_cos, abs_mul, abs_mul]
  have h1 := Real.abs_sin_le_one ((x + y) / 2)
  have h2 : |Real.sin ((x - y) / 2)| ≤ |(x - y) / 2| := Real.abs_sin_le_abs
  have h3 := abs_nonneg (Real.sin ((x - y) / 2))
  rw [abs_div, abs_of_pos (by norm_num : (0 : ℝ) < 2)] at h2
  norm_num
  nlinarith [abs_nonneg (Real.sin ((x + y) / 2))]

theorem abs_sinc_sub_le (x y : ℝ) : |Real.sinc x - Real.sinc y| ≤ |x - y| / 2 := by
  have hi : ∀ z : ℝ, IntervalIntegrable (fun t : ℝ => Real.cos (z * t)) MeasureTheory.volume 0 1 := fun z =>
    (Real.continuous_cos.comp (continuous_const.mul continuous_id)).intervalIntegrable _ _
  rw [sinc_eq_integral, sinc_eq_integral, ← intervalIntegral.integral_sub (hi x) (hi y)]
  have hg : IntervalIntegrable (fun t : ℝ => |x - y| * t) MeasureTheory.volume 0 1 :=
    (continuous_const.mul continuous_id).intervalIntegrable _ _
  have := intervalIntegral.norm_integral_le_of_norm_le (μ := MeasureTheory.volume) (zero_le_one' ℝ)
    (f := fun t : ℝ => Real.cos (x * t) - Real.cos (y * t)) (g := fun t : ℝ => |x - y| * t)
    (Filter.Eventually.of_forall fun t ht => ?_) hg
  · rw [Real.norm_eq_abs] at this
    refine this.trans (le_of_eq ?_)
    rw [intervalIntegral.integral_const_mul, integral_id]
    ring
  · rw [Real.norm_eq_abs]
    refine (abs_cos_sub_le _ _).trans (le_of_eq ?_)
    rw [← sub_mul, abs_mul, abs_of_pos ht.1]

end Pizza
