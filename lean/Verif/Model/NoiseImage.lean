import Verif.Model.Noise
import Verif.Model.SEGeom
import Mathlib.Analysis.SpecialFunctions.Pow.Real

/-!
The noise field of a single epoch image.  Models `_get_noise_image_impl`
(pizza_cutter/des_pizza_cutter/_se_image.py:95-105).

Weights are real numbers, so a NaN or an infinite weight is not modelled.
-/

namespace Pizza

/-- `10.0**(0.4*(MAGZP_REF - magzp))` (_se_image.py:680) with `MAGZP_REF = 30.0`
(_constants.py:17). -/
noncomputable def zpScale (magzp : ℝ) : ℝ := (10 : ℝ) ^ ((0.4 : ℝ) * (30 - magzp))

open Classical in
/-- `wgt[~zwgt_msk]` with `zwgt_msk = wgt <= 0.0`, in row-major order (_se_image.py:97-98). -/
noncomputable def goodWeights (wgt : Img ℝ) : List ℝ :=
  ((List.range wgt.nrow).flatMap fun r => (List.range wgt.ncol).map fun c => wgt.px r c).filter
    fun w => decide (¬ w ≤ 0)

/-- `np.max` of a list: ValueError if it is empty (_se_image.py:98). -/
noncomputable def npMaxGood : List ℝ → Except Err ℝ
  | [] => .error .valueError
  | w :: l => .ok (l.foldl max w)

open Classical in
/-- `(wgt * (~zwgt_msk) + zwgt_msk * max_wgt) / scale**2` (_se_image.py:102). -/
noncomputable def filledWeight (wgt : Img ℝ) (maxWgt scale : ℝ) : Img ℝ :=
  { nrow := wgt.nrow
    ncol := wgt.ncol
    px := fun r c =>
      (wgt.px r c * (if wgt.px r c ≤ 0 then 0 else 1) +
        (if wgt.px r c ≤ 0 then 1 else 0) * maxWgt) / scale ^ 2 }

/-- `_get_noise_image_impl` (_se_image.py:95-105); `z` are the unit normal draws for the seed. -/
noncomputable def noiseImageImpl (z : Nat → ℝ) (wgt : Img ℝ) (scale : ℝ) : Except Err NoiseState := do
  let maxWgt ← npMaxGood (goodWeights wgt)
  memMappedNoise z (filledWeight wgt maxWgt scale) none 1024 1024

/-- `MemMappedNoiseImage.__getitem__` (memmappednoise.py:78-79) with two ranges, the way it is called at
_se_image.py:714-724; `shape` is the shape of the weights (memmappednoise.py:31, 81-82). -/
noncomputable def NoiseState.getItem (st : NoiseState) (shape : Nat × Nat) (r0 r1 c0 c1 : ℤ) : Img (Option ℝ) :=
  (⟨shape.1, shape.2, st.noise⟩ : Img (Option ℝ)).slice r0 r1 c0 c1

/-- One noise field of `set_slice` (_se_image.py:714-724): the window of the noise image. -/
noncomputable def sliceNoise (z : Nat → ℝ) (wgt : Img ℝ) (scale : ℝ) (y0 x0 box : ℤ) :
    Except Err (Img (Option ℝ)) := do
  let st ← noiseImageImpl z wgt scale
  pure (st.getItem (wgt.nrow, wgt.ncol) y0 (y0 + box) x0 (x0 + box))

end Pizza
