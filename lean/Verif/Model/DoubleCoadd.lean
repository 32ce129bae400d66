import Verif.Model.Double

/-!
The weights and the weighted sums of `_coadd_slices.py` in floating point arithmetic.
-/

namespace Pizza

/-- `np.sum` of an array (_coadd_slices.py:546,628): some tree of rounded additions.  Numpy adds in blocks and pairs,
in an order that depends on the length; all orders are allowed here. -/
inductive SumRuns (rnd : ℚ → ℚ) : List ℚ → ℚ → Prop
  | nil : SumRuns rnd [] 0
  | one (x : ℚ) : SumRuns rnd [x] x
  | add {l a b : List ℚ} {s t : ℚ} : l.Perm (a ++ b) → SumRuns rnd a s → SumRuns rnd b t → SumRuns rnd l (rnd (s + t))

/-- `weights /= np.sum(weights)` (_coadd_slices.py:546) and `np.atleast_1d(weights) / np.sum(weights)` (line 628). -/
def NormRuns (rnd : ℚ → ℚ) (l l' : List ℚ) : Prop := ∃ s, SumRuns rnd l s ∧ l' = l.map fun w => rnd (w / s)

/-- The weights from `_build_coadd_weight` to the loop: normalised at the end of `_build_slice_inputs`
(_coadd_slices.py:544-546) and again at the start of `_coadd_slice_inputs` (line 628). -/
def WeightRuns (rnd : ℚ → ℚ) (l l'' : List ℚ) : Prop := ∃ l', NormRuns rnd l l' ∧ NormRuns rnd l' l''

/-- One pixel of `image += (resampled_data['image'] * weight)` over the loop (_coadd_slices.py:652-693; the same for
the noise images, the interpolated fraction and the PSF): the product is rounded by `rp`, the sum by `ra`, and the
result is stored in the type of the image by `rs`. -/
def coaddPixelD (rp ra rs : ℚ → ℚ) (acc : ℚ) : List (ℚ × ℚ) → ℚ
  | [] => acc
  | (x, w) :: l => coaddPixelD rp ra rs (rs (ra (acc + rp (x * w)))) l

/-- `np.clip(np.abs(v), 0.0, 1.0)` (_coadd_slices.py:685-686), which needs no rounding. -/
def clipFracD (v : ℚ) : ℚ := min (max |v| 0) 1

/-- One pixel of `interp_se_frac` (_coadd_slices.py:685-687), from the resampled fraction and the weight of each
epoch. -/
def interpFracD (rp ra rs : ℚ → ℚ) (l : List (ℚ × ℚ)) : ℚ :=
  coaddPixelD rp ra rs 0 (l.map fun e => (clipFracD e.1, e.2))

end Pizza
