import Verif.Model.DoubleCoadd

/-!
The scaling of an SE image to the common zero point, and the normalisation of a PSF image, in floating point arithmetic.
-/

namespace Pizza

/-- `(im - bkg) * scale` (_se_image.py:684-692), one pixel: both operations are rounded by `rnd` to the type of the image.
Numpy first converts the number `scale` to the type of the array, by `rc` (which rounds for a Python number and a
`float32` image, and does nothing if everything is in double precision). -/
def calImageD (rnd rc : ℚ → ℚ) (im bkg scale : ℚ) : ℚ := rnd (rnd (im - bkg) * rc scale)

/-- `wgt / scale**2` (_se_image.py:707-709; 102 for the noise images), one pixel: the square is rounded by `rd` to double
precision and converted by `rc` as above.  Simplified: `**2` rounds to nearest. -/
def calWeightD (rnd rc rd : ℚ → ℚ) (w scale : ℚ) : ℚ := rnd (w / rc (rd (scale * scale)))

/-- `psf_im /= np.sum(psf_im)` (_se_image.py:1147), for the pixels `l` of the image as drawn: `l'` is stored.  The order
of the sum is left open. -/
def PsfRuns (rnd : ℚ → ℚ) (l l' : List ℚ) : Prop := ∃ s, SumRuns rnd l s ∧ l' = l.map fun v => rnd (v / s)

end Pizza
