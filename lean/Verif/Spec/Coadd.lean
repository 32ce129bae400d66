import Verif.Model.Coadd

/-! Vocabulary for the properties of the coadd. -/

namespace Pizza

/-- The weighted mean of the values `f` of some epochs (specification). -/
def wMean (ps : List (EpochData × ℚ)) (f : EpochData → ℚ) : ℚ :=
  (ps.map fun p => p.2 * f p.1).sum / (ps.map Prod.snd).sum

/-- The epoch has the expected shapes: images of side `box`, a PSF stamp of side `psfBox` and at
least `nNoise` noise fields, the first ones of side `box`. -/
def EpochData.Fits (box psfBox nNoise : Nat) (d : EpochData) : Prop :=
  (d.image.nrow = box ∧ d.image.ncol = box) ∧ (d.interpFrac.nrow = box ∧ d.interpFrac.ncol = box) ∧
  (d.psf.nrow = psfBox ∧ d.psf.ncol = psfBox) ∧ (d.bmask.nrow = box ∧ d.bmask.ncol = box) ∧
  (d.pmask.nrow = box ∧ d.pmask.ncol = box) ∧
  ∀ i < nNoise, ∃ a, d.noises[i]? = some a ∧ a.nrow = box ∧ a.ncol = box

/-- Population variance of a finite family of numbers (specification). -/
def IsVariance (box : Nat) (f : Nat → Nat → ℚ) (v : ℚ) : Prop :=
  ∃ m : ℚ, m * (box * box : Nat) = ∑ r ∈ Finset.range box, ∑ c ∈ Finset.range box, f r c ∧
    v * (box * box : Nat) = ∑ r ∈ Finset.range box, ∑ c ∈ Finset.range box, (f r c - m) ^ 2

end Pizza
