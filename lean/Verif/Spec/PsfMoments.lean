import Verif.Spec.PointSource

/-! Vocabulary for the moments of a PSF. -/

namespace Pizza

/-- A function of the position of at most second degree: what is averaged over the PSF for its total, its centroid and its
second moments. -/
structure Moment where
  k0 : ℚ
  kx : ℚ
  ky : ℚ
  kxx : ℚ
  kxy : ℚ
  kyy : ℚ

/-- The value at a position. -/
def Moment.at (m : Moment) (x y : ℚ) : ℚ :=
  m.k0 + m.kx * x + m.ky * y + m.kxx * x ^ 2 + m.kxy * (x * y) + m.kyy * y ^ 2

/-- The change per pixel at a position: the sum of the absolute values of the two derivatives. -/
def Moment.slope (m : Moment) (x y : ℚ) : ℚ := |m.kx + 2 * m.kxx * x + m.kxy * y| + |m.ky + 2 * m.kyy * y + m.kxy * x|

/-- The moment of an image whose first pixel is at `(x0, y0)`. -/
def imageMoment (m : Moment) (x0 y0 : ℚ) (nrow ncol : Nat) (f : Nat → Nat → ℚ) : ℚ :=
  ∑ i ∈ Finset.range nrow, ∑ j ∈ Finset.range ncol, f i j * m.at (j + x0) (i + y0)

/-- The PSF of the epoch is not negative and normalised, on an SE image with the pixels of the coadd displaced by some amount;
its moment, in the coordinates of the coadd, is `M`, and `B` bounds the mean over it of 1.17 per cent of the deviation from `M`, 2.23
per cent of the change per pixel and a thousandth of the curvature. -/
def EpochMoment (m : Moment) (lay : PsfLayout) (psfBox : Nat) (e : Epoch) (M B : ℚ) : Prop :=
  ∃ (w : Lookups) (psf : Img ℚ) (sx sy : ℤ) (a b : ℚ), e.src.lookups = .ok w ∧ StampOf e.src psf sx sy ∧
    Displaced lay.startCol lay.startRow psfBox w psf sx sy a b ∧
    (∀ i < psf.nrow, ∀ j < psf.ncol, 0 ≤ psf.px i j) ∧
    (∑ i ∈ Finset.range psf.nrow, ∑ j ∈ Finset.range psf.ncol, psf.px i j) = 1 ∧
    M = imageMoment m (sx - a) (sy - b) psf.nrow psf.ncol psf.px ∧
    (∑ i ∈ Finset.range psf.nrow, ∑ j ∈ Finset.range psf.ncol, psf.px i j *
      (0.0117 * |m.at (j + (sx - a)) (i + (sy - b)) - M| + 0.0223 * m.slope (j + (sx - a)) (i + (sy - b)) +
        0.001 * (|m.kxx| + |m.kxy| + |m.kyy|))) ≤ B

/-- The PSF of the epoch is not negative and normalised, on an SE image with the pixels of the coadd displaced by some amount;
along the direction `(α, β)`, in the coordinates of the coadd, its centroid is at `ξ`, the mean deviation from it is at most
`D` and the mean square deviation is `V`. -/
def PsfAlong (lay : PsfLayout) (psfBox : Nat) (α β ξ D V : ℚ) (e : Epoch) : Prop :=
  ∃ (w : Lookups) (psf : Img ℚ) (sx sy : ℤ) (a b : ℚ), e.src.lookups = .ok w ∧ StampOf e.src psf sx sy ∧
    Displaced lay.startCol lay.startRow psfBox w psf sx sy a b ∧
    (∀ i < psf.nrow, ∀ j < psf.ncol, 0 ≤ psf.px i j) ∧
    (∑ i ∈ Finset.range psf.nrow, ∑ j ∈ Finset.range psf.ncol, psf.px i j) = 1 ∧
    (∑ i ∈ Finset.range psf.nrow, ∑ j ∈ Finset.range psf.ncol,
      psf.px i j * (α * (j + (sx - a)) + β * (i + (sy - b)))) = ξ ∧
    (∑ i ∈ Finset.range psf.nrow, ∑ j ∈ Finset.range psf.ncol,
      psf.px i j * |α * (j + (sx - a)) + β * (i + (sy - b)) - ξ|) ≤ D ∧
    (∑ i ∈ Finset.range psf.nrow, ∑ j ∈ Finset.range psf.ncol,
      psf.px i j * (α * (j + (sx - a)) + β * (i + (sy - b)) - ξ) ^ 2) = V

end Pizza
