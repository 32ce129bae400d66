import Verif.Spec.PixelLaw
import Verif.Spec.SEObject

/-! Vocabulary for a star at the place of the PSF. -/

namespace Pizza

variable {A σ S : Type}

/-- The PSF of a source, with the first row and column of the SE image that its stamp covers: its central pixel is the one
nearest to the place of the PSF. -/
structure StampOf (s : Src) (psf : Img ℚ) (sx sy : ℤ) : Prop where
  image : s.psfImage = .ok psf
  x : NearestTo s.psfX (sx + ((psf.nrow : ℤ) - 1) / 2)
  y : NearestTo s.psfY (sy + ((psf.nrow : ℤ) - 1) / 2)

/-- The PSF in the pixel `(r, c)` of the SE image, nothing outside of the stamp. -/
def stampValue (psf : Img ℚ) (sx sy r c : ℤ) : ℚ :=
  if (sy ≤ r ∧ r < sy + psf.nrow) ∧ sx ≤ c ∧ c < sx + psf.ncol then psf.px (r - sy).toNat (c - sx).toNat else 0

/-- Around the place of the pixel `(r, c)` of the slice the epoch has no defects and shows, on the common zero point and
without its background, nothing but a star of flux `flux` at the place of the PSF. -/
def ShowsStar (cfg : BuildCfg A) (row : ObjRow) (flux : ℚ) (r c : Nat) (e : Epoch) : Prop :=
  ∃ (w : Lookups) (im bkg psf : Img ℚ) (sx sy : ℤ) (x y : ℚ), e.src.lookups = .ok w ∧ e.src.reads.image = .ok im ∧
    e.src.reads.bkg = .ok bkg ∧ StampOf e.src psf sx sy ∧
    w.toSe (c + row.origStartCol) (r + row.origStartRow) = some (x, y) ∧
    ∀ i j : ℤ, y - 3 < i → i ≤ y + 3 → x - 3 < j → j ≤ x + 3 →
      GoodPixel cfg e i j ∧ calibrated e.src im bkg i.toNat j.toNat = flux * stampValue psf sx sy i j

/-- The PSF as seen by the pixel at `(u, v)` of the coadd: interpolated like an image, and not normalised. -/
def SeenPsf (sinc : ℚ → ℚ) (w : Lookups) (psf : Img ℚ) (sx sy : ℤ) (u v q : ℚ) : Prop :=
  (w.toSe u v = none → q = 0) ∧ ∀ x y, w.toSe u v = some (x, y) →
    q = w.areaCoadd u v * kernelSum sinc psf.nrow psf.ncol (x - sx) (y - sy) fun i j =>
      psf.px i j / w.areaSe (j + sx) (i + sy)

/-- `t` is the total of the PSF of the epoch on the pixels of the coadd stamp: what is left of a flux of one. -/
def StampFlux (sinc : ℚ → ℚ) (lay : PsfLayout) (psfBox : Nat) (e : Epoch) (t : ℚ) : Prop :=
  ∃ (w : Lookups) (psf : Img ℚ) (sx sy : ℤ) (q : Nat → Nat → ℚ), e.src.lookups = .ok w ∧ StampOf e.src psf sx sy ∧
    (∀ r < psfBox, ∀ c < psfBox, SeenPsf sinc w psf sx sy (c + lay.startCol) (r + lay.startRow) (q r c)) ∧
    t = ∑ r ∈ Finset.range psfBox, ∑ c ∈ Finset.range psfBox, q r c

/-- On the `n` x `n` pixels of the coadd that start at `(x0, y0)` the SE image has the pixels of the coadd, displaced by `(a, b)`
and of the same area; and these pixels have a margin of three around a stamp that starts at the pixel `(sx, sy)` of the SE
image. -/
structure Displaced (x0 y0 : ℚ) (n : Nat) (w : Lookups) (stamp : Img ℚ) (sx sy : ℤ) (a b : ℚ) : Prop where
  toSe : ∀ r < n, ∀ c < n, w.toSe (c + x0) (r + y0) = some (c + x0 + a, r + y0 + b)
  area : ∃ area ≠ 0, (∀ i < stamp.nrow, ∀ j < stamp.ncol, w.areaSe (j + sx) (i + sy) = area) ∧
    ∀ r < n, ∀ c < n, w.areaCoadd (c + x0) (r + y0) = area
  left : x0 + a + 2 ≤ sx
  right : (sx : ℚ) + stamp.ncol + 2 < x0 + a + n
  bottom : y0 + b + 2 ≤ sy
  top : (sy : ℚ) + stamp.nrow + 2 < y0 + b + n

end Pizza
