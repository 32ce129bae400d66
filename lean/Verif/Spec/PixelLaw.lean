import Verif.Spec.Slice
import Verif.Spec.Lanczos

/-! Vocabulary for the value of a coadd pixel in terms of the pixels of the SE files.  Positions and pixels
are those of the SE file, not of the slice that is cut out of it. -/

namespace Pizza

variable {A σ S : Type}

/-- The Lanczos kernel of size 3 in one dimension, with `sinc` for the sinc function. -/
def lanczos3 (sinc : ℚ → ℚ) (t : ℚ) : ℚ := sinc t * sinc (t / 3)

open Classical in
/-- The Lanczos interpolation at `(x, y)` of an image of the given shape with pixels `f`. -/
noncomputable def kernelSum (sinc : ℚ → ℚ) (nrow ncol : Nat) (x y : ℚ) (f : Nat → Nat → ℚ) : ℚ :=
  ∑ r ∈ Finset.range nrow, ∑ c ∈ Finset.range ncol,
    if InKernel 3 y r ∧ InKernel 3 x c then f r c * (lanczos3 sinc (x - c) * lanczos3 sinc (y - r)) else 0

/-- The pixel of the SE image is in the window that was cut out for the epoch. -/
def InWindow (e : Epoch) (r c : ℤ) : Prop :=
  ∃ x0 y0 n, e.obj.xStart = some x0 ∧ e.obj.yStart = some y0 ∧ e.obj.boxSize = some n ∧
    y0 ≤ r ∧ r < y0 + n ∧ x0 ≤ c ∧ c < x0 + n

/-- The pixel of the SE image is in the window of the epoch, has a positive weight, and carries none of the
flags of pixels that are to be replaced. -/
def GoodPixel (cfg : BuildCfg A) (e : Epoch) (r c : ℤ) : Prop :=
  ∃ x0 y0 w b, e.obj.xStart = some x0 ∧ e.obj.yStart = some y0 ∧ e.obj.weight = some w ∧ e.obj.bmask = some b ∧
    ∃ i j : Nat, r = y0 + i ∧ c = x0 + j ∧ i < w.nrow ∧ j < w.ncol ∧ 0 < w.px i j ∧
      ¬ Carries (b.px i j) (cfg.splineFlags ||| cfg.noiseFlags)

/-- `seen` is what is resampled of an array with pixels `raw`: nothing outside of the window, and the array
itself at good pixels. -/
structure SeenPixels (cfg : BuildCfg A) (e : Epoch) (raw seen : Nat → Nat → ℚ) : Prop where
  outside : ∀ r c : Nat, ¬ InWindow e r c → seen r c = 0
  good : ∀ r c : Nat, GoodPixel cfg e r c → seen r c = raw r c

/-- The image after subtraction of the background, on the common zero point. -/
def calibrated (s : Src) (im bkg : Img ℚ) (r c : Nat) : ℚ := (im.px r c - bkg.px r c) * s.scale

/-- A value at `(x, y)` on the SE image, as flux in a coadd pixel at `(u, v)`: the interpolation of the flux
per area times the area of the coadd pixel. -/
noncomputable def fluxAt (sinc : ℚ → ℚ) (s : Src) (w : Lookups) (x y u v : ℚ) (f : Nat → Nat → ℚ) : ℚ :=
  w.areaCoadd u v * kernelSum sinc s.nrow s.ncol x y fun r c => f r c / w.areaSe c r

/-- What a used epoch contributes to the pixels of a slice. -/
def Contributes (sinc : ℚ → ℚ) (cfg : BuildCfg A) (row : ObjRow) (box : Nat) (e : Epoch) (d : EpochData) : Prop :=
  ∃ (w : Lookups) (im bkg : Img ℚ) (ns : List (Img ℚ)) (seen : Nat → Nat → ℚ) (seenN : Nat → Nat → Nat → ℚ),
    e.src.lookups = .ok w ∧ e.src.reads.image = .ok im ∧ e.src.reads.bkg = .ok bkg ∧
    e.src.reads.noises = .ok ns ∧ d.noises.length = ns.length ∧
    SeenPixels cfg e (calibrated e.src im bkg) seen ∧
    (∀ (k : Nat) a, ns[k]? = some a → SeenPixels cfg e a.px (seenN k)) ∧
    ∀ r < box, ∀ c < box, ∀ u v : ℚ, u = c + row.origStartCol → v = r + row.origStartRow →
      (w.toSe u v = none → d.image.px r c = 0 ∧ ∀ k < ns.length, noisePx k r c d = 0) ∧
      ∀ x y, w.toSe u v = some (x, y) →
        d.image.px r c = fluxAt sinc e.src w x y u v seen ∧
        ∀ k < ns.length, noisePx k r c d = fluxAt sinc e.src w x y u v (seenN k)

/-- `f` is the value of the pixel `(r, c)` of a slice in an epoch all of whose pixels in the kernel are good:
the calibrated pixels of the file, interpolated. -/
def CleanValue (sinc : ℚ → ℚ) (cfg : BuildCfg A) (row : ObjRow) (r c : Nat) (e : Epoch) (f : ℚ) : Prop :=
  ∃ (w : Lookups) (im bkg : Img ℚ) (x y : ℚ), e.src.lookups = .ok w ∧ e.src.reads.image = .ok im ∧
    e.src.reads.bkg = .ok bkg ∧ w.toSe (c + row.origStartCol) (r + row.origStartRow) = some (x, y) ∧
    (∀ i j : ℤ, y - 3 < i → i ≤ y + 3 → x - 3 < j → j ≤ x + 3 → GoodPixel cfg e i j) ∧
    f = fluxAt sinc e.src w x y (c + row.origStartCol) (r + row.origStartRow) (calibrated e.src im bkg)

/-- Likewise for the noise image number `k`, which is on the common zero point already. -/
def CleanNoise (sinc : ℚ → ℚ) (cfg : BuildCfg A) (row : ObjRow) (k r c : Nat) (e : Epoch) (f : ℚ) : Prop :=
  ∃ (w : Lookups) (ns : List (Img ℚ)) (a : Img ℚ) (x y : ℚ), e.src.lookups = .ok w ∧
    e.src.reads.noises = .ok ns ∧ ns[k]? = some a ∧
    w.toSe (c + row.origStartCol) (r + row.origStartRow) = some (x, y) ∧
    (∀ i j : ℤ, y - 3 < i → i ≤ y + 3 → x - 3 < j → j ≤ x + 3 → GoodPixel cfg e i j) ∧
    f = fluxAt sinc e.src w x y (c + row.origStartCol) (r + row.origStartRow) a.px

end Pizza
