import Verif.Spec.PsfMoments
import Verif.Spec.OneSky

/-! Vocabulary for the fluxes and positions of sources on the coadd. -/

namespace Pizza

variable {A σ S P : Type}

/-- The SE image of the epoch has the pixels of the coadd displaced by `(a, b)`; as far as the slice and its kernel reach it has no
defects and shows, on the common zero point and without its background, nothing but what is on the stamp, which starts at
the pixel `(sx, sy)` of the SE image. -/
def ShowsSource (cfg : BuildCfg A) (row : ObjRow) (box : Nat) (e : Epoch) (stamp : Img ℚ) (sx sy : ℤ) (a b : ℚ) : Prop :=
  ∃ (w : Lookups) (im bkg : Img ℚ), e.src.lookups = .ok w ∧ e.src.reads.image = .ok im ∧ e.src.reads.bkg = .ok bkg ∧
    Displaced row.origStartCol row.origStartRow box w stamp sx sy a b ∧
    ∀ i j : ℤ, row.origStartRow + b - 3 < i → i < row.origStartRow + b + box + 3 →
      row.origStartCol + a - 3 < j → j < row.origStartCol + a + box + 3 →
      GoodPixel cfg e i j ∧ calibrated e.src im bkg i.toNat j.toNat = stampValue stamp sx sy i j

/-- Likewise for the files of an SE image, with the pixels that they have on disk. -/
def FileSource (w : ProcWorld A σ S P) (t : Tile A S P) (row : ObjRow) (box : Nat) (e : Entry P) (stamp : Img ℚ) (sx sy : ℤ)
    (a b : ℚ) : Prop :=
  ∃ (lk : Lookups) (nrow ncol : Nat) (im bkg : Arr), MapsTo w t e lk nrow ncol ∧ w.original e.image = .ok im ∧
    w.original e.bkg = .ok bkg ∧ Displaced row.origStartCol row.origStartRow box lk stamp sx sy a b ∧
    ∀ i j : ℤ, row.origStartRow + b - 3 < i → i < row.origStartRow + b + box + 3 →
      row.origStartCol + a - 3 < j → j < row.origStartCol + a + box + 3 →
      (0 ≤ i ∧ i < nrow) ∧ (0 ≤ j ∧ j < ncol) ∧
        (im.asNum.px i.toNat j.toNat - bkg.asNum.px i.toNat j.toNat) * w.zpScale e.magzp = stampValue stamp sx sy i j

/-- The source that an SE image shows has the moment `M`, in the coordinates of the coadd, and `B` bounds the sum over it of 1.15
per cent of the function, 2.2 per cent of its change per pixel and a two-thousandth of its curvature. -/
def SourceMoment (m : Moment) (shows : Img ℚ → ℤ → ℤ → ℚ → ℚ → Prop) (M B : ℚ) : Prop :=
  ∃ (stamp : Img ℚ) (sx sy : ℤ) (a b : ℚ), shows stamp sx sy a b ∧
    M = imageMoment m (sx - a) (sy - b) stamp.nrow stamp.ncol stamp.px ∧
    (∑ i ∈ Finset.range stamp.nrow, ∑ j ∈ Finset.range stamp.ncol, |stamp.px i j| *
      (0.0115 * |m.at (j + (sx - a)) (i + (sy - b))| + 0.022 * m.slope (j + (sx - a)) (i + (sy - b)) +
        0.0005 * (|m.kxx| + |m.kxy| + |m.kyy|))) ≤ B

/-- The source that an SE image shows is not negative and has the flux `F`; along the direction `(α, β)`, in the coordinates of
the coadd, its centroid is at `ξ`, and the mean deviation from it is at most `D`. -/
def SourceAlong (shows : Img ℚ → ℤ → ℤ → ℚ → ℚ → Prop) (α β ξ F D : ℚ) : Prop :=
  ∃ (stamp : Img ℚ) (sx sy : ℤ) (a b : ℚ), shows stamp sx sy a b ∧
    (∀ i < stamp.nrow, ∀ j < stamp.ncol, 0 ≤ stamp.px i j) ∧
    (∑ i ∈ Finset.range stamp.nrow, ∑ j ∈ Finset.range stamp.ncol, stamp.px i j) = F ∧
    (∑ i ∈ Finset.range stamp.nrow, ∑ j ∈ Finset.range stamp.ncol,
      stamp.px i j * (α * (j + (sx - a)) + β * (i + (sy - b)))) = F * ξ ∧
    (∑ i ∈ Finset.range stamp.nrow, ∑ j ∈ Finset.range stamp.ncol,
      stamp.px i j * |α * (j + (sx - a)) + β * (i + (sy - b)) - ξ|) ≤ F * D

end Pizza
