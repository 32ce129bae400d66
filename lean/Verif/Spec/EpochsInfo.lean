import Verif.Model.EpochsInfo
import Verif.Spec.BuildInputs

/-! Vocabulary for `epochs_info`. -/

namespace Pizza

/-- A row records the epoch: its image, the position and size of its patch and of its PSF stamp. -/
structure EpochRow.Records (r : EpochRow) (e : Epoch) : Prop where
  imageId : r.imageId = e.src.imageId
  row : e.obj.yStart = some r.rowStart
  col : e.obj.xStart = some r.colStart
  box : e.obj.boxSize = some r.boxSize
  psfRow : e.obj.psfYStart = some r.psfRowStart
  psfCol : e.obj.psfXStart = some r.psfColStart
  psfBox : ∃ n : Nat, e.obj.psfBoxSize = some n ∧ r.psfBoxSize = n

/-- The patch and the PSF stamp have been set. -/
def SEObj.Placed (o : SEObj) : Prop :=
  o.xStart ≠ none ∧ o.yStart ≠ none ∧ o.boxSize ≠ none ∧ o.psfXStart ≠ none ∧ o.psfYStart ≠ none ∧
  o.psfBoxSize ≠ none

/-- The patch of the source is the one asked for: a square of `sliceSide` pixels whose position rounds
to the sky position, and the PSF stamp is centred on the pixel nearest to the PSF position. -/
def PlacedAt {A : Type} (c : BuildCfg A) (s : Src) (o : SEObj) : Prop :=
  ∃ col row psf px py, s.pos = .ok (col, row) ∧
    o.xStart = some (computeSliceBounds col row c.boxSize c.fracBuffer).colmin ∧
    o.yStart = some (computeSliceBounds col row c.boxSize c.fracBuffer).rowmin ∧
    o.boxSize = some ((computeSliceBounds col row c.boxSize c.fracBuffer).colmax -
      (computeSliceBounds col row c.boxSize c.fracBuffer).colmin + 1) ∧
    s.psfImage = .ok psf ∧ psfStampBounds s.psfX s.psfY psf.nrow = .ok (px, py) ∧
    o.psfXStart = some px ∧ o.psfYStart = some py ∧ o.psfBoxSize = some psf.nrow

end Pizza
