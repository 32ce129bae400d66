import Verif.Model.Slice
import Verif.Model.Run
import Verif.Spec.BuildInputs
import Verif.Spec.Coadd
import Verif.Spec.Fits
import Verif.Spec.Gaia

/-! Vocabulary for the properties of a whole slice and of the files of a run. -/

namespace Pizza

variable {A σ S : Type}

/-- The standing assumptions on the inputs of a tile: all slices have the same box and an odd PSF box,
the SE images have the shape of their CCD and the configured number of noise images, PSF stamps are
square, and the external functions keep shapes and give positive widths. -/
structure SoundEnv (v : SliceEnv A σ S) (box psfBox : Nat) : Prop where
  boxPos : 1 ≤ box
  psfOdd : psfBox % 2 = 1
  rows : ∀ row ∈ v.objects, row.boxSize = box ∧ row.psfBoxSize = psfBox
  frac : 1 ≤ v.cfg.fracBuffer
  shape : ∀ ra dec raPsf decPsf, ∀ s ∈ v.sources ra dec raPsf decPsf, s.WellShaped
  noises : ∀ ra dec raPsf decPsf, ∀ s ∈ v.sources ra dec raPsf decPsf, ∀ l, s.reads.noises = .ok l →
    l.length = v.nExtra + 1
  psf : ∀ ra dec raPsf decPsf, ∀ s ∈ v.sources ra dec raPsf decPsf, ∀ im, s.psfImage = .ok im →
    im.ncol = im.nrow
  keeps : v.ext.KeepsShape
  fwhm : ∀ im w, v.ext.fwhm im = .ok w → 0 < w

/-- The star mask of a slice: none without a catalog or without a configuration; otherwise the mask drawn for
the bright stars of the catalog at their places relative to the corner of the slice. -/
inductive StarMask (v : SliceEnv A σ S) (row : ObjRow) : Option (Img Bool) → Prop
  | none : v.gaiaFile = Option.none ∨ v.gaiaCfg = Option.none → StarMask v row Option.none
  | some (cat g bright m mask) : v.gaiaFile = Option.some (.ok cat) → v.gaiaCfg = Option.some g →
      Bright g.maxMag cat bright →
      m = v.draw (bright.map fun b => circleFor v.inv v.offset v.pow10 v.f4 g.coeffs ⌊row.origStartCol⌋
        ⌊row.origStartRow⌋ b.1 b.2) row.boxSize.toNat g.symmetrize →
      mask.nrow = m.nrow → mask.ncol = m.ncol →
      (∀ r c, mask.px r c = true ↔ ∃ k < 32, (m.px r c).getLsbD k = true) → StarMask v row (Option.some mask)

/-- The configuration for a slice: its place, its size and its star mask, all else as configured. -/
structure SliceCfg (v : SliceEnv A σ S) (row : ObjRow) (gaia : Option (Img Bool)) (c : BuildCfg A) : Prop where
  box : c.boxSize = row.boxSize
  startRow : c.startRow = ⌊row.origStartRow⌋
  startCol : c.startCol = ⌊row.origStartCol⌋
  gaia : c.gaia = gaia
  rest : { c with boxSize := v.cfg.boxSize, startRow := v.cfg.startRow, startCol := v.cfg.startCol,
                  gaia := v.cfg.gaia } = v.cfg

/-- What an epoch contributes to a slice: its arrays resampled to the grid of the slice. -/
def SeenAs (row : ObjRow) (lay : PsfLayout) (e : Epoch) (d : EpochData) : Prop :=
  ∃ w out, e.src.lookups = .ok w ∧ e.obj.resample w row.origStartCol row.origStartRow row.boxSize.toNat
    lay.startCol lay.startRow row.psfBoxSize.toNat = .ok out ∧ d = out.toEpoch (decide (out.psf.total ≠ 0))

/-- The list is an image of side `n`, row by row, with the given pixels. -/
def RowMajor {α : Type} (n : Nat) (l : List α) (px : Nat → Nat → α → Prop) : Prop :=
  l.length = n * n ∧ ∀ r < n, ∀ c < n, ∃ x, l[r * n + c]? = some x ∧ px r c x

/-- `x` is the number of a mask that has a bit exactly if one of the masks has it. -/
def IsOrOf (ms : List (BitVec 32)) (x : Flt) : Prop :=
  ∃ m : BitVec 32, x = .fin m.toInt ∧ ∀ j, m.getLsbD j = true ↔ ∃ a ∈ ms, a.getLsbD j = true

/-- The pixel of the noise image `k` of an epoch. -/
def noisePx (k r c : Nat) (d : EpochData) : ℚ := (d.noises[k]?).elim 0 fun b => b.px r c

/-- The pixel entries of a slice are the combination of its epochs. -/
structure CombinationOf (box psfBox nExtra : Nat) (ps : List (EpochData × ℚ)) (p : SlicePix Flt) : Prop where
  image : RowMajor box p.image fun r c x => x = .fin (wMean ps fun d => d.image.px r c)
  mfrac : RowMajor box p.mfrac fun r c x =>
    x = .fin (wMean ps fun d => min |d.interpFrac.px r c| 1)
  psf : RowMajor psfBox p.psf fun r c x => x = .fin (wMean ps fun d => (d.psf.px r c).getD 0)
  bmask : RowMajor box p.bmask fun r c => IsOrOf (ps.map fun q => q.1.pmask.px r c)
  ormask : RowMajor box p.ormask fun r c => IsOrOf (ps.map fun q => q.1.bmask.px r c)
  noises : p.noises.length = nExtra + 1
  noise : ∀ k (_ : k < nExtra + 1), ∃ l, p.noises[k]? = some l ∧
    RowMajor box l fun r c x => x = .fin (wMean ps (noisePx k r c))
  weight : ∃ var, 0 ≤ var ∧ IsVariance box (fun r c => wMean ps (noisePx 0 r c)) var ∧
    RowMajor box p.weight fun _ _ x => x = if var = 0 then .posInf else .fin (1 / var)

/-- The conversion of pixel values to the type of an extension makes no number negative. -/
def PixelOps.KeepsSign (ops : PixelOps Flt) : Prop :=
  ∀ x : Flt, x.isNeg = false → ops.isNeg (ops.cast .f4 x) = false

end Pizza
