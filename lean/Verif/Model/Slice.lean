import Verif.Model.Coadd
import Verif.Model.EpochsInfo
import Verif.Model.Fits
import Verif.Model.Gaia
import Verif.Model.Locate

/-!
`_coadd_single_slice` (pizza_cutter/des_pizza_cutter/_pizza_cutter.py:296-414): everything that is done
for one slice, put together from the models of its parts.

The pixel arrays are handed on as lists in row-major order with float values; mask values are the
signed 32-bit integers.  Looking up entries of the configuration is not modelled.
-/

namespace Pizza

/-- `single_epoch_config["gaia_star_masks"]` (_pizza_cutter.py:321-329). -/
structure GaiaCfg (S : Type) where
  maxMag : ℚ
  coeffs : List ℚ
  symmetrize : S

/-- What `_coadd_single_slice` works with (_pizza_cutter.py:296-299): the external functions, the random
state of a seed, the coadd WCS (`fwd` is `image2sky`, `inv` is `sky2image`), the configuration (`cfg`;
its box, start and star mask are set per slice), the star catalog and its configuration, drawing of star
masks, the SE images as seen from `(ra, dec, ra_psf, dec_psf)`, the number of extra noise images and `object_data`. -/
structure SliceEnv (A σ S : Type) where
  ext : Ext A σ
  seeded : Nat → σ
  fwd : ℚ → ℚ → ℚ × ℚ
  inv : ℚ → ℚ → ℚ × ℚ
  offset : ℚ
  cfg : BuildCfg A
  gaiaFile : Option (Except Err (List CatStar))
  gaiaCfg : Option (GaiaCfg S)
  draw : List Circle → Nat → S → Img (BitVec 32)
  pow10 : ℚ → ℚ
  f4 : ℚ → ℚ
  sources : ℚ → ℚ → ℚ → ℚ → List Src
  nExtra : Nat
  objects : List ObjRow

variable {A σ S : Type}

/-- `object_data[...][i]`: IndexError beyond the end (_pizza_cutter.py:307). -/
def objRow (l : List ObjRow) (i : Nat) : Except Err ObjRow :=
  match l[i]? with
  | some r => .ok r
  | none => .error .indexError

/-- The star mask of a slice: only with a catalog and a configuration (_pizza_cutter.py:313-331).
`orig_start_row` and `orig_start_col` are whole numbers (C11). -/
def gaiaFor (v : SliceEnv A σ S) (row : ObjRow) : Except Err (Option (Img Bool)) :=
  match v.gaiaFile, v.gaiaCfg with
  | some file, some g => do
    let cat ← file
    pure (some (buildGaiaStarMask v.draw v.pow10 v.f4 (readGaiaStars v.inv v.offset cat) g.maxMag g.coeffs
      ⌊row.origStartCol⌋ ⌊row.origStartRow⌋ row.boxSize.toNat g.symmetrize))
  | _, _ => pure none

/-- The arguments of `_build_slice_inputs` for a slice (_pizza_cutter.py:333-366). -/
def cfgFor (v : SliceEnv A σ S) (row : ObjRow) (gaia : Option (Img Bool)) : BuildCfg A :=
  { v.cfg with boxSize := row.boxSize, startRow := ⌊row.origStartRow⌋, startCol := ⌊row.origStartCol⌋,
               gaia := gaia }

/-- The resampling of one epoch for a slice (_coadd_slices.py:658-671 with the arguments of
_pizza_cutter.py:386-400).  The PSF stamp is finite unless its total before the normalisation
was 0, in which case the model of `resample_psf` has total 0. -/
def resampleEpoch (row : ObjRow) (lay : PsfLayout) (e : Epoch) :
    Except Err EpochData := do
  let w ← e.src.lookups
  let r ← e.obj.resample w row.origStartCol row.origStartRow row.boxSize.toNat
    lay.startCol lay.startRow row.psfBoxSize.toNat
  pure (r.toEpoch (decide (r.psf.total ≠ 0)))

/-- A mask value as a number. -/
def maskFlt (b : BitVec 32) : Flt := .fin b.toInt

/-- The pixel entries of the result (_pizza_cutter.py:405-412). -/
def pixOf (co : Coadd) (sigma : ℚ) : SlicePix Flt where
  image := co.image.values.map .fin
  bmask := co.bmask.values.map maskFlt
  ormask := co.ormask.values.map maskFlt
  noises := co.noises.map fun a => a.values.map .fin
  psf := co.psf.values.map .fin
  weight := co.weight.values
  mfrac := co.interpFrac.values.map .fin
  psfSigma := sigma

/-- The end of the function, once the epochs are chosen (_pizza_cutter.py:368-414). -/
def coaddChosen (v : SliceEnv A σ S) (row : ObjRow) (lay : PsfLayout) (i : Nat) (inp : Inputs) :
    Except Err (SliceRes Flt EpochRow) := do
  let epochs ← makeEpochsInfo row.id inp.weights inp.slices inp.notUsed inp.flags
  if inp.weights.length > 0 then
    let co ← coaddSliceInputs row.boxSize.toNat row.psfBoxSize.toNat v.nExtra
      (inp.slices.map (resampleEpoch row lay)) inp.weights
    let sigma ← v.ext.fwhm co.psf
    pure ⟨i, epochs, inp.weights, some (pixOf co sigma)⟩
  else pure ⟨i, epochs, inp.weights, none⟩

/-- `_coadd_single_slice` (_pizza_cutter.py:296-414). -/
def coaddSingleSlice (v : SliceEnv A σ S) (i seed : Nat) : Except Err (SliceRes Flt EpochRow) := do
  let row ← objRow v.objects i
  let lay ← coaddPsfLayout v.fwd v.inv row.ra row.dec row.psfBoxSize v.offset
  let gaia ← gaiaFor v row
  let inp ← buildSliceInputs v.ext (cfgFor v row gaia)
    (v.sources row.ra row.dec lay.raPsf lay.decPsf) (v.seeded seed)
  coaddChosen v row lay i inp

end Pizza
