import Verif.Model.SEGeom
import Verif.Model.Lanczos
import Verif.Model.Symmetrize
import Verif.Model.Interp
import Verif.Model.Constants

/-!
The mutable `SEImageSlice` object: setting the slice, the PSF and the interpolated data, and
resampling.  Models pizza_cutter/des_pizza_cutter/_se_image.py:332-364, 661-724, 1007-1153,
1225-1751.

Numbers are rationals.  A division by a zero total or a zero pixel area gives inf/nan in numpy;
here it gives 0, so statements about those cases are not meaningful and carry a hypothesis.
Positions returned by the WCS interpolators can be NaN (outside their convex hull): `none`.
-/

namespace Pizza

/-! ### the object -/

/-- The attributes of an `SEImageSlice` that are set after construction; `none`: not set. -/
structure SEObj where
  xStart : Option ℤ := none
  yStart : Option ℤ := none
  boxSize : Option ℤ := none
  image : Option (Img ℚ) := none
  bmask : Option (Img (BitVec 32)) := none
  weight : Option (Img ℚ) := none
  noises : Option (List (Img ℚ)) := none
  psf : Option (Img ℚ) := none
  psfXStart : Option ℤ := none
  psfYStart : Option ℤ := none
  psfBoxSize : Option Nat := none
  interpFrac : Option (Img ℚ) := none
  origImage : Option (Img ℚ) := none
  interpOnlyImage : Option (Img ℚ) := none
  pmask : Option (Img (BitVec 32)) := none

/-- Reading an attribute that was never set raises AttributeError. -/
def attr {α : Type} : Option α → Except Err α
  | some v => .ok v
  | none => .error .attributeError

/-- The files of one SE image as the reads of `set_slice` find them; each read can fail.
`bmask` is the array as sliced at line 697, that is after the tape-bump masking of
`Model/SliceMask.lean` if that is configured. -/
structure SEReads where
  image : Except Err (Img ℚ)
  bkg : Except Err (Img ℚ)
  bmask : Except Err (Img (BitVec 32))
  weight : Except Err (Img ℚ)
  noises : Except Err (List (Img ℚ))

/-- `set_slice` (_se_image.py:661-724) as a state change: attributes assigned before a failing
read stay assigned.  The result is the error raised, if any.  Simplified: images of different
shapes are refused although numpy would broadcast a side of length 1. -/
def SEObj.setSlice (o : SEObj) (f : SEReads) (scale : ℚ) (b : Bounds ℤ) : SEObj × Option Err :=
  let xStart := b.colmin
  let yStart := b.rowmin
  let box := b.colmax - b.colmin + 1
  if box ≠ b.rowmax - b.rowmin + 1 then (o, some .assertionError)
  else
    let o := { o with xStart := some xStart, yStart := some yStart, boxSize := some box }
    match f.image with
    | .error e => (o, some e)
    | .ok im =>
    match f.bkg with
    | .error e => (o, some e)
    | .ok bkg =>
    if im.nrow ≠ bkg.nrow ∨ im.ncol ≠ bkg.ncol then (o, some .valueError)
    else
      let d : Img ℚ := ⟨im.nrow, im.ncol, fun r c => im.px r c - bkg.px r c⟩
      let o := { o with image := some ((d.slice yStart (yStart + box) xStart (xStart + box)).map (· * scale)) }
      match f.bmask with
      | .error e => (o, some e)
      | .ok bm =>
      let o := { o with bmask := some (bm.slice yStart (yStart + box) xStart (xStart + box)) }
      match f.weight with
      | .error e => (o, some e)
      | .ok w =>
      let o := { o with weight := some ((w.slice yStart (yStart + box) xStart (xStart + box)).map (· / scale ^ 2)) }
      match f.noises with
      | .error e => (o, some e)
      | .ok ns =>
        ({ o with noises := some (ns.map fun n => n.slice yStart (yStart + box) xStart (xStart + box)) }, none)

/-! ### PSF drawing -/

/-- The PSF models that are told apart (_se_image.py:1041,1081,1101,1144). -/
inductive PsfKind where
  | galsim
  | psfex
  | piff
  | other
  deriving DecidableEq

/-- `_galsim_psf_dim` (_se_image.py:1047-1056): kept from the first call, else computed from the
size `setup` of a first image: made odd, times 5. -/
def galsimDim (cached : Option Nat) (setup : Nat) : Nat :=
  match cached with
  | some d => d
  | none => (if setup % 2 = 0 then setup + 1 else setup) * 5

/-- The side of the stamp that is requested from the PSF library (_se_image.py:1047-1056,
1096-1098,1103-1109, `PIFF_STAMP_SIZE` line 43); an unknown model raises ValueError (line 1145). -/
def requestedDim (kind : PsfKind) (cached : Option Nat) (setup : Nat) : Except Err Nat :=
  match kind with
  | .galsim => .ok (galsimDim cached setup)
  | .psfex => .ok 33
  | .piff => .ok 25
  | .other => .error .valueError

/-- `np.sum(im)`. -/
def Img.total (im : Img ℚ) : ℚ := ∑ r ∈ Finset.range im.nrow, ∑ c ∈ Finset.range im.ncol, im.px r c

/-- The common end of `get_psf_image` (_se_image.py:1147-1153). -/
def finishPsf (drawn : Img ℚ) : Except Err (Img ℚ) :=
  let psf := drawn.map (· / drawn.total)
  if psf.nrow ≠ psf.ncol then .error .assertionError
  else if psf.nrow % 2 ≠ 1 then .error .assertionError
  else .ok psf

/-- `get_psf_image` (_se_image.py:1007-1153).  `draw d` is the external drawing call with
requested side `d` (for Piff it includes the checks of the WCS type, lines 1117-1131). -/
def getPsfImage (kind : PsfKind) (cached : Option Nat) (setup : Nat)
    (draw : Nat → Except Err (Img ℚ)) : Except Err (Img ℚ) := do
  let d ← requestedDim kind cached setup
  let drawn ← draw d
  finishPsf drawn

/-- `set_psf` (_se_image.py:1225-1283) as a state change; `(x, y)` is `sky2image(ra, dec)`,
`flag` the outcome of the check of the Piff model (False when not configured) and `psf` the
outcome of `get_psf_image`. -/
def SEObj.setPsf (o : SEObj) (x y : ℚ) (flag : Except Err Bool) (psf : Except Err (Img ℚ)) :
    SEObj × Except Err Bool :=
  match flag with
  | .error e => (o, .error e)
  | .ok flag =>
  match psf with
  | .error e => (o, .error e)
  | .ok psf =>
  match psfStampBounds x y psf.nrow with
  | .error e => (o, .error e)
  | .ok (xmin, ymin) =>
    ({ o with psf := some psf, psfXStart := some xmin, psfYStart := some ymin,
              psfBoxSize := some psf.nrow }, .ok flag)

/-- `~np.isfinite(v)` (_se_image.py:358). -/
def Flt.notFinite : Flt → Bool
  | .fin _ => false
  | _ => true

/-- The number, if it is one. -/
def Flt.fin? : Flt → Option ℚ
  | .fin q => some q
  | _ => none

/-- `_compute_bad_piff_model_delta_flag` after the grid `res` has been measured
(_se_image.py:354-364).  With a non-finite value the first operand of `or` decides; without
values `np.nanmax` raises ValueError. -/
def badPiffFlag (res : List Flt) (maxDiff : ℚ) : Except Err Bool :=
  let hasNans := res.any Flt.notFinite
  let fins := res.filterMap Flt.fin?
  if res = [] then .error .valueError
  else if hasNans then .ok true
  else do
    let m := median fins
    let d ← qmax? (fins.map fun q => |q - m|)
    pure (decide (d > maxDiff))

/-! ### interpolated data -/

/-- `set_interp_image_noise_pmask` (_se_image.py:1285-1308). -/
def SEObj.setInterp (o : SEObj) (interpImage : Img ℚ) (interpNoises : List (Img ℚ))
    (mask : Img (BitVec 32)) : SEObj × Option Err :=
  match o.image with
  | none => (o, some .attributeError)
  | some image =>
    if mask.nrow ≠ image.nrow ∨ mask.ncol ≠ image.ncol then
      ({ o with interpFrac := some ⟨image.nrow, image.ncol, fun _ _ => 0⟩ }, some .indexError)
    else if mask.nrow ≠ interpImage.nrow ∨ mask.ncol ≠ interpImage.ncol then
      ({ o with
          interpFrac := some ⟨image.nrow, image.ncol, fun r c => if mask.px r c ≠ 0 then 1 else 0⟩
          origImage := some image
          interpOnlyImage := some interpImage }, some .indexError)
    else
      ({ o with
          interpFrac := some ⟨image.nrow, image.ncol, fun r c => if mask.px r c ≠ 0 then 1 else 0⟩
          origImage := some image
          interpOnlyImage := some ⟨interpImage.nrow, interpImage.ncol, fun r c =>
            if mask.px r c ≠ 0 then interpImage.px r c else 0⟩
          image := some interpImage
          noises := some interpNoises
          pmask := some mask }, none)

/-! ### mapping an image to the slice -/

/-- `np.floor(v + 0.5).astype(np.int64)` (_se_image.py:1361-1362): NaN becomes the smallest
64-bit integer. -/
def roundInt64 : Option ℚ → ℤ
  | some v => ⌊v + 1/2⌋
  | none => -2 ^ 63

/-- `map_image_by_nearest_pixel` (_se_image.py:1310-1373); `inv x y` is the interpolated
position in the input image of the SE position `(x, y)`. -/
def SEObj.mapImage {α : Type} (o : SEObj) (zero : α) (image : Img α) (xStart yStart : ℤ)
    (inv : ℚ → ℚ → Option (ℚ × ℚ)) : Except Err (Img α) :=
  match o.boxSize with
  | none => .error .runtimeError
  | some box => do
    let sx ← attr o.xStart
    let sy ← attr o.yStart
    pure ⟨box.toNat, box.toNat, fun r c =>
      let p := inv ((c : ℚ) + sx) ((r : ℚ) + sy)
      let x := roundInt64 (p.map fun q => q.1 - xStart)
      let y := roundInt64 (p.map fun q => q.2 - yStart)
      if 0 ≤ x ∧ x < image.ncol ∧ 0 ≤ y ∧ y < image.nrow then image.px y.toNat x.toNat else zero⟩

/-! ### resampling -/

/-- `lanczos_resample` with kernel size 3 at positions that may be NaN.  For NaN the compiled
`int(np.floor(x))` is the smallest 64-bit integer, so that `x_f < 0` (edge) and the loop ranges
are empty (value 0).  See pizza_cutter/coadding/_lanczos.py:48-87. -/
def lanczosNan (im : Img ℚ) (pos : List (Option (ℚ × ℚ))) : Except Err (List (ℚ × Bool)) :=
  pos.mapM fun p => match p with
    | none => .ok (0, true)
    | some (y, x) => lanczosOne im 3 y x

/-- `lanczos_resample_two`, likewise. -/
def lanczosNan2 (im1 im2 : Img ℚ) (pos : List (Option (ℚ × ℚ))) :
    Except Err (List (ℚ × ℚ × Bool)) :=
  pos.mapM fun p => match p with
    | none => .ok (0, 0, true)
    | some (y, x) => lanczosOne2 im1 im2 3 y x

/-- A function on the pixels of an `n` by `n` grid in row-major order (`np.mgrid` and
`ravel()`, _se_image.py:1507-1509,1520-1522,1716-1718,1722-1724). -/
def gridList {α : Type} (n : Nat) (f : Nat → Nat → α) : List α :=
  (List.range n).flatMap fun r => (List.range n).map fun c => f r c

/-- `a.reshape(n, n)` of a 1-d array. -/
def reshape {α : Type} [Inhabited α] (n : Nat) (l : List α) : Img α :=
  ⟨n, n, fun r c => l.getD (r * n + c) default⟩

/-- `a / area.reshape(box, box)` (_se_image.py:1526,1535,1543-1544,1733): the shapes must agree. -/
def divArea (a : Img ℚ) (area : Nat → Nat → ℚ) (box : Nat) : Except Err (Img ℚ) :=
  if a.nrow = box ∧ a.ncol = box then .ok ⟨box, box, fun r c => a.px r c / area r c⟩
  else .error .valueError

/-- `(v + 0.5).astype(np.int64)` (_se_image.py:1573-1574): truncation toward zero; NaN becomes the
smallest 64-bit integer. -/
def truncInt64 : Option ℚ → ℤ
  | some v => truncQ (v + 1/2)
  | none => -2 ^ 63

/-- The WCS lookups built and cached before resampling (_se_image.py:1453-1488): the SE position
of a coadd position and the pixel areas. -/
structure Lookups where
  toSe : ℚ → ℚ → Option (ℚ × ℚ)
  areaSe : ℚ → ℚ → ℚ
  areaCoadd : ℚ → ℚ → ℚ

/-- The local SE position `(y, x)` of pixel `(r, c)` of the destination grid
(_se_image.py:1507-1518, 1716-1731); `none`: NaN. -/
def localPos (w : Lookups) (xStart yStart sx sy : ℚ) (r c : Nat) : Option (ℚ × ℚ) :=
  (w.toSe ((c : ℚ) + xStart) ((r : ℚ) + yStart)).map fun q => (q.2 - sy, q.1 - sx)

/-- `rs *= area_coadd; rs.reshape(n, n)` (_se_image.py:1530,1539,1548-1549,1556-1559,1738-1739). -/
def timesArea (n : Nat) (v : List ℚ) (area : List ℚ) : Img ℚ := reshape n (List.zipWith (· * ·) v area)

/-- `resample_psf` (_se_image.py:1593-1751). -/
def SEObj.resamplePsf (o : SEObj) (w : Lookups) (psfXStart psfYStart : ℚ) (psfBox : Nat)
    (dx dy : ℚ) : Except Err (Img ℚ) :=
  match o.psfBoxSize with
  | none => .error .runtimeError
  | some box => do
    let psf ← attr o.psf
    let sx ← attr o.psfXStart
    let sy ← attr o.psfYStart
    let pos := gridList psfBox fun r c =>
      (localPos w psfXStart psfYStart sx sy r c).map fun q => (q.1 + dy, q.2 + dx)
    let areaCoadd := gridList psfBox fun r c => w.areaCoadd ((c : ℚ) + psfXStart) ((r : ℚ) + psfYStart)
    let im ← divArea psf (fun r c => w.areaSe ((c : ℚ) + sx) ((r : ℚ) + sy)) box
    let rs ← lanczosNan im pos
    let out := timesArea psfBox (rs.map fun v => if v.2 then 0 else v.1) areaCoadd
    pure (out.map (· / out.total))

/-- One image resampled with `lanczos_resample` (_se_image.py:1525-1530, 1533-1539). -/
def resampleOne (a : Img ℚ) (areaSe : Nat → Nat → ℚ) (selfBox : Nat) (pos : List (Option (ℚ × ℚ)))
    (areaCoadd : List ℚ) (box : Nat) : Except Err (Img ℚ × Img Bool) := do
  let a ← divArea a areaSe selfBox
  let rs ← lanczosNan a pos
  pure (timesArea box (rs.map Prod.fst) areaCoadd, reshape box (rs.map Prod.snd))

/-- Whether the truncated nearest pixel is inside an array (_se_image.py:1575-1577). -/
def nearIn (p : Option (ℚ × ℚ)) (nrow ncol : Nat) : Bool :=
  let y := truncInt64 (p.map Prod.fst)
  let x := truncInt64 (p.map Prod.snd)
  decide (0 ≤ y ∧ y < nrow ∧ 0 ≤ x ∧ x < ncol)

/-- The mask value at the truncated nearest pixel, else `BMASK_EDGE` (_se_image.py:1578-1580,
1584-1587): `nrow`, `ncol` is the shape of the mask that decides what is inside (`bmask`). -/
def nearVal (a : Img (BitVec 32)) (p : Option (ℚ × ℚ)) (nrow ncol : Nat) : BitVec 32 :=
  if nearIn p nrow ncol then
    a.px (truncInt64 (p.map Prod.fst)).toNat (truncInt64 (p.map Prod.snd)).toNat
  else BMASK_EDGE

/-- The dictionary returned by `resample` (_se_image.py:1491-1591). -/
structure Resampling where
  psf : Img ℚ
  image : Img ℚ
  noises : List (Img ℚ)
  interpOnlyImage : Img ℚ
  interpFrac : Img ℚ
  edge : Img Bool
  bmask : Img (BitVec 32)
  pmask : Img (BitVec 32)

/-- The part of `resample` after the checks (_se_image.py:1453-1591); `selfBox` is
`self.box_size`.  Reading `pmask` outside its shape raises IndexError (line 1585). -/
def SEObj.resampleGo (o : SEObj) (w : Lookups) (xStart yStart : ℚ) (box : Nat)
    (psfXStart psfYStart : ℚ) (psfBox : Nat) (selfBox : Nat) (selfPmask : Img (BitVec 32)) :
    Except Err Resampling := do
  let psf ← o.resamplePsf w psfXStart psfYStart psfBox 0 0
  let sx ← attr o.xStart
  let sy ← attr o.yStart
  let pos := gridList box (localPos w xStart yStart sx sy)
  let areaCoadd := gridList box fun r c => w.areaCoadd ((c : ℚ) + xStart) ((r : ℚ) + yStart)
  let areaSe : Nat → Nat → ℚ := fun r c => w.areaSe ((c : ℚ) + sx) ((r : ℚ) + sy)
  let image ← attr o.image
  let rim ← resampleOne image areaSe selfBox pos areaCoadd box
  let noises ← attr o.noises
  let rns ← noises.mapM fun n => resampleOne n areaSe selfBox pos areaCoadd box
  let iom ← attr o.interpOnlyImage
  let iom ← divArea iom areaSe selfBox
  let frac ← attr o.interpFrac
  let frac ← divArea frac areaSe selfBox
  let two ← lanczosNan2 iom frac pos
  let bm ← attr o.bmask
  if anyPix box box fun r c => nearIn (localPos w xStart yStart sx sy r c) bm.nrow bm.ncol &&
      !nearIn (localPos w xStart yStart sx sy r c) selfPmask.nrow selfPmask.ncol then
    .error .indexError
  else
    pure {
      psf := psf
      image := rim.1
      noises := rns.map Prod.fst
      interpOnlyImage := timesArea box (two.map fun v => v.1) areaCoadd
      interpFrac := timesArea box (two.map fun v => v.2.1) areaCoadd
      edge := rim.2
      bmask := ⟨box, box, fun r c => nearVal bm (localPos w xStart yStart sx sy r c) bm.nrow bm.ncol⟩
      pmask := ⟨box, box, fun r c =>
        let v := nearVal selfPmask (localPos w xStart yStart sx sy r c) bm.nrow bm.ncol
        if rim.2.px r c then v ||| BMASK_RESAMPLE_BOUNDS else v⟩ }

/-- `resample` (_se_image.py:1375-1591). -/
def SEObj.resample (o : SEObj) (w : Lookups) (xStart yStart : ℚ) (box : Nat)
    (psfXStart psfYStart : ℚ) (psfBox : Nat) : Except Err Resampling :=
  match o.boxSize with
  | none => .error .runtimeError
  | some selfBox =>
  match o.psfBoxSize with
  | none => .error .runtimeError
  | some _ =>
  match o.pmask with
  | none => .error .runtimeError
  | some selfPmask =>
    o.resampleGo w xStart yStart box psfXStart psfYStart psfBox selfBox.toNat selfPmask

end Pizza
