import Verif.Model.Double
import Verif.Model.Locate

/-!
The pixel geometry of `slice_utils/locate.py`, `_se_image.py`, `_pizza_cutter.py` and `_sky_bounds.py` in floating
point arithmetic: the same functions as in `Model/Locate.lean` and `Model/SEGeom.lean`, with every operation on
floating point numbers rounded by `rnd`.  Python integers are exact.
-/

namespace Pizza

/-- locate.py:4-49 `build_slice_locations`.  `(central_size - 1) / 2.0` and the quotient of the two integers are
rounded (lines 34-36); the integer array is converted and `cen_offset` added (line 42); two differences
(lines 46-47). -/
def buildSliceLocationsD (rnd : ℚ → ℚ) (central buffer width : ℤ) : Except Err (List SliceLoc) :=
  if central = 0 then .error .zeroDivision
  else
    let cenOffset : ℚ := rnd (((central - 1 : ℤ) : ℚ) / 2)
    let nobj : ℚ := rnd (((width - 2 * buffer : ℤ) : ℚ) / (central : ℚ))
    if ((truncQ nobj : ℤ) : ℚ) ≠ nobj then .error .valueError
    else
      let n := truncQ nobj
      let loc : List ℚ :=
        (List.range n.toNat).map fun (i : Nat) => rnd (rnd (((i : ℤ) * central + buffer : ℤ) : ℚ) + cenOffset)
      .ok (loc.flatMap fun r => loc.map fun c =>
        ⟨r, c, rnd (rnd (r - buffer) - cenOffset), rnd (rnd (c - buffer) - cenOffset)⟩)

/-- The nearest pixel, `np.floor(x + 0.5)` (_se_image.py:994-995,1038-1039,1361-1362, _pizza_cutter.py:279-280). -/
def nearestPixelD (rnd : ℚ → ℚ) (x : ℚ) : ℤ := ⌊rnd (x + 1 / 2)⌋

/-- _se_image.py:1038-1039 `x - np.floor(x+0.5)`. -/
def psfSubPixelD (rnd : ℚ → ℚ) (x : ℚ) : ℚ := rnd (x - nearestPixelD rnd x)

/-- _se_image.py:1209-1211 the size of the SE box. -/
def buffBoxSizeD (rnd : ℚ → ℚ) (boxSize : ℤ) (fracBuffer : ℚ) : ℤ :=
  let b := truncQ (rnd (fracBuffer * boxSize))
  if b % 2 ≠ boxSize % 2 then b + 1 else b

/-- _se_image.py:1185-1223 `compute_slice_bounds`. -/
def computeSliceBoundsD (rnd : ℚ → ℚ) (col row : ℚ) (boxSize : ℤ) (fracBuffer : ℚ) : Bounds ℤ :=
  let b := buffBoxSizeD rnd boxSize fracBuffer
  let cen : ℚ := rnd (((b - 1 : ℤ) : ℚ) / 2)
  let startRow := ⌊rnd (rnd (row - cen) + 1 / 2)⌋
  let startCol := ⌊rnd (rnd (col - cen) + 1 / 2)⌋
  ⟨startRow, startRow + b - 1, startCol, startCol + b - 1⟩

/-- _se_image.py:987-1005 `_compute_psf_stamp_bounds`: returns `(xmin, ymin)`. -/
def psfStampBoundsD (rnd : ℚ → ℚ) (x y : ℚ) (dim : ℤ) : Except Err (ℤ × ℤ) :=
  let half : ℚ := rnd (((dim - 1 : ℤ) : ℚ) / 2)
  let xCen : ℤ := nearestPixelD rnd x
  let yCen : ℤ := nearestPixelD rnd y
  if rnd ((yCen : ℚ) - half) ≠ (truncQ (rnd ((yCen : ℚ) - half)) : ℚ) then .error .assertionError
  else if rnd ((xCen : ℚ) - half) ≠ (truncQ (rnd ((xCen : ℚ) - half)) : ℚ) then .error .assertionError
  else .ok (truncQ (rnd ((xCen : ℚ) - half)), truncQ (rnd ((yCen : ℚ) - half)))

/-- _pizza_cutter.py:273-293 `_build_coadd_psf_layout`; the position offset is an integer. -/
def coaddPsfLayoutD (rnd : ℚ → ℚ) (fwd inv : ℚ → ℚ → ℚ × ℚ) (ra dec : ℚ) (boxSize offset : ℤ) :
    Except Err PsfLayout :=
  let cr := inv ra dec
  let col : ℤ := nearestPixelD rnd cr.1
  let row : ℤ := nearestPixelD rnd cr.2
  let sky := fwd col row
  let half : ℚ := rnd (((boxSize - 1 : ℤ) : ℚ) / 2)
  if ((truncQ half : ℤ) : ℚ) ≠ half then .error .assertionError
  else .ok ⟨sky.1, sky.2, rnd (((row - offset : ℤ) : ℚ) - half), rnd (((col - offset : ℤ) : ℚ) - half)⟩

/-- _sky_bounds.py:61-62 `np.arange(n+1)*(dim-1.0)/n`. -/
def gridAxisD (rnd : ℚ → ℚ) (n dim : Nat) : List ℚ :=
  (List.range (n + 1)).map fun (i : Nat) => rnd (rnd ((i : ℚ) * rnd ((dim : ℚ) - 1)) / (n : ℚ))

end Pizza
