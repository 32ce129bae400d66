import Verif.Model.DoubleGeom
import Verif.Model.SEGeom

/-!
The rough cut on the sky of `_sky_bounds.py` and `_se_image.py` in floating point arithmetic, for a WCS that is not
celestial.
-/

namespace Pizza

/-- _sky_bounds.py:52-57 the numbers of grid cells, `np.ceil` of a rounded quotient. -/
def gridShapeD (rnd : ℚ → ℚ) (nrow ncol nGrid : Nat) : Nat × Nat :=
  if ncol < nrow then ((⌈rnd ((nrow : ℚ) / (ncol : ℚ))⌉).toNat, nGrid)
  else (nGrid, (⌈rnd ((ncol : ℚ) / (nrow : ℚ))⌉).toNat)

/-- _sky_bounds.py:61-66 the raveled meshgrid as (row, col) pairs. -/
def gridPointsD (rnd : ℚ → ℚ) (nrow ncol nGrid : Nat) : List (ℚ × ℚ) :=
  let g := gridShapeD rnd nrow ncol nGrid
  (gridAxisD rnd g.2 ncol).flatMap fun c => (gridAxisD rnd g.1 nrow).map fun r => (r, c)

/-- _sky_bounds.py:49-102 `get_rough_sky_bounds` with `celestial=False`.  `image2sky` is the WCS as it is computed. -/
def roughSkyBoundsD (rnd : ℚ → ℚ) (nrow ncol nGrid : Nat) (image2sky : ℚ → ℚ → ℚ × ℚ) (offset buffer : ℚ) :
    Except Err (Bounds ℚ × ℚ × ℚ) := do
  if nrow = 0 ∨ ncol = 0 ∨ nGrid = 0 then throw .zeroDivision
  let pts := gridPointsD rnd nrow ncol nGrid
  let sky := pts.map fun p => image2sky (rnd (p.2 + offset)) (rnd (p.1 + offset))
  let rowCcd := rnd (((nrow : ℚ) - 1) / 2)
  let colCcd := rnd (((ncol : ℚ) - 1) / 2)
  let ccd := image2sky (rnd (colCcd + offset)) (rnd (rowCcd + offset))
  let u := sky.map fun s => rnd (s.1 - ccd.1)
  let v := sky.map fun s => rnd (s.2 - ccd.2)
  let umin ← qmin? u
  let umax ← qmax? u
  let vmin ← qmin? v
  let vmax ← qmax? v
  return (⟨rnd (umin - buffer), rnd (umax + buffer), rnd (vmin - buffer), rnd (vmax + buffer)⟩, ccd.1, ccd.2)

/-- _se_image.py:971-980 the test of one position in `ccd_contains_radec` for a WCS that is not celestial. -/
def ccdContainsRadecD (rnd : ℚ → ℚ) (sb : Bounds ℚ × ℚ × ℚ) (ra dec : ℚ) : Bool :=
  sb.1.containsPoint (rnd (ra - sb.2.1)) (rnd (dec - sb.2.2))

end Pizza
