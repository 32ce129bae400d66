import Verif.Model.SEObject

/-!
Model of the lookup tables of `pizza_cutter/des_pizza_cutter/_se_image.py` (lines 133-227) and of
the interpolator classes of `pizza_cutter/coadding/_wcs_utils.py`.  The two scipy interpolators
are parameters.
-/

namespace Pizza

/-- One axis of `np.mgrid[:dim+delta:delta]` (_se_image.py:152, 214, 223-224): `ceil((dim +
delta)/delta)` multiples of `delta`; the division by a zero step raises.  `delta` is a
non-negative integer (simplification: a negative one would give an empty axis). -/
def mgridAxis (dim delta : Nat) : Except Err (List Nat) :=
  if delta = 0 then .error .zeroDivision
  else .ok ((List.range ⌈((dim : ℚ) + delta) / delta⌉.toNat).map (· * delta))

/-- `y.ravel() - 0.5, x.ravel() - 0.5` of the two-dimensional grid, as the list of pairs `(y, x)`
(_se_image.py:152-154, 214-217). -/
def gridPts (ys xs : List Nat) : List (ℚ × ℚ) :=
  ys.flatMap fun (y : Nat) => xs.map fun (x : Nat) => ((y : ℚ) - 1/2, (x : ℚ) - 1/2)

/-- `CloughTocher2DInterpolator(pts, values)` (_wcs_utils.py:50-51), external: a function of a
point `(y, x)`; `none` is NaN. -/
abbrev Fit := List (ℚ × ℚ) → List ℚ → Except Err (ℚ × ℚ → Option ℚ)

/-- `RectBivariateSpline(x_in, y_in, scalar)` (_wcs_utils.py:104), external: a function of `x` and
`y`; the first index of the values belongs to `x_in`. -/
abbrev Spline := List ℚ → List ℚ → Img ℚ → Except Err (ℚ → ℚ → ℚ)

/-- `WCSInversionInterpolator` (_wcs_utils.py:5-82). -/
structure InvInterp where
  xInt : ℚ × ℚ → Option ℚ
  yInt : ℚ × ℚ → Option ℚ

/-- `WCSInversionInterpolator.__init__` (_wcs_utils.py:48-51); the points are `(y, x)`. -/
def InvInterp.make (fit : Fit) (xIn yIn xOut yOut : List ℚ) : Except Err InvInterp := do
  let pts := List.zip yIn xIn
  let xi ← fit pts xOut
  let yi ← fit pts yOut
  pure ⟨xi, yi⟩

/-- `WCSInversionInterpolator.__call__` at one point (_wcs_utils.py:53-82; arrays are treated
element by element). -/
def InvInterp.call (i : InvInterp) (x y : ℚ) : Option ℚ × Option ℚ := (i.xInt (y, x), i.yInt (y, x))

/-- `_get_wcs_inverse` without its cache (_se_image.py:150-167): coadd to SE and SE to coadd
position.  `coaddInv` is `wcs.sky2image` at one point. -/
def getWcsInverse (fit : Fit) (coaddInv : ℚ → ℚ → ℚ × ℚ) (off : ℚ) (se : SEWcs) (nrow ncol delta : Nat) :
    Except Err (InvInterp × InvInterp) := do
  let ys ← mgridAxis nrow delta
  let xs ← mgridAxis ncol delta
  let ySe := (gridPts ys xs).map Prod.fst
  let xSe := (gridPts ys xs).map Prod.snd
  let sky ← se.image2sky (.arr xSe) (.arr ySe)
  let co := List.zipWith coaddInv sky.1.flat sky.2.flat
  let xCo := co.map fun p => p.1 - off
  let yCo := co.map fun p => p.2 - off
  let a ← InvInterp.make fit xCo yCo xSe ySe
  let b ← InvInterp.make fit xSe ySe xCo yCo
  pure (a, b)

/-- `area.reshape(shape).T` (_se_image.py:220): row-major values with `nx` columns, transposed. -/
def reshapeT (nx ny : Nat) (l : List ℚ) : Img ℚ := ⟨nx, ny, fun i j => l.getD (j * nx + i) 0⟩

/-- `_get_wcs_area_interp` without its cache (_se_image.py:211-227) and
`WCSGridScalarInterpolator` (_wcs_utils.py:85-131).  The areas are computed at the grid positions
minus one half; the nodes given to the spline are the grid positions themselves (lines 223-224). -/
def getWcsAreaInterp (spl : Spline) (celestial : Bool) (image2sky : ℚ → ℚ → ℚ × ℚ) (cosd : ℚ → ℚ)
    (nrow ncol delta : Nat) (off : ℚ) : Except Err (ℚ → ℚ → ℚ) := do
  let ys ← mgridAxis nrow delta
  let xs ← mgridAxis ncol delta
  let area := (gridPts ys xs).map fun p => computeWcsArea celestial image2sky cosd (p.2 + off) (p.1 + off) 1
  spl (xs.map fun (n : Nat) => (n : ℚ)) (ys.map fun (n : Nat) => (n : ℚ))
    (reshapeT xs.length ys.length area)

/-- The WCS data of one `resample` call: the SE WCS and image shape, and the coadd WCS with its
offset and the shape used for the area interpolation (_se_image.py:1375-1380). -/
structure ResampleWcs where
  se : SEWcs
  seCelestial : Bool
  seRow : Nat
  seCol : Nat
  coaddFwd : ℚ → ℚ → ℚ × ℚ
  coaddInv : ℚ → ℚ → ℚ × ℚ
  coaddCelestial : Bool
  coaddOff : ℚ
  coaddRow : Nat
  coaddCol : Nat
  cosd : ℚ → ℚ

/-- A NaN in one coordinate only is not told apart from a NaN in both (simplification); every use
of the pair treats them alike (_se_image.py:1513-1518, 1721-1731). -/
def pairUp : Option ℚ × Option ℚ → Option (ℚ × ℚ)
  | (some a, some b) => some (a, b)
  | _ => none

/-- The lookups of `resample` and `resample_psf` (_se_image.py:1453-1488, 1669-1712). -/
def buildLookups (fit : Fit) (spl : Spline) (w : ResampleWcs) (seDelta coaddDelta : Nat) :
    Except Err Lookups := do
  let inv ← getWcsInverse fit w.coaddInv w.coaddOff w.se w.seRow w.seCol seDelta
  let seArea ← getWcsAreaInterp spl w.seCelestial w.se.fwd0 w.cosd w.seRow w.seCol seDelta 0
  let coArea ← getWcsAreaInterp spl w.coaddCelestial w.coaddFwd w.cosd w.coaddRow w.coaddCol coaddDelta
    w.coaddOff
  pure ⟨fun x y => pairUp (inv.1.call x y), seArea, coArea⟩

end Pizza
