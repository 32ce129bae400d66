import Verif.Model.Basic
import Mathlib.Algebra.Order.Floor.Defs
import Mathlib.Algebra.Order.Floor.Ring

/-!
The Lanczos resampling loops and the approximate sinc.

Models pizza_cutter/coadding/_sinc.py:15-48 and pizza_cutter/coadding/_lanczos.py.  Numbers are
elements of an arbitrary ordered field `K` with a floor (so `ℚ` and `ℝ` are both instances):
rounding and the `fastmath` reorderings are modelled in `DoubleLanczos`, not here.  Division by zero raises, as numba's
default error model does.
-/

namespace Pizza

section
variable {K : Type} [Field K] [LinearOrder K] [FloorRing K]

/-- The numerator of `sinc_pade` (pizza_cutter/coadding/_sinc.py:24-36), at `x = np.abs(x)`. -/
def sincNum (x : K) : K :=
  (-(0.166666666666666 : K) + x * (
   -(0.289176685343373 : K) + x * (
   -(0.109757669089546 : K) + x * (
   (0.0350931080575596 : K) + x * (
   (0.0229947584643336 : K) + x * (
   -(0.00089363958201935 : K) + x * (
   -(0.00162722192965722 : K) + x * (
   -(3.00689146075626e-05 : K) + x * (
   (5.13864469774294e-05 : K) + x * (
   (1.23561563382214e-06 : K) + x * (
   -(6.37392253619041e-07 : K)))))))))))) * (x - 1) * (x - 2) * (x - 3)

/-- The denominator of `sinc_pade` (pizza_cutter/coadding/_sinc.py:37-47). -/
def sincDen (x : K) : K :=
  1 + x * (
  -(0.0982732212730775 : K) + x * (
  (0.122536542608403 : K) + x * (
  -(0.0111525324680647 : K) + x * (
  (0.00724707512833019 : K) + x * (
  -(0.000584774445653404 : K) + x * (
  (0.000262528048296579 : K) + x * (
  -(1.71596576734417e-05 : K) + x * (
  (5.91945411660804e-06 : K) + x * (
  -(2.44174818579491e-07 : K) + x * (
  (6.74473938075399e-08 : K)))))))))))

/-- Division as compiled by numba: a zero divisor raises ZeroDivisionError. -/
def checkedDiv (a b : K) : Except Err K := if b = 0 then .error .zeroDivision else .ok (a / b)

/-- `sinc_pade` (pizza_cutter/coadding/_sinc.py:15-48). -/
def sincPade (x : K) : Except Err K := checkedDiv (sincNum |x|) (sincDen |x|)

/-- `sinc(d) * sinc(d/a)` (pizza_cutter/coadding/_lanczos.py:74,81), the one dimensional
kernel; `sinc` is `sinc_pade` by lines 4-7. -/
def lanczosKernel (a : ℤ) (d : K) : Except Err K := do
  let s1 ← sincPade d
  let q ← checkedDiv d (a : K)
  let s2 ← sincPade q
  pure (s1 * s2)

/-- Checked array read of the compiled loop (pizza_cutter/coadding/_lanczos.py:85). -/
def readIm (im : Img K) (r c : ℤ) : Except Err K :=
  match im.getZ? r c with
  | some v => .ok v
  | none => .error .indexError

/-- `out_of_bounds` (pizza_cutter/coadding/_lanczos.py:57-62). -/
def outOfBounds (nx ny xs xf ys yf : ℤ) : Bool :=
  xf < 0 || nx - 1 < xs || yf < 0 || ny - 1 < ys

/-- One pass of the inner loop over `x_pix` (pizza_cutter/coadding/_lanczos.py:76-85). -/
def lanczosColStep (im : Img K) (a : ℤ) (x sy : K) (ypix : ℤ) (val : K) (xpix : ℤ) :
    Except Err K :=
  if xpix < 0 ∨ (im.ncol : ℤ) - 1 < xpix then .ok val
  else do
    let sx ← lanczosKernel a (x - xpix)
    let v ← readIm im ypix xpix
    pure (val + v * (sx * sy))

/-- One pass of the outer loop over `y_pix` (pizza_cutter/coadding/_lanczos.py:69-85). -/
def lanczosRowStep (im : Img K) (a : ℤ) (y x : K) (xs xf : ℤ) (val : K) (ypix : ℤ) :
    Except Err K :=
  if ypix < 0 ∨ (im.nrow : ℤ) - 1 < ypix then .ok val
  else do
    let sy ← lanczosKernel a (y - ypix)
    (pyRange xs (xf + 1)).foldlM (lanczosColStep im a x sy ypix) val

/-- The body of the loop over positions of `lanczos_resample`
(pizza_cutter/coadding/_lanczos.py:48-87): the value and the edge flag. -/
def lanczosOne (im : Img K) (a : ℤ) (y x : K) : Except Err (K × Bool) := do
  let xs := ⌊x⌋ - a + 1
  let xf := ⌊x⌋ + a
  let ys := ⌊y⌋ - a + 1
  let yf := ⌊y⌋ + a
  let val ← (pyRange ys (yf + 1)).foldlM (lanczosRowStep im a y x xs xf) 0
  pure (val, outOfBounds im.ncol im.nrow xs xf ys yf)

/-- `lanczos_resample(im, rows, cols, a)` (pizza_cutter/coadding/_lanczos.py:10-89).  The
positions are the pairs `(rows[i], cols[i])`, given as one list; the results are the pairs
`(res1[i], edge[i])`. -/
def lanczosResample (im : Img K) (pos : List (K × K)) (a : ℤ) : Except Err (List (K × Bool)) :=
  if a ≤ 3 then pos.mapM fun p => lanczosOne im a p.1 p.2
  else .error .assertionError

/-- Inner loop of `lanczos_resample_two` (pizza_cutter/coadding/_lanczos.py:161-171). -/
def lanczosColStep2 (im1 im2 : Img K) (a : ℤ) (x sy : K) (ypix : ℤ) (val : K × K) (xpix : ℤ) :
    Except Err (K × K) :=
  if xpix < 0 ∨ (im1.ncol : ℤ) - 1 < xpix then .ok val
  else do
    let sx ← lanczosKernel a (x - xpix)
    let kernel := sx * sy
    let v1 ← readIm im1 ypix xpix
    let v2 ← readIm im2 ypix xpix
    pure (val.1 + v1 * kernel, val.2 + v2 * kernel)

/-- Outer loop of `lanczos_resample_two` (pizza_cutter/coadding/_lanczos.py:154-171). -/
def lanczosRowStep2 (im1 im2 : Img K) (a : ℤ) (y x : K) (xs xf : ℤ) (val : K × K) (ypix : ℤ) :
    Except Err (K × K) :=
  if ypix < 0 ∨ (im1.nrow : ℤ) - 1 < ypix then .ok val
  else do
    let sy ← lanczosKernel a (y - ypix)
    (pyRange xs (xf + 1)).foldlM (lanczosColStep2 im1 im2 a x sy ypix) val

/-- Loop body of `lanczos_resample_two` (pizza_cutter/coadding/_lanczos.py:132-174). -/
def lanczosOne2 (im1 im2 : Img K) (a : ℤ) (y x : K) : Except Err (K × K × Bool) := do
  let xs := ⌊x⌋ - a + 1
  let xf := ⌊x⌋ + a
  let ys := ⌊y⌋ - a + 1
  let yf := ⌊y⌋ + a
  let val ← (pyRange ys (yf + 1)).foldlM (lanczosRowStep2 im1 im2 a y x xs xf) (0, 0)
  pure (val.1, val.2, outOfBounds im1.ncol im1.nrow xs xf ys yf)

/-- `lanczos_resample_two(im1, im2, rows, cols, a)`
(pizza_cutter/coadding/_lanczos.py:91-176); no check of `a`. -/
def lanczosResampleTwo (im1 im2 : Img K) (pos : List (K × K)) (a : ℤ) :
    Except Err (List (K × K × Bool)) :=
  pos.mapM fun p => lanczosOne2 im1 im2 a p.1 p.2

end
end Pizza
