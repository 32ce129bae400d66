import Verif.Model.Double
import Verif.Model.Lanczos

/-!
`sinc_pade` and `lanczos_resample` in floating point arithmetic (pizza_cutter/coadding/_sinc.py:14-48,
pizza_cutter/coadding/_lanczos.py:10-89), in the order of the source, and in the orders that `fastmath=True`
(_sinc.py:14, _lanczos.py:10) lets the compiler choose.

Of what `fastmath` permits these are modelled: sums and products in any order and with any brackets, the kernel
of a pixel multiplied out, common factors taken out of a sum, multiplication and addition contracted
to one rounding, division done as multiplication by a rounded reciprocal.  Other rewritings of the polynomials of `sinc_pade` than contraction
are not modelled, nor are overflow, underflow and values that are not finite.
-/

namespace Pizza

/-- The coefficients of the polynomial in the numerator of `sinc_pade` (_sinc.py:25-35). -/
def sincNumCoefs : List ℚ :=
  [-0.166666666666666, -0.289176685343373, -0.109757669089546, 0.0350931080575596, 0.0229947584643336,
    -0.00089363958201935, -0.00162722192965722, -3.00689146075626e-05, 5.13864469774294e-05,
    1.23561563382214e-06, -6.37392253619041e-07]

/-- The coefficients of the denominator of `sinc_pade` (_sinc.py:37-47). -/
def sincDenCoefs : List ℚ :=
  [1, -0.0982732212730775, 0.122536542608403, -0.0111525324680647, 0.00724707512833019,
    -0.000584774445653404, 0.000262528048296579, -1.71596576734417e-05, 5.91945411660804e-06,
    -2.44174818579491e-07, 6.74473938075399e-08]

/-! ### The order of the source -/

/-- `a0 + x * (a1 + x * (...))` with every operation rounded, and the literals too (_sinc.py:24-35, 36-47). -/
def hornerD (rnd : ℚ → ℚ) (x : ℚ) : List ℚ → ℚ
  | [] => 0
  | [a] => rnd a
  | a :: b :: l => rnd (rnd a + rnd (x * hornerD rnd x (b :: l)))

/-- Rounded division: a zero divisor raises ZeroDivisionError (numba's default). -/
def checkedDivD (rnd : ℚ → ℚ) (a b : ℚ) : Except Err ℚ :=
  if b = 0 then .error .zeroDivision else .ok (rnd (a / b))

/-- `sinc_pade` (_sinc.py:14-48). -/
def sincPadeD (rnd : ℚ → ℚ) (x : ℚ) : Except Err ℚ :=
  let x := |x|
  let num := rnd (rnd (rnd (hornerD rnd x sincNumCoefs * rnd (x - 1)) * rnd (x - 2)) * rnd (x - 3))
  checkedDivD rnd num (hornerD rnd x sincDenCoefs)

/-- `sinc(d) * sinc(d/a)` (_lanczos.py:73-74,80-81). -/
def lanczosKernelD (rnd : ℚ → ℚ) (a : ℤ) (d : ℚ) : Except Err ℚ := do
  let s1 ← sincPadeD rnd d
  let q ← checkedDivD rnd d a
  let s2 ← sincPadeD rnd q
  pure (rnd (s1 * s2))

/-- One pass of the inner loop (_lanczos.py:76-85). -/
def lanczosColStepD (rnd : ℚ → ℚ) (im : Img ℚ) (a : ℤ) (x sy : ℚ) (ypix : ℤ) (val : ℚ) (xpix : ℤ) : Except Err ℚ :=
  if xpix < 0 ∨ (im.ncol : ℤ) - 1 < xpix then .ok val
  else do
    let sx ← lanczosKernelD rnd a (rnd (x - xpix))
    let v ← readIm im ypix xpix
    pure (rnd (val + rnd (v * rnd (sx * sy))))

/-- One pass of the outer loop (_lanczos.py:69-85). -/
def lanczosRowStepD (rnd : ℚ → ℚ) (im : Img ℚ) (a : ℤ) (y x : ℚ) (xs xf : ℤ) (val : ℚ) (ypix : ℤ) : Except Err ℚ :=
  if ypix < 0 ∨ (im.nrow : ℤ) - 1 < ypix then .ok val
  else do
    let sy ← lanczosKernelD rnd a (rnd (y - ypix))
    (pyRange xs (xf + 1)).foldlM (lanczosColStepD rnd im a x sy ypix) val

/-- `lanczos_resample` at one position (_lanczos.py:35-87); the range of the kernel and the flag are made of integers
(`np.floor` is exact). -/
def lanczosOneD (rnd : ℚ → ℚ) (im : Img ℚ) (a : ℤ) (y x : ℚ) : Except Err (ℚ × Bool) :=
  if a ≤ 3 then do
    let xs := ⌊x⌋ - a + 1
    let xf := ⌊x⌋ + a
    let ys := ⌊y⌋ - a + 1
    let yf := ⌊y⌋ + a
    let val ← (pyRange ys (yf + 1)).foldlM (lanczosRowStepD rnd im a y x xs xf) 0
    pure (val, outOfBounds im.ncol im.nrow xs xf ys yf)
  else .error .assertionError

/-! ### The orders that `fastmath` allows -/

/-- A product, in some order and with some brackets (`fastmath`, _sinc.py:14, _lanczos.py:10). -/
inductive ProdRuns (rnd : ℚ → ℚ) : List ℚ → ℚ → Prop
  | one (x : ℚ) : ProdRuns rnd [x] x
  | mul {l a b : List ℚ} {s t : ℚ} : l.Perm (a ++ b) → ProdRuns rnd a s → ProdRuns rnd b t → ProdRuns rnd l (rnd (s * t))

/-- A sum of products (`fastmath`, _lanczos.py:10, 68-85): in some order and with some brackets, contracted or
not, with common factors taken out or not. -/
inductive DotRuns (rnd : ℚ → ℚ) : List (List ℚ) → ℚ → Prop
  | nil : DotRuns rnd [] 0
  | term {f : List ℚ} {t : ℚ} : ProdRuns rnd f t → DotRuns rnd [f] t
  | add {l a b : List (List ℚ)} {s t : ℚ} : l.Perm (a ++ b) → DotRuns rnd a s → DotRuns rnd b t →
      DotRuns rnd l (rnd (s + t))
  | fma {l a : List (List ℚ)} {f g h : List ℚ} {s t u : ℚ} : l.Perm (f :: a) → f.Perm (g ++ h) → DotRuns rnd a s →
      ProdRuns rnd g t → ProdRuns rnd h u → DotRuns rnd l (rnd (s + t * u))
  | factor {l a : List (List ℚ)} {f : List ℚ} {s t : ℚ} : List.Forall₂ (fun x y => x.Perm (f ++ y)) l a → DotRuns rnd a s →
      ProdRuns rnd f t → DotRuns rnd l (rnd (s * t))

/-- A polynomial (`fastmath`, _sinc.py:14, 24-47): each multiplication and addition contracted or not. -/
inductive HornerRuns (rnd : ℚ → ℚ) (x : ℚ) : List ℚ → ℚ → Prop
  | last (a : ℚ) : HornerRuns rnd x [a] (rnd a)
  | step {a : ℚ} {l : List ℚ} {s : ℚ} : HornerRuns rnd x l s → HornerRuns rnd x (a :: l) (rnd (rnd a + rnd (x * s)))
  | fma {a : ℚ} {l : List ℚ} {s : ℚ} : HornerRuns rnd x l s → HornerRuns rnd x (a :: l) (rnd (rnd a + x * s))

/-- A quotient (`fastmath`, _sinc.py:14,48, _lanczos.py:10,74,81): a division or a multiplication by the reciprocal. -/
inductive QuotRuns (rnd : ℚ → ℚ) (a b : ℚ) : Except Err ℚ → Prop
  | zero : b = 0 → QuotRuns rnd a b (.error .zeroDivision)
  | div : b ≠ 0 → QuotRuns rnd a b (.ok (rnd (a / b)))
  | recip : b ≠ 0 → QuotRuns rnd a b (.ok (rnd (a * rnd (1 / b))))

/-- `sinc_pade` (_sinc.py:14-48) under `fastmath`. -/
inductive SincRuns (rnd : ℚ → ℚ) (x : ℚ) : Except Err ℚ → Prop
  | run {h n d : ℚ} {r : Except Err ℚ} : HornerRuns rnd |x| sincNumCoefs h → HornerRuns rnd |x| sincDenCoefs d →
      ProdRuns rnd [h, rnd (|x| - 1), rnd (|x| - 2), rnd (|x| - 3)] n → QuotRuns rnd n d r → SincRuns rnd x r

/-- The two factors of `sinc(d) * sinc(d/a)` (_lanczos.py:73-74,80-81) under `fastmath`. -/
inductive KernelRuns (rnd : ℚ → ℚ) (a : ℤ) (d : ℚ) : Except Err (ℚ × ℚ) → Prop
  | sinc1 {e : Err} : SincRuns rnd d (.error e) → KernelRuns rnd a d (.error e)
  | quot {e : Err} : QuotRuns rnd d a (.error e) → KernelRuns rnd a d (.error e)
  | sinc2 {q : ℚ} {e : Err} : QuotRuns rnd d a (.ok q) → SincRuns rnd q (.error e) → KernelRuns rnd a d (.error e)
  | run {q s1 s2 : ℚ} : SincRuns rnd d (.ok s1) → QuotRuns rnd d a (.ok q) → SincRuns rnd q (.ok s2) →
      KernelRuns rnd a d (.ok (s1, s2))

/-- The pixels for which the loops do something (_lanczos.py:69-71, 76-78). -/
def kernelPixels (im : Img ℚ) (a : ℤ) (y x : ℚ) : List (ℤ × ℤ) :=
  ((pyRange (⌊y⌋ - a + 1) (⌊y⌋ + a + 1)).filter fun r => !(decide (r < 0) || decide ((im.nrow : ℤ) - 1 < r))).flatMap fun r =>
    ((pyRange (⌊x⌋ - a + 1) (⌊x⌋ + a + 1)).filter fun c => !(decide (c < 0) || decide ((im.ncol : ℤ) - 1 < c))).map fun c =>
      (r, c)

/-- The factors of what a pixel adds (_lanczos.py:73-74, 80-85).  Simplification: the kernel in `y` may come out
differently for each pixel of a row, although it is computed once. -/
inductive PixelRuns (rnd : ℚ → ℚ) (im : Img ℚ) (a : ℤ) (y x : ℚ) : ℤ × ℤ → Except Err (List ℚ) → Prop
  | row {r c : ℤ} {e : Err} : KernelRuns rnd a (rnd (y - r)) (.error e) → PixelRuns rnd im a y x (r, c) (.error e)
  | col {r c : ℤ} {e : Err} : KernelRuns rnd a (rnd (x - c)) (.error e) → PixelRuns rnd im a y x (r, c) (.error e)
  | read {r c : ℤ} {e : Err} : readIm im r c = .error e → PixelRuns rnd im a y x (r, c) (.error e)
  | run {r c : ℤ} {ky kx : ℚ × ℚ} {v : ℚ} : KernelRuns rnd a (rnd (y - r)) (.ok ky) →
      KernelRuns rnd a (rnd (x - c)) (.ok kx) → readIm im r c = .ok v →
      PixelRuns rnd im a y x (r, c) (.ok [v, kx.1, kx.2, ky.1, ky.2])

/-- `lanczos_resample` at one position (_lanczos.py:35-87) under `fastmath`. -/
inductive LanczosRuns (rnd : ℚ → ℚ) (im : Img ℚ) (a : ℤ) (y x : ℚ) : Except Err (ℚ × Bool) → Prop
  | large : ¬ a ≤ 3 → LanczosRuns rnd im a y x (.error .assertionError)
  | fails {p : ℤ × ℤ} {e : Err} : a ≤ 3 → p ∈ kernelPixels im a y x → PixelRuns rnd im a y x p (.error e) →
      LanczosRuns rnd im a y x (.error e)
  | run {fs : List (List ℚ)} {v : ℚ} : a ≤ 3 →
      List.Forall₂ (fun p f => PixelRuns rnd im a y x p (.ok f)) (kernelPixels im a y x) fs → DotRuns rnd fs v →
      LanczosRuns rnd im a y x (.ok (v, outOfBounds im.ncol im.nrow (⌊x⌋ - a + 1) (⌊x⌋ + a) (⌊y⌋ - a + 1) (⌊y⌋ + a)))

end Pizza
