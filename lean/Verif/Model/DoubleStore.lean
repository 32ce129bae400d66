import Verif.Model.DoubleCoadd
import Verif.Model.DoubleGeom
import Verif.Model.Coadd
import Verif.Model.Fits

/-!
The weight of a coadd, and the values written to the file, in floating point arithmetic.
-/

namespace Pizza

/-- `np.var(a)` (_coadd_slices.py:699): the mean, the squares of the deviations from it and their mean.  The sums are
taken in some order in the type of `a`; the divisions by the number of pixels are rounded by `rd` and then to the type
of `a` (Numpy divides a `float32` by an integer in double precision). -/
def VarRuns (rnd rd : ℚ → ℚ) (l : List ℚ) (v : ℚ) : Prop :=
  ∃ s t m, SumRuns rnd l s ∧ m = rnd (rd (s / l.length)) ∧
    SumRuns rnd (l.map fun x => rnd (rnd (x - m) * rnd (x - m))) t ∧
    v = rnd (rd (t / l.length))

/-- `weight[:, :] = 1.0 / np.var(noises[0])` (_coadd_slices.py:698-699), one pixel: infinite for a variance of 0,
else the quotient rounded by `rd` and stored in the type of the noise image by `rnd`. -/
def weightD (rnd rd : ℚ → ℚ) (v : ℚ) : Flt := if v = 0 then .posInf else .fin (rnd (rd (1 / v)))

/-- Pixels converted to the types of the file: `subim[:, :] = data` (_pizza_cutter.py:739-741) rounds to `f4` by `rc`
(and towards zero for `i4`), `subim < 0` (line 743). -/
def f4Ops (rc : ℚ → ℚ) : PixelOps Flt where
  zero := .fin 0
  cast
    | .f4, .fin q => .fin (rc q)
    | .i4, .fin q => .fin (truncQ q)
    | _, v => v
  isNeg := Flt.isNeg

end Pizza
