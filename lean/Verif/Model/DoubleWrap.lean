import Verif.Model.Double
import Verif.Model.Wcs

/-!
`wrap_ra_diff` of `pizza_cutter/wcs.py` in floating point arithmetic: every addition is rounded, and so the
loops may fail to end.  A run is a relation between the number given and the number returned.
-/

namespace Pizza

/-- pizza_cutter/wcs.py:25-26 `while dra < -180.0: dra += 360.0`, the sum rounded by `rnd`. -/
inductive LowRuns (rnd : ℚ → ℚ) : ℚ → ℚ → Prop
  | stop {d : ℚ} : ¬ d < -180 → LowRuns rnd d d
  | again {d r : ℚ} : d < -180 → LowRuns rnd (rnd (d + 360)) r → LowRuns rnd d r

/-- pizza_cutter/wcs.py:27-28 `while dra > 180.0: dra -= 360.0`, the difference rounded by `rnd`. -/
inductive HighRuns (rnd : ℚ → ℚ) : ℚ → ℚ → Prop
  | stop {d : ℚ} : ¬ d > 180 → HighRuns rnd d d
  | again {d r : ℚ} : d > 180 → HighRuns rnd (rnd (d - 360)) r → HighRuns rnd d r

/-- pizza_cutter/wcs.py:21-28,41 `wrap_ra_diff` of one number: `dra` goes in and `r` comes out.  A number
that is not finite comes back (lines 22-23). -/
inductive WrapRuns (rnd : ℚ → ℚ) : Flt → Flt → Prop
  | fin {d m r : ℚ} : LowRuns rnd d m → HighRuns rnd m r → WrapRuns rnd (.fin d) (.fin r)
  | posInf : WrapRuns rnd .posInf .posInf
  | negInf : WrapRuns rnd .negInf .negInf
  | nan : WrapRuns rnd .nan .nan

/-- pizza_cutter/wcs.py:33,38 the sum of one element and a number, rounded. -/
def Flt.addRnd (rnd : ℚ → ℚ) (k : ℚ) : Flt → Flt
  | .fin q => .fin (rnd (q + k))
  | .posInf => .posInf
  | .negInf => .negInf
  | .nan => .nan

/-- pizza_cutter/wcs.py:31-34 the first loop over an array: as long as some element is below, all elements
that are get 360 added. -/
inductive ArrLowRuns (rnd : ℚ → ℚ) : List Flt → List Flt → Prop
  | stop {a : List Flt} : a.any maskLow = false → ArrLowRuns rnd a a
  | again {a b : List Flt} : a.any maskLow = true →
      ArrLowRuns rnd (a.map fun x => if maskLow x then x.addRnd rnd 360 else x) b → ArrLowRuns rnd a b

/-- pizza_cutter/wcs.py:36-39 the second loop over an array. -/
inductive ArrHighRuns (rnd : ℚ → ℚ) : List Flt → List Flt → Prop
  | stop {a : List Flt} : a.any maskHigh = false → ArrHighRuns rnd a a
  | again {a b : List Flt} : a.any maskHigh = true →
      ArrHighRuns rnd (a.map fun x => if maskHigh x then x.addRnd rnd (-360) else x) b → ArrHighRuns rnd a b

/-- pizza_cutter/wcs.py:29-41 `wrap_ra_diff` of an array. -/
def ArrWrapRuns (rnd : ℚ → ℚ) (a b : List Flt) : Prop := ∃ m, ArrLowRuns rnd a m ∧ ArrHighRuns rnd m b

/-- pizza_cutter/wcs.py:107-108,127-128, _se_image.py:180-181: the difference of two right ascensions, rounded, and wrapped. -/
def DiffRuns (rnd : ℚ → ℚ) (ra ra' : ℚ) (r : Flt) : Prop := WrapRuns rnd (.fin (rnd (ra - ra'))) r

end Pizza
