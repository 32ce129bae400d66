import Verif.Model.Wcs

/-!
The function whose zero the search for the pixel of a sky position looks for
(pizza_cutter/wcs.py:120-129).  The search itself is `sky2image` of the base class in esutil, which calls
a root finder of scipy; neither is part of the repository and neither is modelled.
-/

namespace Pizza

/-- pizza_cutter/wcs.py:120-129 `FastHashingWCS._lonlatdiff`.  `image2sky` is the WCS evaluation of the base
class (line 123), whose values need not be finite; `answer` is `self.lonlat_answer`, the position looked
for, which is finite. -/
def lonlatDiff (image2sky : ℚ → ℚ → Flt × Flt) (answer : ℚ × ℚ) (x y : ℚ) : Flt × Flt :=
  let lonlat := image2sky x y
  let diff := (lonlat.1.add (-answer.1), lonlat.2.add (-answer.2))
  (wrapRaDiff diff.1, diff.2)

end Pizza
