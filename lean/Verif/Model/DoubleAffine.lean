import Verif.Model.Double
import Verif.Model.Wcs

/-!
`AffineWCS` in floating point arithmetic: every operation is rounded.
-/

namespace Pizza

/-- pizza_cutter/des_pizza_cutter/_affine_wcs.py:46-56 `AffineWCS.__init__`. -/
def AffineWCS.mkD (rnd : ℚ → ℚ) (dudx dudy dvdx dvdy x0 y0 : ℚ) : Except Err AffineWCS :=
  let det := rnd (rnd (dudx * dvdy) - rnd (dvdx * dudy))
  if det = 0 then .error .valueError else .ok ⟨dudx, dudy, dvdx, dvdy, x0, y0, det⟩

/-- pizza_cutter/des_pizza_cutter/_affine_wcs.py:79-98 `AffineWCS.image2sky`, one position. -/
def AffineWCS.image2skyD (rnd : ℚ → ℚ) (w : AffineWCS) (x y : ℚ) : ℚ × ℚ :=
  (rnd (rnd (w.dudx * rnd (x - w.x0)) + rnd (w.dudy * rnd (y - w.y0))),
   rnd (rnd (w.dvdx * rnd (x - w.x0)) + rnd (w.dvdy * rnd (y - w.y0))))

/-- pizza_cutter/des_pizza_cutter/_affine_wcs.py:100-119 `AffineWCS.sky2image`, one position. -/
def AffineWCS.sky2imageD (rnd : ℚ → ℚ) (w : AffineWCS) (u v : ℚ) : ℚ × ℚ :=
  (rnd (rnd (rnd (rnd (w.dvdy * u) - rnd (w.dudy * v)) / w.det) + w.x0),
   rnd (rnd (rnd (rnd (-w.dvdx * u) + rnd (w.dudx * v)) / w.det) + w.y0))

end Pizza
