import Verif.Model.DoubleWrap

/-!
The finite difference Jacobian of `pizza_cutter/wcs.py` and the pixel area of `_se_image.py` in floating point
arithmetic.  `image2sky` and the cosine of a declination are parameters: they return floating point numbers that may
have errors of their own.
-/

namespace Pizza

/-- pizza_cutter/wcs.py:66-118 `get_jacobian` with every operation rounded; the RA differences may fail to come back from
`wrap_ra_diff`, and so the result is a relation.  `-np.cos(dec*D2R)` (line 114) is `-cosd dec`. -/
def JacRuns (rnd : ℚ → ℚ) (image2sky : ℚ → ℚ → ℚ × ℚ) (cosd : ℚ → ℚ) (x y step : ℚ) (jac : ℚ × ℚ × ℚ × ℚ) : Prop :=
  let fac := rnd (1 / rnd (2 * step))
  let dec := (image2sky x y).2
  let xp := rnd (x + step)
  let xm := rnd (x - step)
  let yp := rnd (y + step)
  let ym := rnd (y - step)
  let cosdec := -cosd dec
  ∃ wx wy, DiffRuns rnd (image2sky xp y).1 (image2sky xm y).1 (.fin wx) ∧
    DiffRuns rnd (image2sky x yp).1 (image2sky x ym).1 (.fin wy) ∧
    jac = (rnd (rnd (rnd (fac * 3600) * wx) * cosdec), rnd (rnd (rnd (fac * 3600) * wy) * cosdec),
      rnd (rnd (fac * 3600) * rnd ((image2sky xp y).2 - (image2sky xm y).2)),
      rnd (rnd (fac * 3600) * rnd ((image2sky x yp).2 - (image2sky x ym).2)))

/-- pizza_cutter/des_pizza_cutter/_se_image.py:170-190 `_compute_wcs_area` of a celestial WCS with every operation
rounded; `dxy` is the integer 1 (lines 170, 220, 895), of which the quotients are no change. -/
def AreaRuns (rnd : ℚ → ℚ) (image2sky : ℚ → ℚ → ℚ × ℚ) (cosd : ℚ → ℚ) (x y : ℚ) (area : ℚ) : Prop :=
  let dec := (image2sky x y).2
  let xp := image2sky (rnd (x + 1)) y
  let xm := image2sky (rnd (x - 1)) y
  let yp := image2sky x (rnd (y + 1))
  let ym := image2sky x (rnd (y - 1))
  let cosdec := cosd dec
  ∃ wx wy, DiffRuns rnd xp.1 xm.1 (.fin wx) ∧ DiffRuns rnd yp.1 ym.1 (.fin wy) ∧
    let dudx := rnd (rnd (rnd (rnd (-(1 / 2) * wx) / 1) * cosdec) * 3600)
    let dudy := rnd (rnd (rnd (rnd (-(1 / 2) * wy) / 1) * cosdec) * 3600)
    let dvdx := rnd (rnd (rnd (1 / 2 * rnd (xp.2 - xm.2)) / 1) * 3600)
    let dvdy := rnd (rnd (rnd (1 / 2 * rnd (yp.2 - ym.2)) / 1) * 3600)
    area = |rnd (rnd (dudx * dvdy) - rnd (dvdx * dudy))|

end Pizza
