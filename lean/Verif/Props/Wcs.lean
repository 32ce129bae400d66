import Verif.Lemmas.Wcs

/-!
Properties C01, C02, C03, C05: RA wrapping, affine WCS, Jacobians and pixel areas.
-/

namespace Pizza

/-- C01: every finite RA difference is mapped to a value in [-180, 180] that differs from it
by a multiple of 360 degrees; values already in range are unchanged; values from below the
range never end on +180 and values from above never on -180; wrapping twice is wrapping once;
non-finite values are returned as they are. (Termination is part of the definition being
accepted by Lean.) -/
theorem C01_wrap_ra_diff :
    (∀ q : ℚ, ∃ r : ℚ, wrapRaDiff (.fin q) = .fin r ∧ -180 ≤ r ∧ r ≤ 180 ∧
      (∃ k : ℤ, r = q + 360 * k) ∧ (-180 ≤ q → q ≤ 180 → r = q) ∧
      (q < -180 → r < 180) ∧ (180 < q → -180 < r)) ∧
    (∀ x : Flt, wrapRaDiff (wrapRaDiff x) = wrapRaDiff x) ∧
    wrapRaDiff .posInf = .posInf ∧ wrapRaDiff .negInf = .negInf ∧ wrapRaDiff .nan = .nan := by
  refine ⟨fun q => ?_, fun x => ?_, rfl, rfl, rfl⟩
  · obtain ⟨h1, h2, h3, h4, h5, h6⟩ := wrapFin_spec q
    exact ⟨wrapFin q, rfl, h1, h2, h3, h4, h5, h6⟩
  · cases x with
    | fin q =>
      obtain ⟨h1, h2, -⟩ := wrapFin_spec q
      simp only [wrapRaDiff]
      rw [(wrapFin_spec (wrapFin q)).2.2.2.1 h1 h2]
    | _ => rfl

/-- C01, uniqueness: the value returned is the only number with absolute value below 180
that is congruent to the input modulo 360, whenever there is one. -/
theorem C01_wrap_unique (q r : ℚ) (k : ℤ) (hr : |r| < 180) (h : q = r + 360 * k) :
    wrapRaDiff (.fin q) = .fin r := by
  simp only [wrapRaDiff]; rw [wrapFin_unique hr h]

example : wrapRaDiff (.fin 725) = .fin 5 :=
  C01_wrap_unique 725 5 2 (by norm_num [abs_lt]) (by norm_num)

/-- C02: the array call is the element-wise scalar call. -/
theorem C02_wrap_array (a : List Flt) : wrapRaDiffArr a = a.map wrapRaDiff := by
  rw [wrapRaDiffArr, arrLow_eq, arrHigh_eq, List.map_map]
  apply List.map_congr_left
  intro x _
  cases x <;> rfl

example : wrapRaDiffArr [.fin 725, .nan, .fin (-3), .posInf] =
    [.fin 5, .nan, .fin (-3), .posInf] := by
  rw [C02_wrap_array]
  have h1 := C01_wrap_unique 725 5 2 (by norm_num [abs_lt]) (by norm_num)
  have h2 := C01_wrap_unique (-3) (-3) 0 (by norm_num [abs_lt]) (by norm_num)
  simp only [List.map_cons, List.map_nil, h1, h2]
  rfl

/-- C03, construction: an affine WCS exists iff the 2x2 matrix is invertible, otherwise a
ValueError is raised. -/
theorem C03_affine_constructible (a b c d x0 y0 : ℚ) :
    ((∃ w, AffineWCS.mk' a b c d x0 y0 = .ok w) ↔ a * d - b * c ≠ 0) ∧
    (AffineWCS.mk' a b c d x0 y0 = .error .valueError ↔ a * d - b * c = 0) := by
  unfold AffineWCS.mk'
  have e : a * d - c * b = a * d - b * c := by ring
  simp only [e]
  split <;> simp_all

/-- C03: both round trips and the derivative property for every constructed WCS. -/
theorem C03_affine_roundtrip (a b c d x0 y0 : ℚ) (w : AffineWCS)
    (hw : AffineWCS.mk' a b c d x0 y0 = .ok w) :
    (∀ x y, w.sky2image (w.image2sky x y).1 (w.image2sky x y).2 = (x, y)) ∧
    (∀ u v, w.image2sky (w.sky2image u v).1 (w.sky2image u v).2 = (u, v)) ∧
    w.image2sky x0 y0 = (0, 0) ∧
    (∀ x y dx dy, ∃ p q r s, w.getJacobian x y = (p, q, r, s) ∧ p = a ∧ q = b ∧ r = c ∧ s = d ∧
      w.image2sky (x + dx) (y + dy) =
        ((w.image2sky x y).1 + p * dx + q * dy, (w.image2sky x y).2 + r * dx + s * dy)) := by
  have hdet : a * d - c * b ≠ 0 := by
    intro h; simp [AffineWCS.mk', h] at hw
  simp only [AffineWCS.mk', hdet, if_false, Except.ok.injEq] at hw
  subst hw
  obtain ⟨D, hD⟩ : ∃ D, D = a * d - c * b := ⟨_, rfl⟩
  rw [← hD] at hdet ⊢
  refine ⟨fun x y => ?_, fun u v => ?_, ?_, fun x y dx dy => ⟨a, b, c, d, rfl, rfl, rfl, rfl, rfl, ?_⟩⟩
  · simp only [AffineWCS.sky2image, AffineWCS.image2sky, Prod.mk.injEq]
    constructor <;> field_simp <;> rw [hD] <;> ring
  · simp only [AffineWCS.sky2image, AffineWCS.image2sky, Prod.mk.injEq]
    constructor <;> field_simp <;> rw [hD] <;> ring
  · simp [AffineWCS.image2sky]
  · simp only [AffineWCS.image2sky, Prod.mk.injEq]
    constructor <;> ring

/-- `C03_affine_roundtrip` on a sheared, shifted map: sky and back is the same pixel. -/
example : ∃ w, AffineWCS.mk' 2 1 (-1) 3 10 20 = .ok w ∧
    w.sky2image (w.image2sky 7 (-4)).1 (w.image2sky 7 (-4)).2 = (7, -4) := by
  obtain ⟨w, hw⟩ := (C03_affine_constructible 2 1 (-1) 3 10 20).1.2 (by norm_num)
  exact ⟨w, hw, (C03_affine_roundtrip _ _ _ _ _ _ w hw).1 7 (-4)⟩

example : ∃ w, AffineWCS.mk' 2 1 (-1) 3 10 20 = .ok w :=
  (C03_affine_constructible _ _ _ _ _ _).1.2 (by norm_num)

/-- C05: if the sky coordinates are affine in the pixel position up to whole turns of RA
(`k x y` turns at each position), the finite-difference Jacobian is the exact derivative,
wherever the RA wrap falls. -/
theorem C05_jacobian_exact (image2sky : ℚ → ℚ → ℚ × ℚ) (cosd : ℚ → ℚ)
    (r0 rx ry d0 dx dy : ℚ) (k : ℚ → ℚ → ℤ)
    (hsky : ∀ x y, image2sky x y = (r0 + rx * x + ry * y + 360 * k x y, d0 + dx * x + dy * y))
    (x y step : ℚ) (hs : step ≠ 0) (hx : |2 * step * rx| < 180) (hy : |2 * step * ry| < 180) :
    getJacobian image2sky cosd x y step =
      (-(cosd (d0 + dx * x + dy * y)) * (3600 * rx), -(cosd (d0 + dx * x + dy * y)) * (3600 * ry),
        3600 * dx, 3600 * dy) := by
  simp only [getJacobian, hsky]
  rw [wrapFin_unique (r := 2 * step * rx) (k := k (x + step) y - k (x - step) y) hx
    (by push_cast; ring),
    wrapFin_unique (r := 2 * step * ry) (k := k x (y + step) - k x (y - step)) hy
    (by push_cast; ring)]
  simp only [Prod.mk.injEq]
  refine ⟨?_, ?_, ?_, ?_⟩ <;> field_simp <;> ring

/-- `C05_jacobian_exact` on a sky whose RA wraps inside the stencil. -/
example := C05_jacobian_exact
  (fun x y => (359 + (1/2) * x + (-1/4) * y + 360 * ((if x > 2 then -1 else 0 : ℤ) : ℚ),
      0 + (1/5) * x + (1/3) * y)) (fun d => 1 - d / 90)
  359 (1/2) (-1/4) 0 (1/5) (1/3) (fun x _ => if x > 2 then -1 else 0) (fun _ _ => rfl)
  2 5 1 (by norm_num) (by norm_num [abs_lt]) (by norm_num [abs_lt])

/-- C05, pixel area of a celestial WCS. -/
theorem C05_area_celestial (image2sky : ℚ → ℚ → ℚ × ℚ) (cosd : ℚ → ℚ)
    (r0 rx ry d0 dx dy : ℚ) (k : ℚ → ℚ → ℤ)
    (hsky : ∀ x y, image2sky x y = (r0 + rx * x + ry * y + 360 * k x y, d0 + dx * x + dy * y))
    (x y dxy : ℚ) (hs : dxy ≠ 0) (hx : |2 * dxy * rx| < 180) (hy : |2 * dxy * ry| < 180) :
    computeWcsArea true image2sky cosd x y dxy =
      3600 ^ 2 * |cosd (d0 + dx * x + dy * y)| * |rx * dy - ry * dx| := by
  simp only [computeWcsArea, hsky]
  rw [wrapFin_unique (r := 2 * dxy * rx) (k := k (x + dxy) y - k (x - dxy) y) hx
    (by push_cast; ring),
    wrapFin_unique (r := 2 * dxy * ry) (k := k x (y + dxy) - k x (y - dxy)) hy
    (by push_cast; ring)]
  rw [if_pos trivial]
  have h3 : (3600 ^ 2 : ℚ) = |3600 ^ 2| := by norm_num
  rw [h3, ← abs_mul, ← abs_mul]
  rw [abs_eq_abs]
  right
  field_simp
  ring

/-- `C05_area_celestial` on the same sky, with a step of two pixels. -/
example := C05_area_celestial
  (fun x y => (359 + (1/2) * x + (-1/4) * y + 360 * ((if x > 2 then -1 else 0 : ℤ) : ℚ),
      0 + (1/5) * x + (1/3) * y)) (fun d => 1 - d / 90)
  359 (1/2) (-1/4) 0 (1/5) (1/3) (fun x _ => if x > 2 then -1 else 0) (fun _ _ => rfl)
  2 5 2 (by norm_num) (by norm_num [abs_lt]) (by norm_num [abs_lt])

/-- C05, pixel area of an affine WCS is the absolute determinant, at every position. -/
theorem C05_area_affine (a b c d x0 y0 : ℚ) (w : AffineWCS) (cosd : ℚ → ℚ)
    (hw : AffineWCS.mk' a b c d x0 y0 = .ok w) (x y dxy : ℚ) (hs : dxy ≠ 0) :
    computeWcsArea false w.image2sky cosd x y dxy = |a * d - b * c| ∧
    0 < computeWcsArea false w.image2sky cosd x y dxy := by
  have hdet : a * d - c * b ≠ 0 := by
    intro h; simp [AffineWCS.mk', h] at hw
  simp only [AffineWCS.mk', hdet, if_false, Except.ok.injEq] at hw
  subst hw
  have e : computeWcsArea false (AffineWCS.image2sky ⟨a, b, c, d, x0, y0, a * d - c * b⟩)
      cosd x y dxy = |a * d - b * c| := by
    simp only [computeWcsArea, AffineWCS.image2sky]
    rw [if_neg (by simp)]
    congr 1
    field_simp
    ring
  refine ⟨e, ?_⟩
  rw [e, abs_pos]
  intro h; apply hdet; rw [← h]; ring

/-- `C05_area_affine`: a pixel of the map 2, 1, -1, 3 covers an area of 7. -/
example : ∃ w, AffineWCS.mk' 2 1 (-1) 3 10 20 = .ok w ∧
    computeWcsArea false w.image2sky (fun _ => 1) 5 6 1 = |2 * 3 - 1 * (-1)| := by
  obtain ⟨w, hw⟩ := (C03_affine_constructible 2 1 (-1) 3 10 20).1.2 (by norm_num)
  exact ⟨w, hw, (C05_area_affine _ _ _ _ _ _ w _ hw 5 6 1 (by norm_num)).1⟩

/-- Non-vacuity of C05: a sky whose RA wraps between the stencil points. -/
example : ∃ (image2sky : ℚ → ℚ → ℚ × ℚ) (k : ℚ → ℚ → ℤ),
    (∀ x y, image2sky x y = (359 + (1/2) * x + (-1/4) * y + 360 * k x y, 0 + (1/5) * x + (1/3) * y)) ∧
    k 0 0 ≠ k 100 0 ∧ |2 * 1 * (1/2 : ℚ)| < 180 ∧ |2 * 1 * (-1/4 : ℚ)| < 180 :=
  ⟨fun x y => (359 + (1/2) * x + (-1/4) * y + 360 * ((if x > 2 then -1 else 0 : ℤ) : ℚ),
      0 + (1/5) * x + (1/3) * y),
    fun x _ => if x > 2 then -1 else 0, fun _ _ => rfl, by norm_num, by norm_num [abs_lt],
    by norm_num [abs_lt]⟩

end Pizza
