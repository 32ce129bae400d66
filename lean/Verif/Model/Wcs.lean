import Verif.Model.Basic
import Mathlib.Tactic.Linarith
import Mathlib.Tactic.Ring
import Mathlib.Tactic.FieldSimp
import Mathlib.Tactic.NormNum
import Mathlib.Tactic.Positivity

/-!
Model of `pizza_cutter/wcs.py`, `pizza_cutter/des_pizza_cutter/_affine_wcs.py` and the
pixel-area code of `pizza_cutter/des_pizza_cutter/_se_image.py`.
-/

namespace Pizza

theorem wrapLow_dec {d : ℚ} (h : d < -180) :
    (⌈(-180 - (d + 360)) / 360⌉).toNat < (⌈(-180 - d) / 360⌉).toNat := by
  have h1 : (-180 - (d + 360)) / 360 = (-180 - d) / 360 - 1 := by ring
  rw [h1, Int.ceil_sub_one]
  have h2 : 0 < ⌈(-180 - d) / 360⌉ := Int.ceil_pos.2 (by apply div_pos <;> linarith)
  omega

/-- pizza_cutter/wcs.py:25-26 `while dra < -180.0: dra += 360.0` (exact arithmetic). -/
def wrapLow (d : ℚ) : ℚ :=
  if h : d < -180 then wrapLow (d + 360) else d
termination_by (⌈(-180 - d) / 360⌉).toNat
decreasing_by exact wrapLow_dec h

theorem wrapHigh_dec {d : ℚ} (h : 180 < d) :
    (⌈((d - 360) - 180) / 360⌉).toNat < (⌈(d - 180) / 360⌉).toNat := by
  have h1 : ((d - 360) - 180) / 360 = (d - 180) / 360 - 1 := by ring
  rw [h1, Int.ceil_sub_one]
  have h2 : 0 < ⌈(d - 180) / 360⌉ := Int.ceil_pos.2 (by apply div_pos <;> linarith)
  omega

/-- pizza_cutter/wcs.py:27-28 `while dra > 180.0: dra -= 360.0` (exact arithmetic). -/
def wrapHigh (d : ℚ) : ℚ :=
  if h : d > 180 then wrapHigh (d - 360) else d
termination_by (⌈(d - 180) / 360⌉).toNat
decreasing_by exact wrapHigh_dec h

/-- pizza_cutter/wcs.py:25-28, the finite scalar case. -/
def wrapFin (d : ℚ) : ℚ := wrapHigh (wrapLow d)

/-- pizza_cutter/wcs.py:21-28,41 `wrap_ra_diff`, scalar branch: non-finite values are
returned as they are (line 22-23). -/
def wrapRaDiff : Flt → Flt
  | .fin q => .fin (wrapFin q)
  | .posInf => .posInf
  | .negInf => .negInf
  | .nan => .nan

/-- pizza_cutter/wcs.py:31,34 `(dra < -180.0) & msk_finite`; `-inf < -180` holds but is
removed by the finite mask, so the mask is false on every non-finite element. -/
def maskLow : Flt → Bool
  | .fin q => decide (q < -180)
  | _ => false

/-- pizza_cutter/wcs.py:36,39 `(dra > 180.0) & msk_finite`. -/
def maskHigh : Flt → Bool
  | .fin q => decide (180 < q)
  | _ => false

/-- pizza_cutter/wcs.py:33,38 addition of a finite number to one element. -/
def Flt.add (x : Flt) (k : ℚ) : Flt :=
  match x with
  | .fin q => .fin (q + k)
  | .posInf => .posInf
  | .negInf => .negInf
  | .nan => .nan

/-- pizza_cutter/wcs.py:33 one pass `dra[msk] = dra[msk] + 360.0`. -/
def passLow (a : List Flt) : List Flt := a.map fun x => if maskLow x then x.add 360 else x

/-- pizza_cutter/wcs.py:38 one pass `dra[msk] = dra[msk] - 360.0`. -/
def passHigh (a : List Flt) : List Flt := a.map fun x => if maskHigh x then x.add (-360) else x

/-- How many passes an element still needs in the first array loop (termination measure
only, not part of the code). -/
def needLow : Flt → Nat
  | .fin q => (⌈(-180 - q) / 360⌉).toNat
  | _ => 0

/-- Termination measure of the second array loop (not part of the code). -/
def needHigh : Flt → Nat
  | .fin q => (⌈(q - 180) / 360⌉).toNat
  | _ => 0

theorem sum_map_lt {α : Type} (f g : α → Nat) (l : List α) (hle : ∀ x ∈ l, f x ≤ g x)
    (hlt : ∃ x ∈ l, f x < g x) : (l.map f).sum < (l.map g).sum := by
  induction l with
  | nil => simp at hlt
  | cons a t ih =>
    simp only [List.map_cons, List.sum_cons]
    have ha := hle a (by simp)
    have ht : (t.map f).sum ≤ (t.map g).sum := by
      clear ih hlt
      induction t with
      | nil => simp
      | cons b t ih2 =>
        simp only [List.map_cons, List.sum_cons]
        have := hle b (by simp)
        have := ih2 (fun x hx => hle x (by
          rcases List.mem_cons.1 hx with h | h <;> simp [h]))
        omega
    obtain ⟨x, hx, hx'⟩ := hlt
    rcases List.mem_cons.1 hx with h | h
    · subst h; omega
    · have := ih (fun y hy => hle y (by simp [hy])) ⟨x, h, hx'⟩
      omega

theorem passLow_dec (a : List Flt) (h : a.any maskLow = true) :
    ((passLow a).map needLow).sum < (a.map needLow).sum := by
  unfold passLow
  rw [List.map_map]
  have step : ∀ x, maskLow x = true → needLow (x.add 360) < needLow x := by
    intro x hx
    cases x with
    | fin q => exact wrapLow_dec (by simpa [maskLow] using hx)
    | _ => simp [maskLow] at hx
  apply sum_map_lt
  · intro x _
    simp only [Function.comp]
    split
    · exact (step x (by assumption)).le
    · exact le_refl _
  · obtain ⟨x, hx, hx'⟩ := List.any_eq_true.1 h
    exact ⟨x, hx, by simpa [hx'] using step x hx'⟩

theorem passHigh_dec (a : List Flt) (h : a.any maskHigh = true) :
    ((passHigh a).map needHigh).sum < (a.map needHigh).sum := by
  unfold passHigh
  rw [List.map_map]
  have step : ∀ x, maskHigh x = true → needHigh (x.add (-360)) < needHigh x := by
    intro x hx
    cases x with
    | fin q =>
      have := wrapHigh_dec (d := q) (by simpa [maskHigh] using hx)
      simpa [needHigh, Flt.add, sub_eq_add_neg] using this
    | _ => simp [maskHigh] at hx
  apply sum_map_lt
  · intro x _
    simp only [Function.comp]
    split
    · exact (step x (by assumption)).le
    · exact le_refl _
  · obtain ⟨x, hx, hx'⟩ := List.any_eq_true.1 h
    exact ⟨x, hx, by simpa [hx'] using step x hx'⟩

/-- pizza_cutter/wcs.py:31-34 the first array loop `while np.any(msk)`. -/
def arrLow (a : List Flt) : List Flt :=
  if _h : a.any maskLow = true then arrLow (passLow a) else a
termination_by (a.map needLow).sum
decreasing_by exact passLow_dec a _h

/-- pizza_cutter/wcs.py:36-39 the second array loop. -/
def arrHigh (a : List Flt) : List Flt :=
  if _h : a.any maskHigh = true then arrHigh (passHigh a) else a
termination_by (a.map needHigh).sum
decreasing_by exact passHigh_dec a _h

/-- pizza_cutter/wcs.py:29-41 `wrap_ra_diff`, array branch (the array flattened to a list;
the in-place update is returned as a new list). -/
def wrapRaDiffArr (a : List Flt) : List Flt := arrHigh (arrLow a)

/-- pizza_cutter/des_pizza_cutter/_affine_wcs.py:46-56 the attributes of an `AffineWCS`. -/
structure AffineWCS where
  dudx : ℚ
  dudy : ℚ
  dvdx : ℚ
  dvdy : ℚ
  x0 : ℚ
  y0 : ℚ
  det : ℚ
  deriving DecidableEq, Repr

/-- pizza_cutter/des_pizza_cutter/_affine_wcs.py:46-56 `AffineWCS.__init__`. -/
def AffineWCS.mk' (dudx dudy dvdx dvdy x0 y0 : ℚ) : Except Err AffineWCS :=
  let det := dudx * dvdy - dvdx * dudy
  if det = 0 then .error .valueError
  else .ok ⟨dudx, dudy, dvdx, dvdy, x0, y0, det⟩

/-- pizza_cutter/des_pizza_cutter/_affine_wcs.py:79-98 `AffineWCS.image2sky`. -/
def AffineWCS.image2sky (w : AffineWCS) (x y : ℚ) : ℚ × ℚ :=
  (w.dudx * (x - w.x0) + w.dudy * (y - w.y0), w.dvdx * (x - w.x0) + w.dvdy * (y - w.y0))

/-- pizza_cutter/des_pizza_cutter/_affine_wcs.py:100-119 `AffineWCS.sky2image`. -/
def AffineWCS.sky2image (w : AffineWCS) (u v : ℚ) : ℚ × ℚ :=
  ((w.dvdy * u - w.dudy * v) / w.det + w.x0, (-w.dvdx * u + w.dudx * v) / w.det + w.y0)

/-- pizza_cutter/des_pizza_cutter/_affine_wcs.py:121-141 `AffineWCS.get_jacobian`. -/
def AffineWCS.getJacobian (w : AffineWCS) (_x _y : ℚ) : ℚ × ℚ × ℚ × ℚ :=
  (w.dudx, w.dudy, w.dvdx, w.dvdy)

/-- pizza_cutter/wcs.py:66-118 `FastHashingWCS.get_jacobian`.  `image2sky` is the WCS
evaluation of the base class; `cosd` is `np.cos(dec*D2R)` (lines 5, 114), a parameter.
Positions and sky values are finite. -/
def getJacobian (image2sky : ℚ → ℚ → ℚ × ℚ) (cosd : ℚ → ℚ) (x y step : ℚ) :
    ℚ × ℚ × ℚ × ℚ :=
  let fac := 1 / (2 * step)
  let dec := (image2sky x y).2
  let p0 := image2sky (x + step) y
  let m0 := image2sky (x - step) y
  let p_0p := image2sky x (y + step)
  let p_0m := image2sky x (y - step)
  let dra_dx := fac * 3600 * wrapFin (p0.1 - m0.1)
  let dra_dy := fac * 3600 * wrapFin (p_0p.1 - p_0m.1)
  let ddec_dx := fac * 3600 * (p0.2 - m0.2)
  let ddec_dy := fac * 3600 * (p_0p.2 - p_0m.2)
  let cosdec := - cosd dec
  (dra_dx * cosdec, dra_dy * cosdec, ddec_dx, ddec_dy)

/-- pizza_cutter/des_pizza_cutter/_se_image.py:170-190 `_compute_wcs_area`; `celestial` is
the test of line 177, `cosd` is the cosine of a declination in degrees. -/
def computeWcsArea (celestial : Bool) (image2sky : ℚ → ℚ → ℚ × ℚ) (cosd : ℚ → ℚ)
    (x y dxy : ℚ) : ℚ :=
  let dec := (image2sky x y).2
  let xp := image2sky (x + dxy) y
  let xm := image2sky (x - dxy) y
  let yp := image2sky x (y + dxy)
  let ym := image2sky x (y - dxy)
  if celestial then
    let cosdec := cosd dec
    let dudx := -(1/2) * wrapFin (xp.1 - xm.1) / dxy * cosdec * 3600
    let dudy := -(1/2) * wrapFin (yp.1 - ym.1) / dxy * cosdec * 3600
    let dvdx := (1/2) * (xp.2 - xm.2) / dxy * 3600
    let dvdy := (1/2) * (yp.2 - ym.2) / dxy * 3600
    |dudx * dvdy - dvdx * dudy|
  else
    let dudx := (1/2) * (xp.1 - xm.1) / dxy
    let dudy := (1/2) * (yp.1 - ym.1) / dxy
    let dvdx := (1/2) * (xp.2 - xm.2) / dxy
    let dvdy := (1/2) * (yp.2 - ym.2) / dxy
    |dudx * dvdy - dvdx * dudy|

end Pizza
