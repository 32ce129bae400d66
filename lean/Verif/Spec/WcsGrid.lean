import Verif.Model.WcsGrid
import Mathlib.Analysis.Convex.Hull

/-! What is assumed of the two scipy interpolators, and the true positions of the WCS lookups. -/

namespace Pizza

/-- Three of the points are not on a line (specification). -/
def Spans (pts : List (ℚ × ℚ)) : Prop :=
  ∃ p ∈ pts, ∃ q ∈ pts, ∃ r ∈ pts, (q.1 - p.1) * (r.2 - p.2) - (q.2 - p.2) * (r.1 - p.1) ≠ 0

/-- Assumptions on `CloughTocher2DInterpolator` in exact arithmetic: it accepts points that are
not all on a line; it is NaN exactly outside the convex hull of the points; it interpolates; and
it reproduces affine functions. -/
structure FitSpec (fit : Fit) : Prop where
  total : ∀ pts vals, pts.length = vals.length → pts.Nodup → Spans pts → ∃ f, fit pts vals = .ok f
  hull : ∀ pts vals f, fit pts vals = .ok f → ∀ p, f p = none ↔ p ∉ convexHull ℚ {q | q ∈ pts}
  node : ∀ pts vals f, fit pts vals = .ok f → pts.Nodup →
    ∀ (i : Nat) p v, pts[i]? = some p → vals[i]? = some v → f p = some v
  affine : ∀ pts vals f, fit pts vals = .ok f → ∀ a b c : ℚ,
    (∀ (i : Nat) p v, pts[i]? = some p → vals[i]? = some v → v = a + b * p.1 + c * p.2) →
    pts.length = vals.length →
    ∀ p ∈ convexHull ℚ {q | q ∈ pts}, f p = some (a + b * p.1 + c * p.2)

/-- Assumptions on `RectBivariateSpline` (cubic in both directions) in exact arithmetic: fewer than
four nodes in a direction are refused; it interpolates; it reproduces bilinear functions between
the nodes; and a position outside the nodes is moved to the nearest position inside. -/
structure SplineSpec (spl : Spline) : Prop where
  total : ∀ xs ys a, 4 ≤ xs.length → 4 ≤ ys.length → xs.Pairwise (· < ·) → ys.Pairwise (· < ·) →
    a.nrow = xs.length → a.ncol = ys.length → ∃ f, spl xs ys a = .ok f
  small : ∀ xs ys a, xs.length < 4 ∨ ys.length < 4 → spl xs ys a = .error .valueError
  node : ∀ xs ys a f, spl xs ys a = .ok f → ∀ (i j : Nat) x y, xs[i]? = some x → ys[j]? = some y →
    f x y = a.px i j
  bilinear : ∀ xs ys a f, spl xs ys a = .ok f → ∀ p q r s : ℚ,
    (∀ (i j : Nat) x y, xs[i]? = some x → ys[j]? = some y → a.px i j = p + q * x + r * y + s * x * y) →
    ∀ x y, (∃ x0 ∈ xs, ∃ x1 ∈ xs, x0 ≤ x ∧ x ≤ x1) → (∃ y0 ∈ ys, ∃ y1 ∈ ys, y0 ≤ y ∧ y ≤ y1) →
      f x y = p + q * x + r * y + s * x * y
  outside : ∀ xs ys a f, spl xs ys a = .ok f → ∀ x y, ∃ x' y', f x y = f x' y' ∧
    (∃ x0 ∈ xs, ∃ x1 ∈ xs, x0 ≤ x' ∧ x' ≤ x1) ∧ (∃ y0 ∈ ys, ∃ y1 ∈ ys, y0 ≤ y' ∧ y' ≤ y1)

/-- The coadd position of the zero-indexed SE position `(x, y)`: through the SE WCS to the sky and
through the inverse coadd WCS back, each in its own pixel convention (specification). -/
def coaddPos (coaddInv : ℚ → ℚ → ℚ × ℚ) (off : ℚ) (se : SEWcs) (x y : ℚ) : ℚ × ℚ :=
  let sky := se.fwd (x + se.offset) (y + se.offset)
  ((coaddInv sky.1 sky.2).1 - off, (coaddInv sky.1 sky.2).2 - off)

/-- Position `(x, y)` is on an image of the given size, pixel edges included (specification). -/
def OnImage (nrow ncol : Nat) (x y : ℚ) : Prop :=
  -(1/2) ≤ x ∧ x ≤ (ncol : ℚ) - 1/2 ∧ -(1/2) ≤ y ∧ y ≤ (nrow : ℚ) - 1/2

/-- The smallest multiple of `delta` that is at least `dim` (specification). -/
def IsReach (dim delta reach : Nat) : Prop := delta ∣ reach ∧ dim ≤ reach ∧ reach < dim + delta

end Pizza
