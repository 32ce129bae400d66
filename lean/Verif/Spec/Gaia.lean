import Verif.Model.Gaia
import Mathlib.Algebra.BigOperators.Group.Finset.Basic

/-! Vocabulary for the properties of star masks. -/

namespace Pizza

/-- The polynomial with the highest power first. -/
def polySum (coeffs : List ℚ) (x : ℚ) : ℚ :=
  ∑ i ∈ Finset.range coeffs.length, (coeffs[i]?).getD 0 * x ^ (coeffs.length - 1 - i)

/-- The circle for a star: the WCS position without the offset, relative to the slice, with the radius
`10 ** poly(mag)`. -/
def circleFor (sky2image : ℚ → ℚ → ℚ × ℚ) (offset : ℚ) (pow10 f4 : ℚ → ℚ) (coeffs : List ℚ)
    (startCol startRow : ℤ) (s : CatStar) (m : ℚ) : Circle where
  x := (sky2image s.ra s.dec).1 - offset - startCol
  y := (sky2image s.ra s.dec).2 - offset - startRow
  r := f4 (pow10 (polySum coeffs m))

/-- The stars with a magnitude that is not too large, in the order of the catalog, each with its
magnitude. -/
inductive Bright (maxMag : ℚ) : List CatStar → List (CatStar × ℚ) → Prop
  | nil : Bright maxMag [] []
  | use (s : CatStar) (m : ℚ) (l l') : s.mag = some m → m ≤ maxMag → Bright maxMag l l' →
      Bright maxMag (s :: l) ((s, m) :: l')
  | faint (s : CatStar) (m : ℚ) (l l') : s.mag = some m → maxMag < m → Bright maxMag l l' →
      Bright maxMag (s :: l) l'
  | nan (s : CatStar) (l l') : s.mag = none → Bright maxMag l l' → Bright maxMag (s :: l) l'

end Pizza
