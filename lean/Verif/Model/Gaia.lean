import Verif.Model.Basic
import Mathlib.Data.Rat.Defs

/-!
Masks around bright stars: `_read_gaia_stars`, `_add_gaia_radius`, `_build_gaia_star_mask`
(pizza_cutter/des_pizza_cutter/_pizza_cutter.py:241-270, 651-683).

Drawing the mask is `metadetect.masking.make_foreground_bmask`, which is not part of this project: it is
a parameter that gets the positions and radii. `10**x` and the rounding to single precision are
parameters. A magnitude that is NaN is `none`. Indexing with an integer array (line 243) copies, so that
the cached catalog is not changed.
-/

namespace Pizza

/-- A row of the catalog. -/
structure CatStar where
  ra : ℚ
  dec : ℚ
  mag : Option ℚ
  deriving DecidableEq

/-- A row with pixel coordinates (_pizza_cutter.py:675-681). -/
structure PixStar where
  star : CatStar
  x : ℚ
  y : ℚ
  deriving DecidableEq

/-- `_read_gaia_stars` (_pizza_cutter.py:651-683) after reading the file. -/
def readGaiaStars (sky2image : ℚ → ℚ → ℚ × ℚ) (offset : ℚ) (data : List CatStar) : List PixStar :=
  data.map fun s => ⟨s, (sky2image s.ra s.dec).1 - offset, (sky2image s.ra s.dec).2 - offset⟩

/-- `np.poly1d(coeffs)`: zeros in front are removed; no coefficients are one zero. -/
def poly1d (coeffs : List ℚ) : List ℚ :=
  match coeffs.dropWhile (· = 0) with
  | [] => [0]
  | c :: l => c :: l

/-- `np.polyval`: Horner's rule. -/
def polyval (p : List ℚ) (x : ℚ) : ℚ := p.foldl (fun y c => y * x + c) 0

/-- `_add_gaia_radius` (_pizza_cutter.py:241-251): comparisons with NaN are false. -/
def addGaiaRadius (pow10 f4 : ℚ → ℚ) (stars : List PixStar) (maxMag : ℚ) (coeffs : List ℚ) :
    List (PixStar × ℚ) :=
  stars.filterMap fun s =>
    match s.star.mag with
    | none => none
    | some m => if m ≤ maxMag then some (s, f4 (pow10 (polyval (poly1d coeffs) m))) else none

/-- What is given to the function that draws the mask. -/
structure Circle where
  x : ℚ
  y : ℚ
  r : ℚ
  deriving DecidableEq

/-- `_build_gaia_star_mask` (_pizza_cutter.py:254-270). -/
def buildGaiaStarMask {S : Type} (draw : List Circle → Nat → S → Img (BitVec 32)) (pow10 f4 : ℚ → ℚ)
    (stars : List PixStar) (maxMag : ℚ) (coeffs : List ℚ) (startCol startRow : ℤ) (box : Nat) (symmetrize : S) :
    Img Bool :=
  let st := addGaiaRadius pow10 f4 stars maxMag coeffs
  let m := draw (st.map fun s => ⟨s.1.x - startCol, s.1.y - startRow, s.2⟩) box symmetrize
  ⟨m.nrow, m.ncol, fun r c => decide (m.px r c ≠ 0)⟩

end Pizza
