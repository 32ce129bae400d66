import Verif.Model.SEGeom

/-!
The rough cut on the sky for a celestial WCS: `get_rough_sky_bounds`
(pizza_cutter/des_pizza_cutter/_sky_bounds.py:6-102) with `celestial=True`, and the whole of
`SEImageSlice.ccd_contains_radec` (_se_image.py:944-985).  The cut for a WCS that is not celestial is in
`Model/SEGeom`.

`toUV ra dec ra0 dec0` is `meds.util.radec_to_uv` (external), in arcseconds; `cosArc v` is
`np.cos(np.deg2rad(v / 3600.0))`.  They are parameters.
-/

namespace Pizza

/-- `get_rough_sky_bounds` with `celestial=True` (_sky_bounds.py:49-102).  A zero cosine divides by zero
(numpy gives an infinite buffer; simplification, the properties exclude it). -/
def roughSkyBoundsCel (toUV : ℚ → ℚ → ℚ → ℚ → ℚ × ℚ) (cosArc : ℚ → ℚ) (nrow ncol nGrid : Nat)
    (image2sky : ℚ → ℚ → ℚ × ℚ) (offset buffer : ℚ) : Except Err (Bounds ℚ × ℚ × ℚ) := do
  if nrow = 0 ∨ ncol = 0 ∨ nGrid = 0 then throw .zeroDivision
  let pts := gridPoints nrow ncol nGrid
  let sky := pts.map fun p => image2sky (p.2 + offset) (p.1 + offset)
  let rowCcd := ((nrow : ℚ) - 1) / 2
  let colCcd := ((ncol : ℚ) - 1) / 2
  let ccd := image2sky (colCcd + offset) (rowCcd + offset)
  let uv := sky.map fun s => toUV s.1 s.2 ccd.1 ccd.2
  let u := uv.map Prod.fst
  let v := uv.map Prod.snd
  let ufac ← qmin? (v.map cosArc)
  let ubuff := buffer / ufac
  let umin ← qmin? u
  let umax ← qmax? u
  let vmin ← qmin? v
  let vmax ← qmax? v
  return (⟨umin - ubuff, umax + ubuff, vmin - buffer, vmax + buffer⟩, ccd.1, ccd.2)

/-- The test of one position in `ccd_contains_radec` (_se_image.py:974-980). -/
def ccdContainsCel (toUV : ℚ → ℚ → ℚ → ℚ → ℚ × ℚ) (celestial : Bool) (sb : Bounds ℚ × ℚ × ℚ) (ra dec : ℚ) :
    Bool :=
  if celestial = true then
    let uv := toUV ra dec sb.2.1 sb.2.2
    sb.1.containsPoint uv.1 uv.2
  else ccdContainsRadec sb ra dec

/-- `ccd_contains_radec` (_se_image.py:944-985): a bool for scalars, a list of bools for arrays. -/
def ccdContainsCall (toUV : ℚ → ℚ → ℚ → ℚ → ℚ × ℚ) (celestial : Bool) (sb : Bounds ℚ × ℚ × ℚ) (ra dec : Arg) :
    Except Err (Bool ⊕ List Bool) :=
  let isScalar := ra.ndim = 0 ∧ dec.ndim = 0
  if ¬ (ra.ndim ≤ 1 ∧ dec.ndim ≤ 1) then .error .assertionError
  else if ra.ndim ≠ dec.ndim then .error .assertionError
  else do
    let out ← broadcast (ccdContainsCel toUV celestial sb) ra.flat dec.flat
    if isScalar then
      match out with
      | b :: _ => pure (.inl b)
      | [] => .error .indexError
    else pure (.inr out)

end Pizza
