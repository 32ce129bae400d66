import Verif.Model.SkyBounds
import Verif.Spec.Moved

/-! Vocabulary for C158: the whole sky is turned in right ascension. -/

namespace Pizza

/-- The right ascension `ra` turned by `δ` degrees, up to whole turns. -/
def TurnedRa (δ ra ra' : ℚ) : Prop := ∃ k : ℤ, ra' = ra + δ + 360 * k

/-- A map from pixels to the sky that is turned; where it crosses 0/360 does not matter. -/
structure TurnedMap (δ : ℚ) (f f' : ℚ → ℚ → ℚ × ℚ) : Prop where
  ra : ∀ x y, TurnedRa δ (f x y).1 (f' x y).1
  dec : ∀ x y, (f' x y).2 = (f x y).2

/-- A map from the sky to pixels that is turned. -/
def TurnedInv (δ : ℚ) (g g' : ℚ → ℚ → ℚ × ℚ) : Prop := ∀ ra ra' dec, TurnedRa δ ra ra' → g' ra' dec = g ra dec

/-- The two neighbours of a pixel are not exactly half a turn apart. -/
def NotHalf (f : ℚ → ℚ → ℚ × ℚ) : Prop :=
  ∀ x y, ¬ TurnedRa 180 (f (x - 1) y).1 (f (x + 1) y).1 ∧ ¬ TurnedRa 180 (f x (y - 1)).1 (f x (y + 1)).1

/-- The WCS of an SE image that is turned. -/
structure TurnedWcs (δ : ℚ) (o o' : WcsObj) : Prop where
  cls : o'.cls = o.cls
  celestial : o.cls = .esutil ∨ o.cls = .galsimCelestial
  fwd : TurnedMap δ o.fwd o'.fwd
  notHalf : NotHalf o.fwd
  inv : TurnedInv δ o.inv o'.inv

/-- The option `wcs_type` of a turned image; affine WCSs are not on the sphere. -/
inductive TurnedReq (δ : ℚ) : Req WcsObj → Req WcsObj → Prop
  | named (s) (h : s ≠ "affine") : TurnedReq δ (.named s) (.named s)
  | object (o o') (h : TurnedWcs δ o o') : TurnedReq δ (.object o) (.object o')

/-- A slice whose position on the sky is turned. -/
structure TurnedRow (δ : ℚ) (row row' : ObjRow) : Prop where
  ra : TurnedRa δ row.ra row'.ra
  rest : row' = { row with ra := row'.ra }

/-- The same tile on a sky that is turned: the WCSs in all files and of the coadd, the stars and the positions of the slices are turned, nothing
else is different.  Of the libraries it is assumed that `radec_to_uv` depends on differences of right ascension only, and that a PSF model
is drawn the same with a WCS that is turned. -/
structure TurnedSky {A σ S P : Type} (δ : ℚ) (w w' : ProcWorld A σ S P) (t t' : Tile A S P) : Prop where
  world : w' = { w with disk := w'.disk, gaia := w'.gaia }
  toUV : ∀ ra ra' dec ra0 ra0' dec0, TurnedRa δ ra ra' → TurnedRa δ ra0 ra0' → w.toUV ra' dec ra0' dec0 = w.toUV ra dec ra0 dec0
  imageWcs : ∀ p e, BothOk (TurnedWcs δ) (w.disk.imageWcs p e) (w'.disk.imageWcs p e)
  headWcs : ∀ h p e, BothOk (TurnedWcs δ) (w.disk.headWcs h p e) (w'.disk.headWcs h p e)
  piff : ∀ p n, BothOk (fun r r' => r'.1 = r.1 ∧ TurnedWcs δ r.2 r'.2) (w.disk.piff p n) (w'.disk.piff p n)
  disk : w'.disk = { w.disk with imageWcs := w'.disk.imageWcs, headWcs := w'.disk.headWcs, piff := w'.disk.piff }
  bounds : ∃ cosArc nGrid buffer, ∀ shape f,
    w.disk.skyBounds shape f true = roughSkyBoundsCel w.toUV cosArc shape.1 shape.2 nGrid f 0 buffer
  psfSize : ∀ p o o' off x y, TurnedWcs δ o o' → w.setupDim p o' off x y = w.setupDim p o off x y
  psfDraw : ∀ p o o' ty off kw ccd x y, TurnedWcs δ o o' → w.drawPsf p o' ty off kw ccd x y = w.drawPsf p o ty off kw ccd x y
  gaia : ∀ path, BothOk (List.Forall₂ fun s s' => TurnedRa δ s.ra s'.ra ∧ s'.dec = s.dec ∧ s'.mag = s.mag) (w.gaia path) (w'.gaia path)
  tile : t' = { t with wcs := t'.wcs, fwd := t'.fwd, inv := t'.inv, key := t'.key, objects := t'.objects }
  request : TurnedReq δ t.wcs t'.wcs
  celestial : t.celestial = true
  fwd : TurnedMap δ t.fwd t'.fwd
  notHalf : NotHalf t.fwd
  inv : TurnedInv δ t.inv t'.inv
  objects : List.Forall₂ (TurnedRow δ) t.objects t'.objects

end Pizza
