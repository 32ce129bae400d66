import Verif.Spec.PixelLaw
import Verif.Spec.Process

/-! Vocabulary for the values of coadd pixels in terms of the SE files and of a position on the coadd alone: no slice,
layout, seed or size enters. -/

namespace Pizza

variable {A σ S P : Type}

/-- The mapping between the coadd and an SE image, and the size of the SE image. -/
def MapsTo (w : ProcWorld A σ S P) (t : Tile A S P) (e : Entry P) (lk : Lookups) (nrow ncol : Nat) : Prop :=
  ∃ con, (seInit w.disk e.src e.offset t.wcs t.psf).out = .ok con ∧ nrow = con.shape.1 ∧ ncol = con.shape.2 ∧
    buildLookups w.fit w.spl ⟨⟨con.wcs.fwd, con.wcs.inv, e.offset⟩, con.wcs.isCelestial, con.shape.1, con.shape.2,
      t.fwd, t.inv, t.celestial, t.offset, t.shape.1, t.shape.2, w.cosd⟩ t.seDelta t.coaddDelta = .ok lk

/-- `f` is the flux that an SE image gives for a coadd pixel at the position `(u, v)` of the coadd. -/
def SkyFlux (sinc : ℚ → ℚ) (w : ProcWorld A σ S P) (t : Tile A S P) (u v : ℚ) (e : Entry P) (f : ℚ) : Prop :=
  ∃ (lk : Lookups) (nrow ncol : Nat) (im bkg : Arr) (x y : ℚ), MapsTo w t e lk nrow ncol ∧
    w.original e.image = .ok im ∧ w.original e.bkg = .ok bkg ∧ lk.toSe u v = some (x, y) ∧
    f = lk.areaCoadd u v * kernelSum sinc nrow ncol x y fun r c =>
      (im.asNum.px r c - bkg.asNum.px r c) * w.zpScale e.magzp / lk.areaSe c r

/-- Likewise for the noise image number `k`. -/
def SkyNoise (sinc : ℚ → ℚ) (w : ProcWorld A σ S P) (t : Tile A S P) (k : Nat) (u v : ℚ) (e : Entry P) (f : ℚ) :
    Prop :=
  ∃ (lk : Lookups) (nrow ncol seed : Nat) (a : Img ℚ) (x y : ℚ), MapsTo w t e lk nrow ncol ∧
    e.noiseSeeds[k]? = some seed ∧ freshNoise w e seed = .ok a ∧ lk.toSe u v = some (x, y) ∧
    f = lk.areaCoadd u v * kernelSum sinc nrow ncol x y fun r c => a.px r c / lk.areaSe c r

/-- All pixels of the SE image from which its value at the position `(u, v)` of the coadd is interpolated are in the
window recorded for it, have a positive weight and carry none of the flags. -/
def Undefected (w : ProcWorld A σ S P) (t : Tile A S P) (flags : BitVec 32) (u v : ℚ) (e : Entry P) (er : EpochRow) :
    Prop :=
  ∃ (lk : Lookups) (nrow ncol : Nat) (wt : Arr) (bm : Img (BitVec 32)) (x y : ℚ), MapsTo w t e lk nrow ncol ∧
    w.original e.weight = .ok wt ∧ freshMask w t e = .ok bm ∧ lk.toSe u v = some (x, y) ∧
    ∀ i j : ℤ, y - 3 < i → i ≤ y + 3 → x - 3 < j → j ≤ x + 3 → ∃ r c : Nat, i = r ∧ j = c ∧
      er.rowStart ≤ i ∧ i < er.rowStart + er.boxSize ∧ er.colStart ≤ j ∧ j < er.colStart + er.boxSize ∧
      0 < wt.asNum.px r c ∧ ¬ Carries (bm.px r c) flags

/-- The rows of the table of epochs that belong to the used images. -/
def usedRows (r : SliceRes Flt EpochRow) : List EpochRow := r.epochs.filter fun e => decide (e.flags = 0)

/-- Two tiles have the same coadd WCS and map it in the same way to the same SE images. -/
structure SameGrid (t t' : Tile A S P) : Prop where
  entries : t'.entries = t.entries
  wcs : t'.wcs = t.wcs
  psf : t'.psf = t.psf
  fwd : t'.fwd = t.fwd
  inv : t'.inv = t.inv
  celestial : t'.celestial = t.celestial
  offset : t'.offset = t.offset
  shape : t'.shape = t.shape
  seDelta : t'.seDelta = t.seDelta
  coaddDelta : t'.coaddDelta = t.coaddDelta

end Pizza
