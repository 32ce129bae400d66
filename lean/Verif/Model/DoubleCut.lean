import Verif.Model.DoubleCoadd
import Verif.Model.BuildInputs

/-!
The cuts on the masked fraction and the effective number of epochs in floating point arithmetic.  Numbers of pixels are
exact (sums of ones below `2 ^ p`); the quotients are rounded.
-/

namespace Pizza

/-- `compute_masked_fraction` (flag.py:53-82) with rounded quotients. -/
def computeMaskedFractionD (rnd : ℚ → ℚ) (weight : Img ℚ) (bmask : Img (BitVec 32)) (badFlags : BitVec 32)
    (ignore : Option (Img Bool)) : Flt :=
  match ignore with
  | some ig =>
    if allLt weight.nrow fun r => allLt weight.ncol fun c => ig.px r c then .fin 1
    else
      .fin (rnd ((countPix weight.nrow weight.ncol fun r c =>
          badPix weight bmask badFlags r c && !ig.px r c : ℚ) /
        (countPix weight.nrow weight.ncol fun r c => !ig.px r c : ℚ)))
  | none =>
    if weight.nrow * weight.ncol = 0 then .nan
    else .fin (rnd ((countPix weight.nrow weight.ncol fun r c => badPix weight bmask badFlags r c : ℚ) /
      ((weight.nrow * weight.ncol : Nat) : ℚ)))

/-- The masked fraction computed from the processing mask (_coadd_slices.py:507-515) with rounded quotients. -/
def pmaskFractionD (rnd : ℚ → ℚ) (pmask : Img (BitVec 32)) (gaia : Option (Img Bool)) : Flt :=
  match gaia with
  | some g =>
    if allLt g.nrow fun r => allLt g.ncol fun c => g.px r c then .fin 1
    else
      .fin (rnd ((countPix pmask.nrow pmask.ncol fun r c =>
          decide (pmask.px r c ≠ 0) && !g.px r c : ℚ) /
        (countPix g.nrow g.ncol fun r c => !g.px r c : ℚ)))
  | none =>
    if pmask.nrow * pmask.ncol = 0 then .nan
    else .fin (rnd ((countPix pmask.nrow pmask.ncol fun r c => decide (pmask.px r c ≠ 0) : ℚ) /
      ((pmask.nrow * pmask.ncol : Nat) : ℚ)))

/-- `skip_masked_fraction` (_coadd_slices.py:360-368); the configured number has been rounded when it was read. -/
def skipFracD (rnd : ℚ → ℚ) (maxFrac : ℚ) (weight : Img ℚ) (bmask : Img (BitVec 32)) (badFlags : BitVec 32)
    (ignore : Option (Img Bool)) : Bool :=
  (computeMaskedFractionD rnd weight bmask badFlags ignore).geq (rnd maxFrac)

/-- `masked_frac >= max_masked_fraction` (_coadd_slices.py:507-517). -/
def retestFracD (rnd : ℚ → ℚ) (maxFrac : ℚ) (pmask : Img (BitVec 32)) (gaia : Option (Img Bool)) : Bool :=
  (pmaskFractionD rnd pmask gaia).geq (rnd maxFrac)

/-- `bm_frac <= maxfrac and nbad < npix` (interpolate.py:153-156); `maxfrac` was rounded when it was read. -/
def interpAtMaskD (rnd : ℚ → ℚ) (maxFrac : ℚ) (nbad npix : Nat) : Bool :=
  decide (npix ≠ 0 ∧ rnd ((nbad : ℚ) / npix) ≤ rnd maxFrac ∧ nbad < npix)

/-- `np.mean(bad_msk) > maxfrac or np.all(bad_msk)` (interpolate.py:297). -/
def interpRefusedD (rnd : ℚ → ℚ) (maxFrac : ℚ) (nbad npix : Nat) : Bool :=
  decide (rnd ((nbad : ℚ) / npix) > rnd maxFrac ∨ nbad = npix)

/-- `weights.sum() / weights.max()` (_pizza_cutter.py:457-459), the sum in some order. -/
def NepochRuns (rnd : ℚ → ℚ) (weights : List ℚ) (e : ℚ) : Prop :=
  match weights with
  | [] => False
  | w :: l => ∃ s, SumRuns rnd (w :: l) s ∧ e = rnd (s / l.foldl max w)

end Pizza
