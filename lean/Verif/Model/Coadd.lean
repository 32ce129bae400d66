import Verif.Model.Measure
import Verif.Model.SEObject

/-!
`_coadd_slice_inputs` (pizza_cutter/des_pizza_cutter/_coadd_slices.py:553-710) and the check in
`_write_single_image` (pizza_cutter/des_pizza_cutter/_pizza_cutter.py:735-746).

Pixel values are rationals.  Shapes that differ are refused although numpy would broadcast a side
of length 1.
-/

namespace Pizza

/-- What `se_slice.resample(...)` returns, as used at _coadd_slices.py:658-696; PSF pixels that
are not finite are `none`. -/
structure EpochData where
  image : Img ℚ
  noises : List (Img ℚ)
  interpFrac : Img ℚ
  psf : Img (Option ℚ)
  bmask : Img (BitVec 32)
  pmask : Img (BitVec 32)

/-- The result of `resample` (modelled in `Model/SEObject.lean`) as seen by the coadding: a PSF
stamp with total 0 has been divided by 0 (_se_image.py:1740), which makes it non-finite. -/
def Resampling.toEpoch (r : Resampling) (psfFinite : Bool) : EpochData where
  image := r.image
  noises := r.noises
  interpFrac := r.interpFrac
  psf := r.psf.map fun v => if psfFinite then some v else none
  bmask := r.bmask
  pmask := r.pmask

/-- The arrays that are accumulated (_coadd_slices.py:634-648). -/
structure Stacks where
  image : Img ℚ
  interpFrac : Img ℚ
  noises : List (Img ℚ)
  psf : Img ℚ
  bmask : Img (BitVec 32)
  ormask : Img (BitVec 32)

/-- `np.zeros((n, n))` (_coadd_slices.py:634-648). -/
def zerosImg (n : Nat) : Img ℚ := ⟨n, n, fun _ _ => 0⟩

/-- `np.zeros((n, n), dtype=np.int32)` (_coadd_slices.py:638-639). -/
def zerosMask (n : Nat) : Img (BitVec 32) := ⟨n, n, fun _ _ => 0⟩

/-- `a += b * w` (_coadd_slices.py:680,682,687,693). -/
def addScaled (a b : Img ℚ) (w : ℚ) : Except Err (Img ℚ) :=
  if b.nrow = a.nrow ∧ b.ncol = a.ncol then
    .ok ⟨a.nrow, a.ncol, fun r c => a.px r c + b.px r c * w⟩
  else .error .valueError

/-- `a |= b` (_coadd_slices.py:695-696). -/
def orInto (a b : Img (BitVec 32)) : Except Err (Img (BitVec 32)) :=
  if b.nrow = a.nrow ∧ b.ncol = a.ncol then .ok ⟨a.nrow, a.ncol, fun r c => a.px r c ||| b.px r c⟩
  else .error .valueError

/-- The loop over the noise fields (_coadd_slices.py:681-682): IndexError when the epoch has too
few, more are ignored. -/
def addNoises (w : ℚ) : List (Img ℚ) → List (Img ℚ) → Except Err (List (Img ℚ))
  | [], _ => .ok []
  | _ :: _, [] => .error .indexError
  | a :: l, b :: m => do
    let s ← addScaled a b w
    let t ← addNoises w l m
    pure (s :: t)

/-- `np.clip(np.abs(v), 0, 1)` (_coadd_slices.py:685-686). -/
def clipFrac (v : ℚ) : ℚ := min (max |v| 0) 1

/-- The body of the loop (_coadd_slices.py:652-696). -/
def stackStep (st : Stacks) (d : EpochData) (w : ℚ) : Except Err Stacks := do
  let image ← addScaled st.image d.image w
  let noises ← addNoises w st.noises d.noises
  let frac ← addScaled st.interpFrac (d.interpFrac.map clipFrac) w
  let psf ← addScaled st.psf (d.psf.map fun v => v.getD 0) w
  let ormask ← orInto st.ormask d.bmask
  let bmask ← orInto st.bmask d.pmask
  pure ⟨image, frac, noises, psf, bmask, ormask⟩

/-- The loop (_coadd_slices.py:652-696); an epoch that cannot be resampled raises. -/
def stackAll : Stacks → List (Except Err EpochData × ℚ) → Except Err Stacks
  | st, [] => .ok st
  | st, (d, w) :: l => do
    let d ← d
    let st ← stackStep st d w
    stackAll st l

/-- `np.mean` of a non-empty list. -/
def npMean (l : List ℚ) : ℚ := l.sum / l.length

/-- `1.0 / np.var(a)` (_coadd_slices.py:699): NaN for an empty array, infinite for variance 0. -/
def invVar (a : Img ℚ) : Flt :=
  let l := a.values
  if l = [] then .nan
  else
    let v := npMean (l.map fun x => (x - npMean l) ^ 2)
    if v = 0 then .posInf else .fin (1 / v)

/-- `noises[0]` (_coadd_slices.py:698-699). -/
def firstNoise : List (Img ℚ) → Except Err (Img ℚ)
  | [] => .error .indexError
  | a :: _ => .ok a

/-- The arrays returned (_coadd_slices.py:701-710). -/
structure Coadd where
  image : Img ℚ
  bmask : Img (BitVec 32)
  ormask : Img (BitVec 32)
  noises : List (Img ℚ)
  psf : Img ℚ
  weight : Img Flt
  interpFrac : Img ℚ

/-- `_coadd_slice_inputs` (_coadd_slices.py:553-710).  `data` are the outcomes of the `resample`
calls.  Simplified: with weights that sum to 0 the normalised weights are 0 here, non-finite in
numpy; the properties exclude this case. -/
def coaddSliceInputs (box psfBox nExtra : Nat) (data : List (Except Err EpochData))
    (weights : List ℚ) : Except Err Coadd := do
  let weights := weights.map (· / weights.sum)
  if data.length ≠ weights.length then .error .assertionError
  else if data = [] then .error .indexError
  else
    let st ← stackAll ⟨zerosImg box, zerosImg box, List.replicate (nExtra + 1) (zerosImg box),
      zerosImg psfBox, zerosMask box, zerosMask box⟩ (data.zip weights)
    let noise0 ← firstNoise st.noises
    pure ⟨st.image, st.bmask, st.ormask, st.noises, st.psf,
      ⟨noise0.nrow, noise0.ncol, fun _ _ => invVar noise0⟩, st.interpFrac⟩

/-- `v < 0` of a float (_pizza_cutter.py:743). -/
def Flt.isNeg : Flt → Bool
  | .fin q => decide (q < 0)
  | .negInf => true
  | _ => false

/-- The check in `_write_single_image` (_pizza_cutter.py:742-744): `checked` says whether the
extension is the masked fraction or the weight. -/
def writeCheck (checked : Bool) (data : Img Flt) : Except Err Unit :=
  if checked && anyPix data.nrow data.ncol fun r c => (data.px r c).isNeg then .error .runtimeError
  else .ok ()

end Pizza
