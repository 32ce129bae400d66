import Verif.Model.SEObject

/-!
`_build_slice_inputs` and `_build_coadd_weight`
(pizza_cutter/des_pizza_cutter/_coadd_slices.py:28-550).

Pixel values are rationals (NaN pixels are not modelled).  Everything that the function asks of
other libraries or of files is a parameter: see `Src` and `Ext`.
-/

namespace Pizza

/-- One entry of `se_src_info` together with what the `SEImageSlice` built from it answers
(_coadd_slices.py:216-263).  `init` is the constructor, `containsRadec` is
`ccd_contains_radec(ra, dec)`, `pos` is `sky2image(ra, dec)` as (col, row), `nrow`/`ncol` the
shape of the CCD, `reads` the files, `scale` the zero-point factor, `psfX`/`psfY` is
`sky2image(ra_psf, dec_psf)`, `psfFlag`/`psfImage` are the outcomes of the Piff model check and
of `get_psf_image`, `toCoadd` is the interpolated map from CCD to coadd positions and `lookups` what
`resample` looks up (building the tables can fail), `imageId` is `source_info['image_id']`. -/
structure Src where
  imageFlags : ℤ
  init : Except Err Unit
  containsRadec : Except Err Bool
  pos : Except Err (ℚ × ℚ)
  nrow : Nat
  ncol : Nat
  reads : SEReads
  scale : ℚ
  psfX : ℚ
  psfY : ℚ
  psfFlag : Except Err Bool
  psfImage : Except Err (Img ℚ)
  toCoadd : Except Err (ℚ → ℚ → Option (ℚ × ℚ))
  lookups : Except Err Lookups
  imageId : ℤ

/-- The `coadding_weight` option (_coadd_slices.py:30-40). -/
inductive CoaddWeight where
  | noise
  | noiseFwhm
  | unknown
  deriving DecidableEq

/-- The arguments of `_build_slice_inputs` that configure it (_coadd_slices.py:45-75). -/
structure BuildCfg (A : Type) where
  boxSize : ℤ
  fracBuffer : ℚ
  startRow : ℤ
  startCol : ℤ
  coaddingWeight : CoaddWeight
  rejectOutliers : Bool
  symmetrize : SymCfg A
  copyEdges : Bool
  noiseFlags : BitVec 32
  splineFlags : BitVec 32
  badImageFlags : BitVec 32
  maxMaskedFraction : ℚ
  edgeBuffer : ℤ
  gaia : Option (Img Bool)

/-- External functions: `scipy.ndimage.rotate`, `CloughTocher2DInterpolator`,
`RandomState.normal(size=shape)` (new state depends on nothing else), `v -> sqrt(1/v)`,
`measure_fwhm`, and `meds.meds.reject_outliers`, which writes weights in place (its `i`-th
weight afterwards). -/
structure Ext (A σ : Type) where
  rotate : A → Img ℚ → Img ℚ
  interp : List (Nat × Nat) → List ℚ → Except Err (Nat × Nat → ℚ)
  normals : σ → Nat → Nat → Img ℚ × σ
  invSqrt : ℚ → ℚ
  fwhm : Img ℚ → Except Err ℚ
  outliers : List (Img ℚ) → List (Img ℚ) → Except Err (Nat → Img ℚ)

/-- `np.max(a)`: ValueError for an empty array (_coadd_slices.py:32,35). -/
def Img.npMax (a : Img ℚ) : Except Err ℚ :=
  qmax? ((List.range a.nrow).flatMap fun r => (List.range a.ncol).map fun c => a.px r c)

/-- `_build_coadd_weight` (_coadd_slices.py:28-42). -/
def buildCoaddWeight (fwhm : Img ℚ → Except Err ℚ) (kind : CoaddWeight) (weight psf : Img ℚ) :
    Except Err ℚ :=
  match kind with
  | .noise => weight.npMax
  | .noiseFwhm => do
    let wt ← weight.npMax
    let f ← fwhm psf
    pure (wt / f ^ 4)
  | .unknown => .error .valueError

/-! ### the rough cut -/

/-- A candidate: the source, its slice object, and the PSF flag (_coadd_slices.py:259-263). -/
structure Cand where
  src : Src
  obj : SEObj
  psfFlag : Bool

/-- The body of the first loop (_coadd_slices.py:216-263): the candidate appended, if any. -/
def roughCut {A : Type} (c : BuildCfg A) (s : Src) : Except Err (List Cand) :=
  if s.imageFlags = 0 then do
    let _ ← s.init
    let inside ← s.containsRadec
    if inside then
      let p ← s.pos
      let bnds := computeSliceBounds p.1 p.2 c.boxSize c.fracBuffer
      if ccdContainsBounds s.nrow s.ncol bnds c.edgeBuffer then
        match ({} : SEObj).setSlice s.reads s.scale bnds with
        | (_, some e) => throw e
        | (o, none) =>
          let r := o.setPsf s.psfX s.psfY s.psfFlag s.psfImage
          let flag ← r.2
          pure [⟨s, r.1, flag⟩]
      else pure []
    else pure []
  else pure []

/-- The first loop (_coadd_slices.py:214-263). -/
def possibleSlices {A : Type} (c : BuildCfg A) : List Src → Except Err (List Cand)
  | [] => .ok []
  | s :: l => do
    let a ← roughCut c s
    let t ← possibleSlices c l
    pure (a ++ t)

/-- Outlier rejection (_coadd_slices.py:273-278): replaces the weights. -/
def rejectOutliers {A σ : Type} (x : Ext A σ) (c : BuildCfg A) (cands : List Cand) :
    Except Err (List Cand) :=
  if c.rejectOutliers then do
    let ims ← cands.mapM fun k => attr k.obj.image
    let wts ← cands.mapM fun k => attr k.obj.weight
    let new ← x.outliers ims wts
    pure (cands.mapIdx fun i k => { k with obj := { k.obj with weight := some (new i) } })
  else pure cands

/-! ### cuts and interpolation of one candidate -/

/-- `v >= m` for a float `v` (NaN: False) (_coadd_slices.py:360-368,517). -/
def Flt.geq : Flt → ℚ → Bool
  | .fin q, m => decide (m ≤ q)
  | .posInf, _ => true
  | .negInf, _ => false
  | .nan, _ => false

/-- The coadd GAIA mask mapped to the SE slice (_coadd_slices.py:305-315). -/
def seGaiaMask {A : Type} (c : BuildCfg A) (s : Src) (o : SEObj) :
    Except Err (Option (Img Bool)) :=
  match c.gaia with
  | some g => do
    let f ← s.toCoadd
    let m ← o.mapImage false g c.startCol c.startRow f
    pure (some m)
  | none => pure none

/-- The flags of a candidate rejected by the initial cuts (_coadd_slices.py:377-394). -/
def skipFlagWord (edge flags frac psf : Bool) : BitVec 32 :=
  let f : BitVec 32 := 0
  let f := if edge then f ||| FULL_EDGE_MASKED else f
  let f := if flags then f ||| SLICE_HAS_FLAGS else f
  let f := if frac then f ||| HIGH_MASKED_FRAC else f
  if psf then f ||| BAD_PSF_MODEL else f

/-- Image, noise fields and processing mask during the interpolation steps
(_coadd_slices.py:405-416). -/
structure Work where
  image : Img ℚ
  noises : List (Img ℚ)
  pmask : Img (BitVec 32)

/-- `a[msk] = b[msk]` (_coadd_slices.py:428,434). -/
def Img.putWhere {α : Type} (a : Img α) (msk : Nat → Nat → Bool) (b : Img α) : Img α :=
  ⟨a.nrow, a.ncol, fun r c => if msk r c then b.px r c else a.px r c⟩

/-- `pmask[msk] |= flag` (_coadd_slices.py:436,451,502). -/
def Img.orWhere (a : Img (BitVec 32)) (msk : Nat → Nat → Bool) (flag : BitVec 32) :
    Img (BitVec 32) :=
  ⟨a.nrow, a.ncol, fun r c => if msk r c then a.px r c ||| flag else a.px r c⟩

/-- One noise draw `rng.normal(size=...) * np.sqrt(1.0/se_wgt)` (_coadd_slices.py:425-427). -/
def noiseDraw {A σ : Type} (x : Ext A σ) (wgt : Img ℚ) (rng : σ) : Img ℚ × σ :=
  let d := x.normals rng wgt.nrow wgt.ncol
  (⟨wgt.nrow, wgt.ncol, fun r c => d.1.px r c * x.invSqrt (wgt.px r c)⟩, d.2)

/-- The loop over the noise fields (_coadd_slices.py:430-434). -/
def noiseFill {A σ : Type} (x : Ext A σ) (wgt : Img ℚ) (msk : Nat → Nat → Bool) :
    List (Img ℚ) → σ → List (Img ℚ) × σ
  | [], rng => ([], rng)
  | a :: l, rng =>
    let d := noiseDraw x wgt rng
    let t := noiseFill x wgt msk l d.2
    (a.putWhere msk d.1 :: t.1, t.2)

/-- `np.max(weight[weight > 0])`: ValueError when there is none (_coadd_slices.py:421-424). -/
def maxPositive (weight : Img ℚ) : Except Err ℚ :=
  qmax? (((List.range weight.nrow).flatMap fun r => (List.range weight.ncol).map fun c =>
    weight.px r c).filter fun v => decide (0 < v))

/-- Noise interpolation (_coadd_slices.py:413-436). -/
def noiseInterp {A σ : Type} (x : Ext A σ) (flags : BitVec 32) (image : Img ℚ)
    (noises : List (Img ℚ)) (weight : Img ℚ) (bmask : Img (BitVec 32)) (rng : σ) :
    Except Err (Work × σ) :=
  let pmask : Img (BitVec 32) := ⟨bmask.nrow, bmask.ncol, fun _ _ => 0⟩
  let msk : Nat → Nat → Bool := fun r c => hasFlag (bmask.px r c) flags
  if anyPix bmask.nrow bmask.ncol msk then do
    let top ← maxPositive weight
    let wgt : Img ℚ := ⟨weight.nrow, weight.ncol, fun r c =>
      if weight.px r c ≤ 0 then top else weight.px r c⟩
    let d := noiseDraw x wgt rng
    let t := noiseFill x wgt msk noises d.2
    pure (⟨image.putWhere msk d.1, t.1, pmask.orWhere msk BMASK_NOISE_INTERP⟩, t.2)
  else pure (⟨image, noises, pmask⟩, rng)

/-- `msk | (a != b)` over image and noise fields (_coadd_slices.py:448-450,494-500). -/
def changed (a b : Img ℚ) (as bs : List (Img ℚ)) (r c : Nat) : Bool :=
  decide (a.px r c ≠ b.px r c) ||
    (List.zipWith (fun (u v : Img ℚ) => decide (u.px r c ≠ v.px r c)) as bs).any id

/-- Copying of masked edges and the second edge test (_coadd_slices.py:439-470): the new data,
bit mask and weight, and whether the slice is to be rejected. -/
def edgeStage (on : Bool) (flags : BitVec 32) (k : Work) (weight : Img ℚ)
    (bmask : Img (BitVec 32)) : Except Err (Work × Img ℚ × Img (BitVec 32) × Bool) :=
  if on then do
    let st ← copyMaskedEdges k.image k.noises weight bmask flags
    let pmask := k.pmask.orWhere (changed k.image st.image k.noises st.noises) BMASK_SPLINE_INTERP
    let bad ← sliceFullEdgeMasked st.weight st.bmask flags
    pure (⟨st.image, st.noises, pmask⟩, st.weight, st.bmask, bad)
  else pure (k, weight, bmask, false)

/-- Spline interpolation and the update of the processing mask (_coadd_slices.py:476-504);
the arguments of `interpolate_image_and_noise` that are not given are its defaults
(slice_utils/interpolate.py:249-252). -/
def splineStage {A σ : Type} (x : Ext A σ) (flags : BitVec 32) (k : Work) (weight : Img ℚ)
    (bmask : Img (BitVec 32)) : Except Err (Option Work) := do
  let res ← interpolateImageAndNoise (σ := Unit) x.interp (fun s _ _ => ([], s)) k.image k.noises
    weight bmask flags none (9 / 10) 4 false 1
  match res.1 with
  | none => pure none
  | some (im, ns) =>
    let msk : Nat → Nat → Bool := fun r c =>
      decide (weight.px r c < 0) || hasFlag (bmask.px r c) flags || changed im k.image ns k.noises r c
    pure (some ⟨im, ns, k.pmask.orWhere msk BMASK_SPLINE_INTERP⟩)

/-- The masked fraction computed from the processing mask (_coadd_slices.py:507-515). -/
def pmaskFraction (pmask : Img (BitVec 32)) (gaia : Option (Img Bool)) : Flt :=
  match gaia with
  | some g =>
    if allLt g.nrow fun r => allLt g.ncol fun c => g.px r c then .fin 1
    else
      .fin ((countPix pmask.nrow pmask.ncol fun r c =>
          decide (pmask.px r c ≠ 0) && !g.px r c : ℚ) /
        (countPix g.nrow g.ncol fun r c => !g.px r c : ℚ))
  | none =>
    if pmask.nrow * pmask.ncol = 0 then .nan
    else .fin ((countPix pmask.nrow pmask.ncol fun r c => decide (pmask.px r c ≠ 0) : ℚ) /
      ((pmask.nrow * pmask.ncol : Nat) : ℚ))

/-- What becomes of a candidate: the appends at _coadd_slices.py:402-403,462-463,486-487,519-520
and 538-543. -/
inductive Outcome where
  | used (o : SEObj) (wt : ℚ)
  | unused (o : SEObj) (flags : BitVec 32)

/-- The second part of the loop body, for a candidate that passed the initial cuts
(_coadd_slices.py:404-543). -/
def interpolateCand {A σ : Type} (x : Ext A σ) (c : BuildCfg A) (gaia : Option (Img Bool))
    (o : SEObj) (w : Img ℚ) (b : Img (BitVec 32)) (rng : σ) : Except Err (Outcome × σ) := do
  let image ← attr o.image
  let noises ← attr o.noises
  let k1 ← noiseInterp x c.noiseFlags image noises w b rng
  let k2 ← edgeStage c.copyEdges c.splineFlags k1.1 w b
  if k2.2.2.2 then pure (.unused o FULL_EDGE_MASKED, k1.2)
  else
    let k3 ← splineStage x c.splineFlags k2.1 k2.2.1 k2.2.2.1
    match k3 with
    | none => pure (.unused o HIGH_INTERP_MASKED_FRAC, k1.2)
    | some k =>
      if (pmaskFraction k.pmask gaia).geq c.maxMaskedFraction then
        pure (.unused o HIGH_MASKED_FRAC, k1.2)
      else
        match o.setInterp k.image k.noises k.pmask with
        | (_, some e) => throw e
        | (o', none) =>
          let psf ← attr o'.psf
          let wt ← buildCoaddWeight x.fwhm c.coaddingWeight w psf
          pure (.used o' wt, k1.2)

/-- The edge cut, made only when edges are not copied (_coadd_slices.py:352-357). -/
def edgeCut (copy : Bool) (w : Img ℚ) (b : Img (BitVec 32)) (flags : BitVec 32) :
    Except Err Bool :=
  if copy then pure false else sliceFullEdgeMasked w b flags

/-- The body of the second loop (_coadd_slices.py:287-543). -/
def processCand {A σ : Type} (x : Ext A σ) (c : BuildCfg A) (k : Cand) (rng : σ) :
    Except Err (Outcome × σ) := do
  let badFlags := c.splineFlags ||| c.noiseFlags
  let gaia ← seGaiaMask c k.src k.obj
  let w0 ← attr k.obj.weight
  let b0 ← attr k.obj.bmask
  let wb ← symmetrizeSlice x.rotate c.symmetrize gaia badFlags w0 b0
  let o : SEObj := { k.obj with weight := some wb.1, bmask := some wb.2 }
  let skipEdge ← edgeCut c.copyEdges wb.1 wb.2 c.splineFlags
  let skipFlags := sliceHasFlags wb.2 c.badImageFlags
  let skipFrac := (computeMaskedFraction wb.1 wb.2 badFlags gaia).geq c.maxMaskedFraction
  if skipEdge || skipFlags || skipFrac || k.psfFlag then
    pure (.unused o (skipFlagWord skipEdge skipFlags skipFrac k.psfFlag), rng)
  else interpolateCand x c gaia o wb.1 wb.2 rng

/-- A slice in the output: the source and the slice object (_coadd_slices.py:402,538). -/
structure Epoch where
  src : Src
  obj : SEObj

/-- The four lists that are built (_coadd_slices.py:283-286). -/
structure Inputs where
  slices : List Epoch := []
  weights : List ℚ := []
  notUsed : List Epoch := []
  flags : List (BitVec 32) := []

/-- The appends (_coadd_slices.py:402-403,462-463,486-487,519-520,538-543). -/
def Inputs.add (acc : Inputs) (s : Src) : Outcome → Inputs
  | .used o wt => { acc with slices := acc.slices ++ [⟨s, o⟩], weights := acc.weights ++ [wt] }
  | .unused o f => { acc with notUsed := acc.notUsed ++ [⟨s, o⟩], flags := acc.flags ++ [f] }

/-- The second loop (_coadd_slices.py:287-543). -/
def processAll {A σ : Type} (x : Ext A σ) (c : BuildCfg A) :
    List Cand → Inputs → σ → Except Err Inputs
  | [], acc, _ => .ok acc
  | k :: l, acc, rng => do
    let r ← processCand x c k rng
    processAll x c l (acc.add k.src r.1) r.2

/-- `_build_slice_inputs` (_coadd_slices.py:45-550). -/
def buildSliceInputs {A σ : Type} (x : Ext A σ) (c : BuildCfg A) (srcs : List Src) (rng : σ) :
    Except Err Inputs := do
  let cands ← possibleSlices c srcs
  if cands.isEmpty || cands.all (·.psfFlag) then pure {}
  else
    let cands ← rejectOutliers x c cands
    let acc ← processAll x c cands {} rng
    if acc.weights.isEmpty then pure acc
    else pure { acc with weights := acc.weights.map (· / acc.weights.sum) }

end Pizza
