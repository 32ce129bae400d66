import Verif.Model.Flags
import Mathlib.Data.Finset.Sort

/-!
Model of `pizza_cutter/slice_utils/interpolate.py`.

The pixel values of images and noise fields have an arbitrary type `V` (floats including NaN).
The Clough-Tocher interpolator is a parameter
`interp : List (Nat × Nat) → List V → Except Err (Nat × Nat → V)` (points, values; building it
may raise; querying is point-wise).  The random generator is a parameter
`normal : σ → Nat → ℚ → List V × σ` (state, size, weight `w` of the scale `1/sqrt(w)`).
-/

namespace Pizza

/-- `bad_msk[r, c]` in compiled code: an index outside the array is an error here (numba reads
foreign memory instead) (interpolate.py:73,97). -/
def readMask (m : Img Bool) (r c : ℤ) : Except Err Bool :=
  match m.getZ? r c with
  | some v => .ok v
  | none => .error .indexError

/-- Clamped window limits (interpolate.py:56-68 and 81-93), for one axis of length `n`. -/
def clampWin (n : Nat) (x buff : ℤ) : ℤ × ℤ :=
  let s := x - buff
  let e := x + buff
  (if s < 0 then 0 else s, if e > (n : ℤ) - 1 then (n : ℤ) - 1 else e)

/-- interpolate.py:70-75 the loop computing `no_good`. -/
def noGoodIn (m : Img Bool) (rw cw : ℤ × ℤ) : Except Err Bool :=
  (pyRange rw.1 (rw.2 + 1)).foldlM (init := true) fun acc rc =>
    (pyRange cw.1 (cw.2 + 1)).foldlM (init := acc) fun acc cc => do
      let t ← readMask m rc cc
      return (if !t then false else acc)

/-- interpolate.py:95-105 the loop appending good pixels.  `good_ind` is represented by its
written prefix, `igood` is the length of the prefix. -/
def pushGood (m : Img Bool) (ngood : ℤ) (rw cw : ℤ × ℤ) (good : List ℤ) :
    Except Err (List ℤ) :=
  (pyRange rw.1 (rw.2 + 1)).foldlM (init := good) fun good rc =>
    (pyRange cw.1 (cw.2 + 1)).foldlM (init := good) fun good cc => do
      let t ← readMask m rc cc
      if !t then
        if (good.length : ℤ) = ngood then .error .runtimeError
        else return good ++ [rc * (m.ncol : ℤ) + cc]
      else return good

/-- The buffers of `_get_nearby_good_pixels` (interpolate.py:43-49), as written prefixes. -/
structure NearState where
  badInd : List ℤ
  badIso : List ℤ
  goodInd : List ℤ

/-- interpolate.py:52-107 the body of the loop over pixels.  A write beyond the end of
`bad_ind` is an error here (numba would corrupt memory). -/
def nearStep (m : Img Bool) (ngood buff isoBuff : ℤ) (st : NearState) (row col : Nat) :
    Except Err NearState := do
  if m.px row col then
    if (st.badInd.length : ℤ) ≥ ngood then throw Err.indexError
    let ind := (row : ℤ) * m.ncol + col
    let rw := clampWin m.nrow row isoBuff
    let cw := clampWin m.ncol col isoBuff
    let noGood ← noGoodIn m rw cw
    let rw' := if buff ≠ isoBuff then clampWin m.nrow row buff else rw
    let cw' := if buff ≠ isoBuff then clampWin m.ncol col buff else cw
    let good ← pushGood m ngood rw' cw' st.goodInd
    return ⟨st.badInd ++ [ind], st.badIso ++ [if noGood then 1 else 0], good⟩
  else return st

/-- interpolate.py:10-113 `_get_nearby_good_pixels`. -/
def getNearbyGoodPixels (m : Img Bool) (nbad buff isoBuff : ℤ) : Except Err NearState :=
  let ngood := nbad * (2 * buff + 1) ^ 2
  (List.range m.nrow).foldlM (init := ⟨[], [], []⟩) fun st row =>
    (List.range m.ncol).foldlM (init := st) fun st col =>
      nearStep m ngood buff isoBuff st row col

/-- `np.unique` of a list of integers (interpolate.py:162,306). -/
def npUnique (l : List ℤ) : List ℤ := l.dedup.insertionSort (· ≤ ·)

/-- `np.unravel_index` for one index: ValueError when out of range (interpolate.py:163,307). -/
def unravelOne (nrow ncol : Nat) (i : ℤ) : Except Err (Nat × Nat) :=
  if 0 ≤ i ∧ i < (nrow : ℤ) * ncol then .ok (i.toNat / ncol, i.toNat % ncol)
  else .error .valueError

/-- `np.unravel_index` (interpolate.py:163-164,307-308). -/
def unravelIndex (nrow ncol : Nat) (l : List ℤ) : Except Err (List (Nat × Nat)) :=
  l.mapM (unravelOne nrow ncol)

/-- The pixels of a mask that are True in row-major order (order used by numpy boolean
indexing). -/
def maskedList (m : Img Bool) : List (Nat × Nat) :=
  ((List.range m.nrow).flatMap fun r => (List.range m.ncol).map fun c => (r, c)).filter
    fun p => m.px p.1 p.2

/-- `np.sum` of a mask (interpolate.py:154,302). -/
def maskSum (m : Img Bool) : Nat := countPix m.nrow m.ncol m.px

/-- `a[mask] = values` (interpolate.py:211,245): numpy raises ValueError unless there are as
many values as True pixels (a single value would be broadcast; not reached and not modelled);
values are used in row-major order. -/
def assignMask {V : Type} (a : Img V) (m : Img Bool) (vals : List V) : Except Err (Img V) :=
  if vals.length = (maskedList m).length then
    .ok ⟨a.nrow, a.ncol, fun r c =>
      if m.px r c then vals.getD ((maskedList m).idxOf (r, c)) (a.px r c) else a.px r c⟩
  else .error .valueError

/-- `a[ys, xs] = values` with as many values as points (interpolate.py:199-201,236-238); the
points are distinct. -/
def assignPts {V : Type} (a : Img V) (pts : List (Nat × Nat)) (vals : List V) :
    Except Err (Img V) :=
  if vals.length = pts.length then
    .ok ⟨a.nrow, a.ncol, fun r c =>
      if (r, c) ∈ pts then vals.getD (pts.idxOf (r, c)) (a.px r c) else a.px r c⟩
  else .error .valueError

/-- `np.median` of a non-empty list (interpolate.py:300). -/
def median (l : List ℚ) : ℚ :=
  let s := l.mergeSort (· ≤ ·)
  (s.getD ((s.length - 1) / 2) 0 + s.getD (s.length / 2) 0) / 2

/-- The pixels of `bad_yx` with `bad_iso == 1` (interpolate.py:179-186,317-323). -/
def isoPixels (badYX : List (Nat × Nat)) (iso : List ℤ) : List (Nat × Nat) :=
  ((badYX.zip iso).filter fun p => p.2 == 1).map Prod.fst

/-- `bad_msk[ys, xs] = False` (interpolate.py:183,320). -/
def clearPts (m : Img Bool) (pts : List (Nat × Nat)) : Img Bool :=
  ⟨m.nrow, m.ncol, fun r c => if (r, c) ∈ pts then false else m.px r c⟩

/-- interpolate.py:116-216 `interpolate_image_at_mask`.  0/0 for an empty array is NaN, which
fails the comparison, hence None.  `V`, `interp`, `normal`: see the header. -/
def interpolateImageAtMask {V σ : Type}
    (interp : List (Nat × Nat) → List V → Except Err (Nat × Nat → V))
    (normal : σ → Nat → ℚ → List V × σ)
    (image : Img V) (badMsk : Img Bool) (maxfrac : ℚ) (buff : ℤ) (fillIso : Bool)
    (weight : Option ℚ) (rng : Option σ) (isoBuff : ℤ) : Except Err (Option (Img V)) := do
  let npix := badMsk.nrow * badMsk.ncol
  let nbad := maskSum badMsk
  if npix ≠ 0 ∧ (nbad : ℚ) / npix ≤ maxfrac ∧ nbad < npix then
    let st ← getNearbyGoodPixels badMsk nbad buff isoBuff
    let goodYX ← unravelIndex badMsk.nrow badMsk.ncol (npUnique st.goodInd)
    let badYX ← unravelIndex badMsk.nrow badMsk.ncol st.badInd
    let (im, msk, goodYX, badYX) ←
      (if fillIso then
        match rng, weight with
        | none, _ => throw Err.runtimeError
        | some _, none => throw Err.runtimeError
        | some r, some w => do
          let fillYX := isoPixels badYX st.badIso
          if fillYX ≠ [] then
            let msk := clearPts badMsk fillYX
            let st2 ← getNearbyGoodPixels msk (maskSum msk) buff isoBuff
            let badYX ← unravelIndex badMsk.nrow badMsk.ncol st2.badInd
            let goodYX ← unravelIndex badMsk.nrow badMsk.ncol (npUnique st2.goodInd)
            let im ← assignPts image fillYX (normal r fillYX.length w).1
            pure (im, msk, goodYX, badYX)
          else pure (image, badMsk, goodYX, badYX)
      else pure (image, badMsk, goodYX, badYX) : Except Err (Img V × Img Bool × _ × _))
    let f ← interp goodYX (goodYX.map fun p => im.px p.1 p.2)
    let out ← assignMask im msk (badYX.map f)
    return some out
  else return none

/-- interpolate.py:219-246 `_interp_one`; the state of the generator is threaded. -/
def interpOne {V σ : Type}
    (interp : List (Nat × Nat) → List V → Except Err (Nat × Nat → V))
    (normal : σ → Nat → ℚ → List V × σ)
    (image : Img V) (badYX goodYX : List (Nat × Nat)) (badMsk : Img Bool)
    (fill : Option (List (Nat × Nat))) (medWeight : ℚ) (rng : Option σ) :
    Except Err (Img V × Option σ) := do
  let (im, rng) ←
    (match fill, rng with
    | some pts, some r => do
      let d := normal r pts.length medWeight
      let im ← assignPts image pts d.1
      pure (im, some d.2)
    | some _, none => throw Err.attributeError
    | none, _ => pure (image, rng) : Except Err (Img V × Option σ))
  let f ← interp goodYX (goodYX.map fun p => im.px p.1 p.2)
  let out ← assignMask im badMsk (badYX.map f)
  return (out, rng)

/-- interpolate.py:337-371 the image, then the noise fields in order. -/
def interpAll {V σ : Type}
    (one : Img V → Option σ → Except Err (Img V × Option σ)) :
    List (Img V) → Option σ → Except Err (List (Img V) × Option σ)
  | [], rng => .ok ([], rng)
  | a :: t, rng => do
    let (o, rng) ← one a rng
    let (os, rng) ← interpAll one t rng
    return (o :: os, rng)

/-- interpolate.py:292 the bad-pixel mask. -/
def badMaskOf (weight : Img ℚ) (bmask : Img (BitVec 32)) (badFlags : BitVec 32) : Img Bool :=
  ⟨weight.nrow, weight.ncol, badPix weight bmask badFlags⟩

/-- interpolate.py:249-374 `interpolate_image_and_noise`.  The local variable `noise_fill_yx`
is unbound when `fill_isolated_with_noise` is set and no pixel is isolated (lines 310-335).
`_interp_one` never returns None, so the tests at 349 and 368 are never true. -/
def interpolateImageAndNoise {V σ : Type}
    (interp : List (Nat × Nat) → List V → Except Err (Nat × Nat → V))
    (normal : σ → Nat → ℚ → List V × σ)
    (image : Img V) (noises : List (Img V)) (weight : Img ℚ) (bmask : Img (BitVec 32))
    (badFlags : BitVec 32) (rng : Option σ) (maxfrac : ℚ) (buff : ℤ) (fillIso : Bool)
    (isoBuff : ℤ) : Except Err (Option (Img V × List (Img V)) × Option σ) := do
  let badMsk := badMaskOf weight bmask badFlags
  let nbad := maskSum badMsk
  let npix := badMsk.nrow * badMsk.ncol
  if nbad ≠ 0 then
    if (nbad : ℚ) / npix > maxfrac ∨ nbad = npix then return (none, rng)
    let medWeight := median (((List.range weight.nrow).flatMap fun r =>
      (List.range weight.ncol).map fun c => (r, c)).filterMap fun p =>
        if badMsk.px p.1 p.2 then none else some (weight.px p.1 p.2))
    let st ← getNearbyGoodPixels badMsk nbad buff isoBuff
    let badYX ← unravelIndex badMsk.nrow badMsk.ncol st.badInd
    let goodYX ← unravelIndex badMsk.nrow badMsk.ncol (npUnique st.goodInd)
    let (fill, msk, goodYX, badYX) ←
      (if fillIso then
        match rng with
        | none => throw Err.runtimeError
        | some _ => do
          let fillYX := isoPixels badYX st.badIso
          if fillYX ≠ [] then
            let msk := clearPts badMsk fillYX
            let st2 ← getNearbyGoodPixels msk (maskSum msk) buff isoBuff
            let badYX ← unravelIndex badMsk.nrow badMsk.ncol st2.badInd
            let goodYX ← unravelIndex badMsk.nrow badMsk.ncol (npUnique st2.goodInd)
            pure (some fillYX, msk, goodYX, badYX)
          else throw Err.unboundLocal
      else pure (none, badMsk, goodYX, badYX) :
        Except Err (Option (List (Nat × Nat)) × Img Bool × _ × _))
    let one := fun a rng => interpOne interp normal a badYX goodYX msk fill medWeight rng
    let (im, rng) ← one image rng
    let (ns, rng) ← interpAll one noises rng
    return (some (im, ns), rng)
  else return (some (image, noises), rng)

/-- The four arrays updated together by `copy_masked_edges_image_and_noise`
(interpolate.py:409-411). -/
structure EdgeState (V : Type) where
  image : Img V
  noises : List (Img V)
  bmask : Img (BitVec 32)
  weight : Img ℚ

/-- Copy row `ii` into row `i` where `good` (interpolate.py:418-422). -/
def Img.copyRow {α : Type} (a : Img α) (i ii : Nat) (good : Nat → Bool) : Img α :=
  ⟨a.nrow, a.ncol, fun r c => if r = i ∧ good c = true then a.px ii c else a.px r c⟩

/-- Copy column `ii` into column `i` where `good` (interpolate.py:428-432). -/
def Img.copyCol {α : Type} (a : Img α) (i ii : Nat) (good : Nat → Bool) : Img α :=
  ⟨a.nrow, a.ncol, fun r c => if c = i ∧ good r = true then a.px r ii else a.px r c⟩

/-- interpolate.py:413-422 the row part of the loop body, `i`, `ii` already normalised. -/
def edgeRowStep {V : Type} (weight : Img ℚ) (bmask : Img (BitVec 32)) (flags : BitVec 32)
    (i ii : Nat) (st : EdgeState V) : EdgeState V :=
  let bad := badPix weight bmask flags
  if (allLt weight.ncol fun c => bad i c) && !(allLt weight.ncol fun c => bad ii c) then
    let good := fun c => !bad ii c
    ⟨st.image.copyRow i ii good, st.noises.map (·.copyRow i ii good),
      st.bmask.copyRow i ii good, st.weight.copyRow i ii good⟩
  else st

/-- interpolate.py:424-432 the column part of the loop body. -/
def edgeColStep {V : Type} (weight : Img ℚ) (bmask : Img (BitVec 32)) (flags : BitVec 32)
    (i ii : Nat) (st : EdgeState V) : EdgeState V :=
  let bad := badPix weight bmask flags
  if (allLt weight.nrow fun r => bad r i) && !(allLt weight.nrow fun r => bad r ii) then
    let good := fun r => !bad r ii
    ⟨st.image.copyCol i ii good, st.noises.map (·.copyCol i ii good),
      st.bmask.copyCol i ii good, st.weight.copyCol i ii good⟩
  else st

/-- interpolate.py:377-434 `copy_masked_edges_image_and_noise`.  All arrays have one shape;
index `1`/`-2` on an axis shorter than 2 raises IndexError. -/
def copyMaskedEdges {V : Type} (image : Img V) (noises : List (Img V)) (weight : Img ℚ)
    (bmask : Img (BitVec 32)) (flags : BitVec 32) : Except Err (EdgeState V) :=
  let n := weight.nrow
  let m := weight.ncol
  if n < 2 ∨ m < 2 then .error .indexError
  else
    let st : EdgeState V := ⟨image, noises, bmask, weight⟩
    let st := edgeRowStep weight bmask flags 0 1 st
    let st := edgeColStep weight bmask flags 0 1 st
    let st := edgeRowStep weight bmask flags (n - 1) (n - 2) st
    let st := edgeColStep weight bmask flags (m - 1) (m - 2) st
    .ok st

end Pizza
