import Verif.Model.Flags

/-!
Model of `pizza_cutter/slice_utils/symmetrize.py` and of the symmetrisation step of
`_build_slice_inputs` (`pizza_cutter/des_pizza_cutter/_coadd_slices.py:317-350`).
In-place updates are returned as new arrays.
-/

namespace Pizza

/-- `np.rot90(a)`: element `(i, j)` is `a[j, ncol-1-i]` (symmetrize.py:31-32,86,88). -/
def Img.rot90 {α : Type} (a : Img α) : Img α :=
  ⟨a.ncol, a.nrow, fun i j => a.px j (a.ncol - 1 - i)⟩

/-- `~no_sym_mask`, or all True (symmetrize.py:25-28). -/
def symAllowed (noSym : Option (Img Bool)) (r c : Nat) : Bool :=
  match noSym with
  | none => true
  | some m => !m.px r c

/-- `np.any(msk)` over the pixels of an array. -/
def anyPix (nrow ncol : Nat) (p : Nat → Nat → Bool) : Bool :=
  anyLt nrow fun r => anyLt ncol fun c => p r c

/-- symmetrize.py:5-51 `symmetrize_weight`.  `rotate angle im` is
`scipy.ndimage.rotate(im, angle, reshape=False, order=1, mode='constant', cval=1.0)`. -/
def symmetrizeWeight {A : Type} (rotate : A → Img ℚ → Img ℚ) (weight : Img ℚ)
    (angle : Option A) (noSym : Option (Img Bool)) : Except Err (Img ℚ) :=
  if weight.nrow ≠ weight.ncol then .error .valueError
  else
    let mask : Img Bool := ⟨weight.nrow, weight.ncol, symAllowed noSym⟩
    match angle with
    | none =>
      let mask := mask.rot90
      let rot := weight.rot90
      let msk : Nat → Nat → Bool := fun r c => decide (rot.px r c = 0) && mask.px r c
      if anyPix weight.nrow weight.ncol msk then
        .ok ⟨weight.nrow, weight.ncol, fun r c => if msk r c then 0 else weight.px r c⟩
      else .ok weight
    | some a =>
      let msk : Nat → Nat → Bool := fun r c => decide (weight.px r c = 0) && mask.px r c
      if anyPix weight.nrow weight.ncol msk then
        let rot := rotate a ⟨weight.nrow, weight.ncol, fun r c => if msk r c then 1 else 0⟩
        let msk2 : Nat → Nat → Bool := fun r c => decide (rot.px r c > 0)
        if anyPix weight.nrow weight.ncol msk2 then
          .ok ⟨weight.nrow, weight.ncol, fun r c => if msk2 r c then 0 else weight.px r c⟩
        else .ok weight
      else .ok weight

/-- symmetrize.py:95 the `continue` test. -/
def symSkip (symFlags : Option (BitVec 32)) (bit : BitVec 32) : Bool :=
  match symFlags with
  | some f => decide (bit &&& f = 0)
  | none => false

/-- symmetrize.py:93-114 one iteration of the loop over bits: `bit = 2**i`.
(numpy 2 refuses `2**31` on an int32 array; that error is not modelled.) -/
def symmetrizeBit {A : Type} (rotate : A → Img ℚ → Img ℚ) (a : A)
    (noSym : Option (Img Bool)) (symFlags : Option (BitVec 32)) (bmask : Img (BitVec 32))
    (i : Nat) : Img (BitVec 32) :=
  let bit : BitVec 32 := BitVec.twoPow 32 i
  if symSkip symFlags bit then bmask
  else
    let msk : Nat → Nat → Bool := fun r c => hasFlag (bmask.px r c) bit && symAllowed noSym r c
    if anyPix bmask.nrow bmask.ncol msk then
      let rot := rotate a ⟨bmask.nrow, bmask.ncol, fun r c => if msk r c then 1 else 0⟩
      ⟨bmask.nrow, bmask.ncol, fun r c =>
        if rot.px r c > 0 then bmask.px r c ||| bit else bmask.px r c⟩
    else bmask

/-- symmetrize.py:54-114 `symmetrize_bmask`.  (`bmask |= np.rot90(bmask)` reads a view of the
array it writes; numpy buffers overlapping operands, so the old values are read.) -/
def symmetrizeBmask {A : Type} (rotate : A → Img ℚ → Img ℚ) (bmask : Img (BitVec 32))
    (angle : Option A) (noSym : Option (Img Bool)) (symFlags : Option (BitVec 32)) :
    Except Err (Img (BitVec 32)) :=
  if bmask.nrow ≠ bmask.ncol then .error .valueError
  else
    match angle with
    | none =>
      let keep : Img (BitVec 32) :=
        match noSym with
        | some m => ⟨bmask.nrow, bmask.ncol, fun r c => if m.px r c then 0 else bmask.px r c⟩
        | none => bmask
      let rot : Img (BitVec 32) :=
        match symFlags with
        | some f => (keep.map (· &&& f)).rot90
        | none => keep.rot90
      .ok ⟨bmask.nrow, bmask.ncol, fun r c => bmask.px r c ||| rot.px r c⟩
    | some a =>
      .ok ((List.range 32).foldl (symmetrizeBit rotate a noSym symFlags) bmask)

/-- The `symmetrize_masking` configuration value (_coadd_slices.py:317-319,340). -/
inductive SymCfg (A : Type) where
  | off
  | plain
  | angles (l : List (Option A))

/-- _coadd_slices.py:322-339 one angle of the list: both symmetrisations start from the
original arrays and their results are merged into the slice. -/
def symOneAngle {A : Type} (rotate : A → Img ℚ → Img ℚ) (noSym : Option (Img Bool))
    (badFlags : BitVec 32) (w0 : Img ℚ) (b0 : Img (BitVec 32))
    (st : Img ℚ × Img (BitVec 32)) (angle : Option A) :
    Except Err (Img ℚ × Img (BitVec 32)) := do
  let wr ← symmetrizeWeight rotate w0 angle noSym
  let w : Img ℚ := ⟨st.1.nrow, st.1.ncol, fun r c => if wr.px r c = 0 then 0 else st.1.px r c⟩
  let br ← symmetrizeBmask rotate b0 angle noSym (some badFlags)
  let b : Img (BitVec 32) := ⟨st.2.nrow, st.2.ncol, fun r c => st.2.px r c ||| br.px r c⟩
  return (w, b)

/-- _coadd_slices.py:317-350 the whole symmetrisation step on (weight, bmask). -/
def symmetrizeSlice {A : Type} (rotate : A → Img ℚ → Img ℚ) (cfg : SymCfg A)
    (noSym : Option (Img Bool)) (badFlags : BitVec 32) (w0 : Img ℚ) (b0 : Img (BitVec 32)) :
    Except Err (Img ℚ × Img (BitVec 32)) :=
  match cfg with
  | .off => .ok (w0, b0)
  | .angles [] => .ok (w0, b0)   -- an empty list is falsy
  | .angles l => l.foldlM (symOneAngle rotate noSym badFlags w0 b0) (w0, b0)
  | .plain => do
    let b ← symmetrizeBmask rotate b0 none noSym (some badFlags)
    let w ← symmetrizeWeight rotate w0 none noSym
    return (w, b)

end Pizza
