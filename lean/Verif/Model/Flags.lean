import Verif.Model.Basic
import Mathlib.Data.Finset.Prod
import Mathlib.Data.Finset.Range
import Mathlib.Data.Finset.Card
import Mathlib.Algebra.BigOperators.Group.Finset.Basic

/-!
Model of `pizza_cutter/slice_utils/flag.py` and `pizza_cutter/slice_utils/procflags.py`.
-/

namespace Pizza

/-- `np.all(p)` over an axis of length `n`. -/
def allLt (n : Nat) (p : Nat → Bool) : Bool := (List.range n).all p

/-- `np.any(p)` over an axis of length `n`. -/
def anyLt (n : Nat) (p : Nat → Bool) : Bool := (List.range n).any p

/-- The pixels of an array of shape `(nrow, ncol)`. -/
def pixels (nrow ncol : Nat) : Finset (Nat × Nat) := Finset.range nrow ×ˢ Finset.range ncol

/-- `np.sum` of a boolean array. -/
def countPix (nrow ncol : Nat) (p : Nat → Nat → Bool) : Nat :=
  ((pixels nrow ncol).filter fun q => p q.1 q.2 = true).card

/-- `(bmask & flags) != 0` for one pixel (flag.py:29-32,50,79,82). -/
def hasFlag (b flags : BitVec 32) : Bool := decide (b &&& flags ≠ 0)

/-- `np.all(p(a[0, :]))` (flag.py:25,29): IndexError when the array has no rows. -/
def allFirstRow {α : Type} (a : Img α) (p : α → Bool) : Except Err Bool :=
  if a.nrow = 0 then .error .indexError else .ok (allLt a.ncol fun c => p (a.px 0 c))

/-- `np.all(p(a[-1, :]))` (flag.py:26,30). -/
def allLastRow {α : Type} (a : Img α) (p : α → Bool) : Except Err Bool :=
  if a.nrow = 0 then .error .indexError else .ok (allLt a.ncol fun c => p (a.px (a.nrow - 1) c))

/-- `np.all(p(a[:, 0]))` (flag.py:27,31). -/
def allFirstCol {α : Type} (a : Img α) (p : α → Bool) : Except Err Bool :=
  if a.ncol = 0 then .error .indexError else .ok (allLt a.nrow fun r => p (a.px r 0))

/-- `np.all(p(a[:, -1]))` (flag.py:28,32). -/
def allLastCol {α : Type} (a : Img α) (p : α → Bool) : Except Err Bool :=
  if a.ncol = 0 then .error .indexError else .ok (allLt a.nrow fun r => p (a.px r (a.ncol - 1)))

/-- Python `x or y` where evaluating `x` may raise. -/
def orElseE (x y : Except Err Bool) : Except Err Bool :=
  match x with
  | .error e => .error e
  | .ok true => .ok true
  | .ok false => y

/-- flag.py:4-32 `slice_full_edge_masked`. -/
def sliceFullEdgeMasked (weight : Img ℚ) (bmask : Img (BitVec 32)) (badFlags : BitVec 32) :
    Except Err Bool :=
  let wb : ℚ → Bool := fun w => decide (w ≤ 0)
  let fb : BitVec 32 → Bool := fun b => hasFlag b badFlags
  orElseE (allFirstRow weight wb) <|
  orElseE (allLastRow weight wb) <|
  orElseE (allFirstCol weight wb) <|
  orElseE (allLastCol weight wb) <|
  orElseE (allFirstRow bmask fb) <|
  orElseE (allLastRow bmask fb) <|
  orElseE (allFirstCol bmask fb) <|
  allLastCol bmask fb

/-- flag.py:35-50 `slice_has_flags`. -/
def sliceHasFlags (bmask : Img (BitVec 32)) (flags : BitVec 32) : Bool :=
  anyLt bmask.nrow fun r => anyLt bmask.ncol fun c => hasFlag (bmask.px r c) flags

/-- flag.py:79,82 the bad-pixel test of `compute_masked_fraction`. -/
def badPix (weight : Img ℚ) (bmask : Img (BitVec 32)) (badFlags : BitVec 32) (r c : Nat) : Bool :=
  decide (weight.px r c ≤ 0) || hasFlag (bmask.px r c) badFlags

/-- flag.py:53-82 `compute_masked_fraction`; all arrays have the shape of `weight`.
`np.mean` of an empty array is NaN (line 82), `np.all` of an empty array is True
(line 74). -/
def computeMaskedFraction (weight : Img ℚ) (bmask : Img (BitVec 32)) (badFlags : BitVec 32)
    (ignore : Option (Img Bool)) : Flt :=
  match ignore with
  | some ig =>
    if allLt weight.nrow fun r => allLt weight.ncol fun c => ig.px r c then .fin 1
    else
      .fin ((countPix weight.nrow weight.ncol fun r c =>
          badPix weight bmask badFlags r c && !ig.px r c : ℚ) /
        (countPix weight.nrow weight.ncol fun r c => !ig.px r c : ℚ))
  | none =>
    if weight.nrow * weight.ncol = 0 then .nan
    else .fin ((countPix weight.nrow weight.ncol fun r c => badPix weight bmask badFlags r c : ℚ) /
      ((weight.nrow * weight.ncol : Nat) : ℚ))

end Pizza
