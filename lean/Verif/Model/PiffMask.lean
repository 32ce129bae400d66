import Mathlib.Data.Rat.Floor
import Verif.Model.Basic
import Verif.Model.Lanczos

/-! The lookup of positions in a grid of bad cells of a Piff model
(pizza_cutter/des_pizza_cutter/_se_image.py:367-370). -/

namespace Pizza

/-- `np.clip(np.floor(v/grid_size), 0, n-1)` (_se_image.py:368-369).  `np.clip` applies the lower limit first, so that an empty axis
gives the index -1.  Division by zero is an error here (a warning and an unspecified integer in numpy). -/
def gridIndex (v g : ℚ) (n : Nat) : Except Err ℤ := do
  let q ← checkedDiv v g
  pure (min (max ⌊q⌋ 0) ((n : ℤ) - 1))

/-- `_check_point_in_bad_piff_model_mask` (_se_image.py:367-370) for one position.  The function is applied to arrays of positions
element by element.  The indices are -1 only for an empty axis, where numpy raises IndexError as well. -/
def pointInBadMask (x y : ℚ) (m : Img Bool) (g : ℚ) : Except Err Bool := do
  let xg ← gridIndex x g m.ncol
  let yg ← gridIndex y g m.nrow
  match m.getZ? yg xg with
  | some b => pure b
  | none => .error .indexError

/-- `_check_point_in_bad_piff_model_mask` (_se_image.py:367-370) for arrays of positions of the same length. -/
def pointsInBadMask (pos : List (ℚ × ℚ)) (m : Img Bool) (g : ℚ) : Except Err (List Bool) :=
  pos.mapM fun p => pointInBadMask p.1 p.2 m g

end Pizza
