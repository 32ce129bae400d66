import Verif.Model.SEObject
import Verif.Spec.Median

/-! Vocabulary for the properties of the SE slice object. -/

namespace Pizza

/-- Pixel `k` is the one nearest to position `v`; ties go to the larger pixel (specification). -/
def NearestTo (v : ℚ) (k : ℤ) : Prop := (k : ℚ) - 1/2 ≤ v ∧ v < (k : ℚ) + 1/2

/-- The calls that change an SE slice object (specification). -/
inductive SEOp where
  | setSlice (f : SEReads) (scale : ℚ) (b : Bounds ℤ)
  | setPsf (x y : ℚ) (flag : Except Err Bool) (psf : Except Err (Img ℚ))
  | setInterp (im : Img ℚ) (noises : List (Img ℚ)) (mask : Img (BitVec 32))

/-- One call: the new object and whether the call returned (`true`) or raised (`false`). -/
def SEObj.call (o : SEObj) : SEOp → SEObj × Bool
  | .setSlice f scale b => ((o.setSlice f scale b).1, (o.setSlice f scale b).2.isNone)
  | .setPsf x y flag psf => ((o.setPsf x y flag psf).1, (o.setPsf x y flag psf).2.isOk)
  | .setInterp im ns mask => ((o.setInterp im ns mask).1, (o.setInterp im ns mask).2.isNone)

/-- The object after a history of calls, starting from a new object. -/
def SEObj.after (ops : List SEOp) : SEObj := ops.foldl (fun o op => (o.call op).1) {}

/-- Some call of the given kind returned without raising (specification). -/
def Returned (ops : List SEOp) (kind : SEOp → Prop) : Prop :=
  ∃ pre op post, ops = pre ++ op :: post ∧ kind op ∧ ((SEObj.after pre).call op).2 = true

/-- A call of `set_slice` that gets past its check that the bounds are square. -/
def SEOp.isSquareSlice : SEOp → Prop
  | .setSlice _ _ b => b.colmax - b.colmin = b.rowmax - b.rowmin
  | _ => False

/-- A call of `set_slice`. -/
def SEOp.isSlice : SEOp → Prop
  | .setSlice .. => True
  | _ => False

/-- A call of `set_psf`. -/
def SEOp.isPsf : SEOp → Prop
  | .setPsf .. => True
  | _ => False

/-- A call of `set_interp_image_noise_pmask`. -/
def SEOp.isInterp : SEOp → Prop
  | .setInterp .. => True
  | _ => False

end Pizza
