import Verif.Spec.BuildInputs
import Verif.Model.Fits

/-! Vocabulary for C123. -/

namespace Pizza

/-- No pixel of the array carries one of the flags. -/
def Unflagged (f : BitVec 32) (b : Img (BitVec 32)) : Prop :=
  ∀ r < b.nrow, ∀ c < b.ncol, ¬ Carries (b.px r c) f

/-- The same result but for the order of the rows of the table of epochs and of the weights. -/
structure SameButOrder {V E : Type} (a b : SliceRes V E) : Prop where
  i : a.i = b.i
  pix : a.pix = b.pix
  epochs : a.epochs.Perm b.epochs
  weights : a.weights.Perm b.weights

end Pizza
