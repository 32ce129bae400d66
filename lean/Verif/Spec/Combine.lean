import Verif.Model.EpochsInfo
import Verif.Model.Fits

/-! Vocabulary for C124. -/

namespace Pizza

/-- `l` is the mean of `a` and `b`, pixel by pixel, `a` having the share `α`. -/
def MixedBy (α : ℚ) (a b l : List Flt) : Prop :=
  ∃ xs ys : List ℚ, xs.length = ys.length ∧ a = xs.map .fin ∧ b = ys.map .fin ∧
    l = (List.zipWith (fun x y => α * x + (1 - α) * y) xs ys).map .fin

/-- `l` has the bits of the masks `a` and `b`. -/
def JoinedBy (a b l : List Flt) : Prop :=
  ∃ ms ns : List (BitVec 32), ms.length = ns.length ∧ a = ms.map (fun m => .fin m.toInt) ∧
    b = ns.map (fun m => .fin m.toInt) ∧ l = (List.zipWith (· ||| ·) ms ns).map fun m => .fin m.toInt

/-- The planes `p` are those of `a` and `b` put together. -/
structure Combined (α : ℚ) (a b p : SlicePix Flt) : Prop where
  image : MixedBy α a.image b.image p.image
  psf : MixedBy α a.psf b.psf p.psf
  mfrac : MixedBy α a.mfrac b.mfrac p.mfrac
  noises : a.noises.length = p.noises.length ∧ b.noises.length = p.noises.length ∧
    ∀ (k : Nat) x y z, a.noises[k]? = some x → b.noises[k]? = some y → p.noises[k]? = some z → MixedBy α x y z
  bmask : JoinedBy a.bmask b.bmask p.bmask
  ormask : JoinedBy a.ormask b.ormask p.ormask

/-- The SE images that are recorded as used, with their weights. -/
def usedWeights (r : SliceRes Flt EpochRow) : List (ℤ × ℚ) :=
  (r.epochs.filter fun e => decide (e.flags = 0)).map fun e => (e.imageId, e.weight)

/-- The same with all weights multiplied. -/
def scaleWeights (α : ℚ) (l : List (ℤ × ℚ)) : List (ℤ × ℚ) := l.map fun p => (p.1, α * p.2)

end Pizza
