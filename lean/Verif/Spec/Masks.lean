import Verif.Model.Basic

/-!
Specification vocabulary for masks: carrying a flag, edges, unusable pixels, quarter turns.
-/

namespace Pizza

/-- A bit mask and a flag word share a bit (specification of "carries at least one of the
flags"). -/
def Carries (b flags : BitVec 32) : Prop := ∃ k < 32, b.getLsbD k = true ∧ flags.getLsbD k = true

/-- The four edges of an `nrow x ncol` array as sets of pixels (specification). -/
inductive Edge where | top | bottom | left | right

/-- Pixel `(r, c)` is on the edge. -/
def Edge.On (e : Edge) (nrow ncol r c : Nat) : Prop :=
  r < nrow ∧ c < ncol ∧
  match e with
  | .top => r = 0
  | .bottom => r + 1 = nrow
  | .left => c = 0
  | .right => c + 1 = ncol

/-- Pixel is unusable: non-positive weight or a bad flag (specification). -/
def Unusable (weight : Img ℚ) (bmask : Img (BitVec 32)) (flags : BitVec 32) (p : Nat × Nat) : Prop :=
  weight.px p.1 p.2 ≤ 0 ∨ Carries (bmask.px p.1 p.2) flags

/-- Pixel counts in the fraction: in range and not ignored (specification). -/
def Counted (nrow ncol : Nat) (ignore : Option (Img Bool)) (p : Nat × Nat) : Prop :=
  p.1 < nrow ∧ p.2 < ncol ∧ (∀ ig, ignore = some ig → ig.px p.1 p.2 = false)

/-- The quarter turn of an `n x n` array about its centre carries pixel `(r, c)` to `(i, j)`:
in coordinates relative to the centre (doubled to stay integral) `(y, x)` goes to `(-x, y)`. -/
def CarriedTo (n r c i j : Nat) : Prop :=
  2 * (i : ℤ) - ((n : ℤ) - 1) = -(2 * (c : ℤ) - ((n : ℤ) - 1)) ∧
  2 * (j : ℤ) - ((n : ℤ) - 1) = 2 * (r : ℤ) - ((n : ℤ) - 1)

/-- Some number of quarter turns of an `n x n` array carries pixel `p` to `q`. -/
def Turned (n : Nat) (p q : Nat × Nat) : Prop :=
  Relation.ReflTransGen (fun p q : Nat × Nat => CarriedTo n p.1 p.2 q.1 q.2) p q

end Pizza
