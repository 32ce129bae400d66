import Verif.Spec.Masks
import Mathlib.Data.Finset.Prod
import Mathlib.Data.Finset.Range
import Mathlib.Data.Finset.Card

/-!
Specification vocabulary for interpolation.
-/

namespace Pizza

/-- Pixel inside an array of the given shape. -/
def InRange (nrow ncol : Nat) (p : Nat × Nat) : Prop := p.1 < nrow ∧ p.2 < ncol

/-- Pixels at most `b` apart in each coordinate. -/
def Within (b : ℤ) (p q : Nat × Nat) : Prop :=
  |(p.1 : ℤ) - q.1| ≤ b ∧ |(p.2 : ℤ) - q.2| ≤ b

/-- Number of pixels of a mask that are True. -/
def numTrue (m : Img Bool) : Nat :=
  ((Finset.range m.nrow ×ˢ Finset.range m.ncol).filter fun p => m.px p.1 p.2 = true).card

/-- A bad pixel of the mask. -/
def BadAt (m : Img Bool) (p : Nat × Nat) : Prop := InRange m.nrow m.ncol p ∧ m.px p.1 p.2 = true

/-- A good pixel of the mask. -/
def GoodAt (m : Img Bool) (p : Nat × Nat) : Prop := InRange m.nrow m.ncol p ∧ m.px p.1 p.2 = false

/-- A bad pixel without a good pixel within `b`. -/
def Isolated (m : Img Bool) (b : ℤ) (p : Nat × Nat) : Prop :=
  BadAt m p ∧ ∀ q, GoodAt m q → ¬ Within b q p

/-- `G` lists, without repetition and in row-major order, the good pixels within `b` of a bad
pixel. -/
def IsGoodList (m : Img Bool) (b : ℤ) (G : List (Nat × Nat)) : Prop :=
  (G.Pairwise fun p q => p.1 < q.1 ∨ (p.1 = q.1 ∧ p.2 < q.2)) ∧
  ∀ q, q ∈ G ↔ GoodAt m q ∧ ∃ p, BadAt m p ∧ Within b q p

end Pizza
