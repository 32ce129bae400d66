import Verif.Spec.BuildInputs
import Verif.Props.Interp2

/-! Vocabulary for the outcome of one candidate of `_build_slice_inputs`. -/

namespace Pizza

/-- Two lists of arrays agree at a pixel. -/
def SameAt (as bs : List (Img ℚ)) (r c : Nat) : Prop :=
  List.Forall₂ (fun a b : Img ℚ => b.px r c = a.px r c) as bs

/-- Lists of arrays with the same shapes. -/
def SameShapes (as bs : List (Img ℚ)) : Prop :=
  List.Forall₂ (fun a b : Img ℚ => b.nrow = a.nrow ∧ b.ncol = a.ncol) as bs

/-- The arrays that are interpolated: edges repaired if that is configured. -/
def AfterCopy (on : Bool) (flags : BitVec 32) (w : Img ℚ) (b : Img (BitVec 32)) (w' : Img ℚ)
    (b' : Img (BitVec 32)) : Prop :=
  (on = true → RepairOf w b flags w w' ∧ RepairOf w b flags b b') ∧ (on = false → w' = w ∧ b' = b) ∧
  (on = true → 2 ≤ w.nrow ∧ 2 ≤ w.ncol)

/-- The result of interpolating the data `im0`, `ns0` of a slice with symmetrised mask `b`;
`w'`, `b'` are the weight and mask after edge copying. -/
structure InterpFacts (n : Nat) (noiseFlags splineFlags : BitVec 32) (copy : Bool) (im0 : Img ℚ)
    (ns0 : List (Img ℚ)) (w : Img ℚ) (b : Img (BitVec 32)) (w' : Img ℚ) (b' : Img (BitVec 32))
    (im : Img ℚ) (ns : List (Img ℚ)) (pm : Img (BitVec 32)) : Prop where
  im_sq : im.Sq n
  pm_sq : pm.Sq n
  shapes : SameShapes ns0 ns
  only : ∀ r < n, ∀ c < n, ∀ j, (pm.px r c).getLsbD j = true → j = 27 ∨ j = 28
  noise : ∀ r < n, ∀ c < n, (pm.px r c).getLsbD 28 = true ↔ Carries (b.px r c) noiseFlags
  altered : ∀ r < n, ∀ c < n, (im.px r c ≠ im0.px r c ∨ ¬ SameAt ns0 ns r c) →
    (pm.px r c).getLsbD 27 = true ∨ (pm.px r c).getLsbD 28 = true
  spline : ∀ r < n, ∀ c < n, (w'.px r c < 0 ∨ Carries (b'.px r c) splineFlags) →
    (pm.px r c).getLsbD 27 = true
  sound : ∀ r < n, ∀ c < n, (pm.px r c).getLsbD 27 = true →
    Unusable w' b' splineFlags (r, c) ∨ (copy = true ∧ ∃ e, Repaired w b splineFlags e r c)

/-- The edge cut of the initial cuts. -/
def CutEdge {A : Type} (c : BuildCfg A) (w : Img ℚ) (b : Img (BitVec 32)) : Prop :=
  c.copyEdges = false ∧ FullEdge w b c.splineFlags

/-- The cut on bad image flags. -/
def CutFlags {A : Type} (c : BuildCfg A) (n : Nat) (b : Img (BitVec 32)) : Prop :=
  ∃ r < n, ∃ j < n, Carries (b.px r j) c.badImageFlags

/-- The cut on the masked fraction. -/
def CutFraction {A : Type} (c : BuildCfg A) (n : Nat) (g : Option (Img Bool)) (w : Img ℚ)
    (b : Img (BitVec 32)) : Prop :=
  ∃ q, IsFraction n g (Unusable w b (c.splineFlags ||| c.noiseFlags)) q ∧ c.maxMaskedFraction ≤ q

end Pizza
