import Verif.Model.Flags
import Verif.Spec.Masks
import Mathlib.Tactic.Push

namespace Pizza

theorem allLt_iff (n : Nat) (p : Nat → Bool) : allLt n p = true ↔ ∀ i < n, p i = true := by
  simp [allLt, List.all_eq_true]

theorem anyLt_iff (n : Nat) (p : Nat → Bool) : anyLt n p = true ↔ ∃ i < n, p i = true := by
  simp [anyLt, List.any_eq_true]

theorem hasFlag_iff (b f : BitVec 32) : hasFlag b f = true ↔ Carries b f := by
  unfold hasFlag Carries
  rw [decide_eq_true_eq]
  constructor
  · intro h
    by_contra hc
    push Not at hc
    apply h
    apply BitVec.eq_of_getLsbD_eq
    intro i hi
    have := hc i hi
    rw [BitVec.getLsbD_and]
    cases h1 : b.getLsbD i <;> cases h2 : f.getLsbD i <;> simp_all
  · rintro ⟨k, hk, h1, h2⟩ h
    have := congrArg (fun v => BitVec.getLsbD v k) h
    simp [h1, h2] at this

theorem badPix_iff (weight : Img ℚ) (bmask : Img (BitVec 32)) (flags : BitVec 32) (r c : Nat) :
    badPix weight bmask flags r c = true ↔ Unusable weight bmask flags (r, c) := by
  simp [badPix, Unusable, hasFlag_iff]

theorem mem_pixels {nrow ncol : Nat} {p : Nat × Nat} :
    p ∈ pixels nrow ncol ↔ p.1 < nrow ∧ p.2 < ncol := by
  simp [pixels]

end Pizza
