import Verif.Spec.Median
import Verif.Model.Interp

/-! `median` computes the median. -/

namespace Pizza

theorem median_isMedian {l : List ℚ} (h : l ≠ []) : IsMedian l (median l) := by
  have hl : 0 < l.length := List.length_pos_iff.2 h
  have hlen : (l.mergeSort (· ≤ ·)).length = l.length := List.length_mergeSort l
  refine ⟨l.mergeSort (· ≤ ·), List.mergeSort_perm _ _, ?_, ?_⟩
  · have := List.pairwise_mergeSort (le := fun a b : ℚ => decide (a ≤ b))
      (by intro a b c; simp only [decide_eq_true_eq]; exact le_trans)
      (by intro a b; simp only [Bool.or_eq_true, decide_eq_true_eq]; exact le_total a b) l
    simpa using this
  · refine ⟨_, _, List.getElem?_eq_getElem (by rw [hlen]; omega),
      List.getElem?_eq_getElem (by rw [hlen]; omega), ?_⟩
    unfold median
    simp only [hlen, List.getD_eq_getElem?_getD]
    rw [List.getElem?_eq_getElem (by rw [hlen]; omega), List.getElem?_eq_getElem (by rw [hlen]; omega)]
    rfl

theorem isMedian_unique {l : List ℚ} {m m' : ℚ} (h : IsMedian l m) (h' : IsMedian l m') : m = m' := by
  obtain ⟨s, hp, hs, a, b, ha, hb, rfl⟩ := h
  obtain ⟨s', hp', hs', a', b', ha', hb', rfl⟩ := h'
  have : s = s' := (hp.trans hp'.symm).eq_of_pairwise (fun _ _ _ _ h1 h2 => le_antisymm h1 h2) hs hs'
  subst this
  rw [ha] at ha'; rw [hb] at hb'
  cases ha'; cases hb'; rfl

end Pizza
