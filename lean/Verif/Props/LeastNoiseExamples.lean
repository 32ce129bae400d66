import Mathlib.Probability.Distributions.Gaussian.Real
import Verif.Props.LeastNoise
import Verif.Props.SliceExamples

/-!
Cases that meet the hypotheses of C152.
-/

namespace Pizza

open MeasureTheory ProbabilityTheory

/-- The noises of two epochs of weights 2 and 6: normal with the variances that the weights give. -/
noncomputable def exNoiseLaw : Measure (Fin 2 → ℝ) :=
  Measure.pi fun k => gaussianReal 0 (if k = 0 then 1 / 2 else 1 / 6)

noncomputable instance : IsProbabilityMeasure exNoiseLaw := by unfold exNoiseLaw; infer_instance

/-- The noise of the epoch of number `k`. -/
def exNoiseOf (k : Nat) (ω : Fin 2 → ℝ) : ℝ := ω (Fin.ofNat 2 k)

theorem exNoiseOf_memLp (k : Nat) : MemLp (exNoiseOf k) 2 exNoiseLaw :=
  (memLp_id_gaussianReal 2).comp_measurePreserving (measurePreserving_eval _ (Fin.ofNat 2 k))

theorem exNoiseOf_var (k : Nat) : Var[exNoiseOf k; exNoiseLaw] = if Fin.ofNat 2 k = 0 then 1 / 2 else 1 / 6 := by
  have h := measurePreserving_eval (fun k : Fin 2 => gaussianReal 0 (if k = 0 then 1 / 2 else 1 / 6)) (Fin.ofNat 2 k)
  have := variance_fun_id_gaussianReal (μ := 0) (v := if Fin.ofNat 2 k = 0 then 1 / 2 else 1 / 6)
  rw [← h.map_eq, variance_map (X := fun x : ℝ => x) (by fun_prop) (measurable_pi_apply _).aemeasurable] at this
  calc Var[exNoiseOf k; exNoiseLaw] = _ := this
    _ = _ := by split_ifs <;> simp

theorem exNoiseOf_cov {k l : Nat} (hk : k < 2) (hl : l < 2) (h : k ≠ l) : cov[exNoiseOf k, exNoiseOf l; exNoiseLaw] = 0 := by
  refine IndepFun.covariance_eq_zero ?_ (exNoiseOf_memLp k) (exNoiseOf_memLp l)
  have hi := iIndepFun_pi (μ := fun k : Fin 2 => gaussianReal 0 (if k = 0 then 1 / 2 else 1 / 6))
    (X := fun _ x => x) fun _ => by fun_prop
  refine hi.indepFun (i := Fin.ofNat 2 k) (j := Fin.ofNat 2 l) fun h0 => h ?_
  have := congrArg Fin.val h0
  simp only [Fin.ofNat] at this
  omega

/-- C152: the noises of the two epochs of weights 2 and 6 have the mean of least variance for the weights 1/4 and 3/4 of the
coadd: 1/8. -/
example : Var[fun ω => ∑ k ∈ Finset.range 2, ((([1/4, 3/4] : List ℚ).getD k 0 : ℚ) : ℝ) * exNoiseOf k ω; exNoiseLaw] = 1 / 8 ∧
    ∀ ν : Nat → ℝ, ∑ k ∈ Finset.range 2, ν k = 1 → 1 / 8 ≤ Var[fun ω => ∑ k ∈ Finset.range 2, ν k * exNoiseOf k ω; exNoiseLaw] := by
  have hm : ∀ k < 2, MemLp (exNoiseOf k) 2 exNoiseLaw := fun k _ => exNoiseOf_memLp k
  have hc : ∀ k < 2, ∀ l < 2, k ≠ l → cov[exNoiseOf k, exNoiseOf l; exNoiseLaw] = 0 := fun k hk l hl => exNoiseOf_cov hk hl
  refine ⟨?_, fun ν hν => ?_⟩
  · rw [variance_weighted exNoiseLaw 2 exNoiseOf hm hc]
    simp only [exNoiseOf_var, Finset.sum_range_succ, Finset.sum_range_zero]
    norm_num [Fin.ofNat]
  · rw [variance_weighted exNoiseLaw 2 exNoiseOf hm hc]
    have := (least_variance 2 (fun k => if k = 0 then 2 else 6) (fun k => Var[exNoiseOf k; exNoiseLaw]) ν 1 (by norm_num)
      (fun k _ => by split_ifs <;> norm_num) (fun k hk => by
        rw [exNoiseOf_var]
        interval_cases k <;> norm_num [Fin.ofNat]) (by norm_num) hν).2
    refine le_trans (le_of_eq ?_) this
    norm_num [Finset.sum_range_succ]

/-- C152 for a slice with two epochs. -/
example : ∃ r, ∃ h : coaddSingleSlice exTile 0 7 = .ok r, C152_least_noise (Ω := Fin 2 → ℝ) exTile 3 3 exTile_sound 0 7 r h =
    C152_least_noise (Ω := Fin 2 → ℝ) exTile 3 3 exTile_sound 0 7 r h := by
  obtain ⟨r, h⟩ := exTile_ok 0 (by norm_num)
  exact ⟨r, h, rfl⟩

end Pizza
