import Verif.Model.SincDirect
import Verif.Props.Sinc

/-! C155: the direct and the approximate sinc function. -/

namespace Pizza

open scoped Classical

theorem sinc_near_zero (x : ℝ) (h : |x| < 1e-4) : |1 - Real.pi * Real.pi / 6 * x * x - Real.sinc (Real.pi * x)| ≤ 1e-16 := by
  have hp := Real.pi_lt_d2
  have hp0 := Real.pi_pos
  by_cases h0 : x = 0
  · subst h0
    simp
    norm_num
  have ht0 : Real.pi * x ≠ 0 := mul_ne_zero hp0.ne' h0
  have hT : |Real.pi * x| ≤ 3.15e-4 := by
    rw [abs_mul, abs_of_pos hp0]
    nlinarith [abs_nonneg x]
  have e : Real.pi * Real.pi / 6 * x * x = (Real.pi * x) ^ 2 / 6 := by ring
  rw [e]
  generalize Real.pi * x = t at *
  have hb := Real.sin_bound (x := t) (hT.trans (by norm_num))
  rw [Real.sinc_of_ne_zero ht0]
  have hd : 1 - t ^ 2 / 6 - Real.sin t / t = (-(Real.sin t - (t - t ^ 3 / 6))) / t := by
    field_simp
    ring
  rw [hd, abs_div, abs_neg, div_le_iff₀ (abs_pos.2 ht0)]
  refine hb.trans ?_
  have h4 : |t| ^ 4 ≤ 3.15e-4 ^ 4 := pow_le_pow_left₀ (abs_nonneg t) hT 4
  have h5 : |t| ^ 5 / 100 = (|t| ^ 4 / 100) * |t| := by ring
  rw [h5]
  refine mul_le_mul_of_nonneg_right ?_ (abs_nonneg t)
  refine (div_le_div_of_nonneg_right h4 (by norm_num)).trans ?_
  norm_num

/-- **C155** `sinc` never fails, is within 1e-16 of the sinc and equal to it from 1e-4 on, is even, 1 at 0 and 0 at all other
integers. -/
theorem C155_sinc (x : ℝ) : ∃ v, sincDirect x = .ok v ∧ sincDirect (-x) = .ok v ∧ |v - Real.sinc (Real.pi * x)| ≤ 1e-16 ∧
    (1e-4 ≤ |x| → v = Real.sinc (Real.pi * x)) ∧ (x = 0 → v = 1) ∧ ∀ n : ℤ, n ≠ 0 → x = n → v = 0 := by
  unfold sincDirect
  rw [abs_neg]
  by_cases h : |x| < 1e-4
  · rw [if_pos h, if_pos h]
    refine ⟨_, rfl, by ring_nf, sinc_near_zero x h, fun h' => absurd h (not_lt.2 h'), fun h0 => by rw [h0]; ring, fun n hn hx => ?_⟩
    exfalso
    rw [hx, ← Int.cast_abs] at h
    have h1 : (1 : ℝ) ≤ ((|n| : ℤ) : ℝ) := by exact_mod_cast Int.one_le_abs hn
    have h2 := h1.trans_lt h
    norm_num at h2
  · have hx : x ≠ 0 := by
      rintro rfl
      norm_num at h
    have ht0 : Real.pi * x ≠ 0 := mul_ne_zero Real.pi_ne_zero hx
    have hneg : Real.pi * -x ≠ 0 := mul_ne_zero Real.pi_ne_zero (neg_ne_zero.2 hx)
    rw [if_neg h, if_neg h]
    unfold checkedDiv
    rw [if_neg ht0, if_neg hneg]
    have e := Real.sinc_of_ne_zero ht0
    refine ⟨_, rfl, ?_, ?_, fun _ => e.symm, fun h0 => absurd h0 hx, fun n hn hxn => ?_⟩
    · rw [mul_neg, Real.sin_neg, neg_div_neg_eq]
    · rw [e, sub_self, abs_zero]
      norm_num
    · rw [hxn, mul_comm, Real.sin_int_mul_pi, zero_div]

/-- **C155** It agrees with `sinc_pade` to 6.2e-15, 2.6e-10 and 1.05e-6 for arguments up to 1, 2 and 3. -/
theorem C155_pade (x u v : ℝ) (hu : sincPade x = .ok u) (hv : sincDirect x = .ok v) :
    (|x| ≤ 1 → |u - v| ≤ 6.2e-15) ∧ (|x| ≤ 2 → |u - v| ≤ 2.6e-10) ∧ (|x| ≤ 3 → |u - v| ≤ 1.05e-6) := by
  obtain ⟨u', hu', a1, a2, a3⟩ := C96_sinc x
  obtain ⟨v', hv', -, b, -⟩ := C155_sinc x
  cases hu.symm.trans hu'
  cases hv.symm.trans hv'
  have t := abs_sub_le u (Real.sinc (Real.pi * x)) v
  rw [abs_sub_comm (Real.sinc (Real.pi * x)) v] at t
  refine ⟨fun h => ?_, fun h => ?_, fun h => ?_⟩
  · have := a1 h
    norm_num at *
    linarith
  · have := a2 h
    norm_num at *
    linarith
  · have := a3 h
    norm_num at *
    linarith

theorem prod_close {a b s t e : ℝ} (he : 0 ≤ e) (he1 : e ≤ 1) (hs : |s| ≤ 1) (ht : |t| ≤ 1) (ha : |a - s| ≤ e) (hb : |b - t| ≤ e) :
    |a * b - s * t| ≤ 3 * e := by
  have h1 : a * b - s * t = (a - s) * (b - t) + ((a - s) * t + s * (b - t)) := by ring
  rw [h1]
  refine (abs_add_le _ _).trans ?_
  have h2 : |(a - s) * (b - t)| ≤ e * 1 := by
    rw [abs_mul]
    exact mul_le_mul ha (hb.trans he1) (abs_nonneg _) he
  have h3 := abs_add_le ((a - s) * t) (s * (b - t))
  have h4 : |(a - s) * t| ≤ e * 1 := by
    rw [abs_mul]
    exact mul_le_mul ha ht (abs_nonneg _) he
  have h5 : |s * (b - t)| ≤ 1 * e := by
    rw [abs_mul]
    exact mul_le_mul hs hb (abs_nonneg _) zero_le_one
  linarith

/-- **C155** Which of the two functions is compiled (pizza_cutter/coadding/_lanczos.py:4-7) changes a resampled value by at most 2.12e-6
times the sum of the absolute values of the pixels in the kernel. -/
theorem C155_resample (im : Img ℝ) (a : ℤ) (ha : 1 ≤ a) (y x v : ℝ) (e : Bool) (h : Resampled im a y x v e) (D : ℝ → ℝ)
    (hD : ∀ d, ∃ s1 s2, sincDirect d = .ok s1 ∧ sincDirect (d / a) = .ok s2 ∧ D d = s1 * s2) :
    |v - ∑ r ∈ Finset.range im.nrow, ∑ c ∈ Finset.range im.ncol,
        (if InKernel a y r ∧ InKernel a x c then im.px r c * (D (x - c) * D (y - r)) else 0)| ≤
      2.12e-6 * ∑ r ∈ Finset.range im.nrow, ∑ c ∈ Finset.range im.ncol,
        (if InKernel a y r ∧ InKernel a x c then |im.px r c| else 0) := by
  have key : ∀ d, |D d - trueLanczos a d| ≤ 3e-16 := by
    intro d
    obtain ⟨s1, s2, h1, h2, h3⟩ := hD d
    obtain ⟨v1, g1, -, g2, -⟩ := C155_sinc d
    obtain ⟨v2, g3, -, g4, -⟩ := C155_sinc (d / a)
    cases h1.symm.trans g1
    cases h2.symm.trans g3
    rw [h3]
    refine (prod_close (e := 1e-16) (by norm_num) (by norm_num) (Real.abs_sinc_le_one _) (Real.abs_sinc_le_one _) g2 g4).trans ?_
    norm_num
  have h1 := C96_value im a ha y x v e h
  have h2 : |∑ r ∈ Finset.range im.nrow, ∑ c ∈ Finset.range im.ncol,
        (if InKernel a y r ∧ InKernel a x c then im.px r c * (trueLanczos a (x - c) * trueLanczos a (y - r)) else 0) -
      ∑ r ∈ Finset.range im.nrow, ∑ c ∈ Finset.range im.ncol,
        (if InKernel a y r ∧ InKernel a x c then im.px r c * (D (x - c) * D (y - r)) else 0)| ≤
      9e-16 * ∑ r ∈ Finset.range im.nrow, ∑ c ∈ Finset.range im.ncol,
        (if InKernel a y r ∧ InKernel a x c then |im.px r c| else 0) := by
    rw [← Finset.sum_sub_distrib, Finset.mul_sum]
    refine (Finset.abs_sum_le_sum_abs _ _).trans (Finset.sum_le_sum fun r _ => ?_)
    rw [← Finset.sum_sub_distrib, Finset.mul_sum]
    refine (Finset.abs_sum_le_sum_abs _ _).trans (Finset.sum_le_sum fun c _ => ?_)
    split
    · rw [← mul_sub, abs_mul, mul_comm]
      refine mul_le_mul_of_nonneg_right ?_ (abs_nonneg _)
      rw [abs_sub_comm]
      refine (prod_close (e := 3e-16) (by norm_num) (by norm_num) (trueLanczos_le _ _) (trueLanczos_le _ _) (key _) (key _)).trans ?_
      norm_num
    · simp
  have h3 : 0 ≤ ∑ r ∈ Finset.range im.nrow, ∑ c ∈ Finset.range im.ncol,
        (if InKernel a y r ∧ InKernel a x c then |im.px r c| else 0) :=
    Finset.sum_nonneg fun r _ => Finset.sum_nonneg fun c _ => by split <;> positivity
  refine (abs_sub_le _ _ _).trans ((add_le_add h1 h2).trans ?_)
  rw [← add_mul]
  refine mul_le_mul_of_nonneg_right ?_ h3
  norm_num

/-- `C155_pade`: both functions have values everywhere. -/
example (x : ℝ) : (∃ u, sincPade x = .ok u) ∧ ∃ v, sincDirect x = .ok v :=
  ⟨(C33_sinc_pade x).1, (C155_sinc x).imp fun _ h => h.1⟩

/-- `C155_resample`: a kernel of the direct function exists. -/
example (a : ℤ) : ∃ D : ℝ → ℝ, ∀ d, ∃ s1 s2, sincDirect d = .ok s1 ∧ sincDirect (d / a) = .ok s2 ∧ D d = s1 * s2 := by
  choose f hf using C155_sinc
  exact ⟨fun d => f d * f (d / a), fun d => ⟨_, _, (hf d).1, (hf (d / a)).1, rfl⟩⟩

end Pizza
