import Verif.Lemmas.LanczosMoments
import Verif.Props.Sinc

/-!
C148: resampling follows gradients and curvature.
-/

namespace Pizza

open PolyBound
open scoped Classical

/-- The kernel as the program computes it. -/
noncomputable def padeK (d : ℝ) : ℝ := sincVal d * sincVal (d / (3 : ℤ))

theorem padeK_close (d : ℝ) (hd : |d| ≤ 3) : |padeK d - serK d| ≤ 1.1e-6 := serV_sum_close d hd

/-- The sign of the sine. -/
theorem sinc_sign (d : ℝ) : (0 ≤ d → d ≤ 1 → 0 ≤ Real.sinc (Real.pi * d)) ∧ (1 ≤ d → d ≤ 2 → Real.sinc (Real.pi * d) ≤ 0) ∧
    (2 ≤ d → d ≤ 3 → 0 ≤ Real.sinc (Real.pi * d)) := by
  have hpi := Real.pi_pos
  refine ⟨fun h0 h1 => ?_, fun h0 h1 => ?_, fun h0 h1 => ?_⟩
  · rcases h0.eq_or_lt with rfl | h
    · simp
    · rw [Real.sinc_of_ne_zero (by positivity)]
      exact div_nonneg (Real.sin_nonneg_of_nonneg_of_le_pi (by positivity) (by nlinarith)) (by positivity)
  · have hd : 0 < d := by linarith
    rw [Real.sinc_of_ne_zero (by positivity)]
    refine div_nonpos_of_nonpos_of_nonneg ?_ (by positivity)
    have := Real.sin_nonneg_of_nonneg_of_le_pi (x := Real.pi * d - Real.pi) (by nlinarith) (by nlinarith)
    rw [Real.sin_sub_pi] at this
    linarith
  · have hd : 0 < d := by linarith
    rw [Real.sinc_of_ne_zero (by positivity)]
    refine div_nonneg ?_ (by positivity)
    have := Real.sin_nonneg_of_nonneg_of_le_pi (x := Real.pi * d - 2 * Real.pi) (by nlinarith) (by nlinarith)
    rwa [Real.sin_sub_two_pi] at this

/-- The sign of the kernel. -/
theorem trueLanczos_sign (d : ℝ) : (|d| ≤ 1 → 0 ≤ trueLanczos 3 d) ∧ (1 ≤ |d| → |d| ≤ 2 → trueLanczos 3 d ≤ 0) ∧
    (2 ≤ |d| → |d| ≤ 3 → 0 ≤ trueLanczos 3 d) := by
  have e : trueLanczos 3 d = Real.sinc (Real.pi * |d|) * Real.sinc (Real.pi * (|d| / 3)) := by
    unfold trueLanczos
    push_cast
    rcases abs_choice d with h | h <;> rw [h]
    rw [neg_div, mul_neg, mul_neg, Real.sinc_neg, Real.sinc_neg]
  have h3 : |d| ≤ 3 → 0 ≤ Real.sinc (Real.pi * (|d| / 3)) := fun h =>
    (sinc_sign _).1 (by positivity) (by linarith)
  obtain ⟨s1, s2, s3⟩ := sinc_sign |d|
  rw [e]
  exact ⟨fun h => mul_nonneg (s1 (abs_nonneg _) h) (h3 (by linarith)),
    fun h h' => mul_nonpos_of_nonpos_of_nonneg (s2 h h') (h3 (by linarith)), fun h h' => mul_nonneg (s3 h h') (h3 h')⟩

theorem trueLanczos_padeK (d : ℝ) (hd : |d| ≤ 3) : |padeK d - trueLanczos 3 d| ≤ 1.1e-6 := by
  have h := kern_close 3 (by norm_num) (by norm_num) d (by simpa using hd)
  refine h.trans ?_
  norm_num

/-- The absolute value of the kernel where it is not negative, and where it is not positive. -/
theorem padeK_abs (d : ℝ) (hd : |d| ≤ 3) : (|d| ≤ 1 ∨ 2 ≤ |d| → |padeK d| ≤ serK d + 3.3e-6) ∧
    (1 ≤ |d| → |d| ≤ 2 → |padeK d| ≤ -serK d + 3.3e-6) := by
  obtain ⟨s1, s2, s3⟩ := trueLanczos_sign d
  have h1 := abs_le.1 (trueLanczos_padeK d hd)
  have h2 := abs_le.1 (padeK_close d hd)
  constructor
  · intro h
    have : 0 ≤ trueLanczos 3 d := h.elim s1 (fun h => s3 h hd)
    rw [abs_le]
    constructor <;> norm_num at * <;> linarith
  · intro h h'
    have := s2 h h'
    rw [abs_le]
    constructor <;> norm_num at * <;> linarith

/-- The moments of the kernel and the sum of its absolute values. -/
theorem kernel_moments (n : Nat) (x : ℝ) (h2 : 2 ≤ x) (hn : x + 3 < n) :
    |(∑ c ∈ Finset.range n, if InKernel 3 x c then padeK (x - c) * (x - c) else 0)| ≤ 0.02102 ∧
    |(∑ c ∈ Finset.range n, if InKernel 3 x c then padeK (x - c) * (x - c) ^ 2 else 0)| ≤ 0.00004 ∧
    (∑ c ∈ Finset.range n, if InKernel 3 x c then |padeK (x - c)| else 0) ≤ 1.5501 := by
  refine ⟨?_, ?_, ?_⟩
  · obtain ⟨f, h0, h1, e⟩ := sum_kernel n x h2 hn fun d => padeK d * d
    have m := abs_le.1 (first_moment f h0 h1)
    have b : ∀ d b : ℝ, |d| ≤ b → b ≤ 3 → |padeK d * d - d * serK d| ≤ 1.1e-6 * b := by
      intro d b hb hb3
      rw [show padeK d * d - d * serK d = (padeK d - serK d) * d by ring, abs_mul]
      exact mul_le_mul (padeK_close d (hb.trans hb3)) hb (abs_nonneg _) (by norm_num)
    have k1 := abs_le.1 (b (f + 2) 3 (abs_le.2 ⟨by linarith, by linarith⟩) le_rfl)
    have k2 := abs_le.1 (b (f + 1) 2 (abs_le.2 ⟨by linarith, by linarith⟩) (by norm_num))
    have k3 := abs_le.1 (b f 1 (abs_le.2 ⟨by linarith, by linarith⟩) (by norm_num))
    have k4 := abs_le.1 (b (f - 1) 1 (abs_le.2 ⟨by linarith, by linarith⟩) (by norm_num))
    have k5 := abs_le.1 (b (f - 2) 2 (abs_le.2 ⟨by linarith, by linarith⟩) (by norm_num))
    have k6 := abs_le.1 (b (f - 3) 3 (abs_le.2 ⟨by linarith, by linarith⟩) le_rfl)
    rw [e, abs_le]
    constructor <;> norm_num at * <;> linarith
  · obtain ⟨f, h0, h1, e⟩ := sum_kernel n x h2 hn fun d => padeK d * d ^ 2
    have m := abs_le.1 (second_moment f h0 h1)
    have b : ∀ d b : ℝ, |d| ≤ b → b ≤ 3 → |padeK d * d ^ 2 - d ^ 2 * serK d| ≤ 1.1e-6 * b ^ 2 := by
      intro d b hb hb3
      rw [show padeK d * d ^ 2 - d ^ 2 * serK d = (padeK d - serK d) * d ^ 2 by ring, abs_mul, abs_pow]
      exact mul_le_mul (padeK_close d (hb.trans hb3)) (pow_le_pow_left₀ (abs_nonneg _) hb 2) (by positivity) (by norm_num)
    have k1 := abs_le.1 (b (f + 2) 3 (abs_le.2 ⟨by linarith, by linarith⟩) le_rfl)
    have k2 := abs_le.1 (b (f + 1) 2 (abs_le.2 ⟨by linarith, by linarith⟩) (by norm_num))
    have k3 := abs_le.1 (b f 1 (abs_le.2 ⟨by linarith, by linarith⟩) (by norm_num))
    have k4 := abs_le.1 (b (f - 1) 1 (abs_le.2 ⟨by linarith, by linarith⟩) (by norm_num))
    have k5 := abs_le.1 (b (f - 2) 2 (abs_le.2 ⟨by linarith, by linarith⟩) (by norm_num))
    have k6 := abs_le.1 (b (f - 3) 3 (abs_le.2 ⟨by linarith, by linarith⟩) le_rfl)
    rw [e, abs_le]
    constructor <;> norm_num at * <;> linarith
  · obtain ⟨f, h0, h1, e⟩ := sum_kernel n x h2 hn fun d => |padeK d|
    have m := signed_sum f h0 h1
    have k1 := (padeK_abs (f + 2) (abs_le.2 ⟨by linarith, by linarith⟩)).1 (.inr (le_abs.2 (.inl (by linarith))))
    have k2 := (padeK_abs (f + 1) (abs_le.2 ⟨by linarith, by linarith⟩)).2 (le_abs.2 (.inl (by linarith)))
      (abs_le.2 ⟨by linarith, by linarith⟩)
    have k3 := (padeK_abs f (abs_le.2 ⟨by linarith, by linarith⟩)).1 (.inl (abs_le.2 ⟨by linarith, by linarith⟩))
    have k4 := (padeK_abs (f - 1) (abs_le.2 ⟨by linarith, by linarith⟩)).1 (.inl (abs_le.2 ⟨by linarith, by linarith⟩))
    have k5 := (padeK_abs (f - 2) (abs_le.2 ⟨by linarith, by linarith⟩)).2 (le_abs.2 (.inr (by linarith)))
      (abs_le.2 ⟨by linarith, by linarith⟩)
    have k6 := (padeK_abs (f - 3) (abs_le.2 ⟨by linarith, by linarith⟩)).1 (.inr (le_abs.2 (.inr (by linarith))))
    rw [e]
    norm_num at *
    linarith

/-- The product of sums over rows and columns of the kernel. -/
theorem double_sum (n m : Nat) (y x : ℝ) (g h : ℝ → ℝ) (F : Nat → Nat → ℝ) (c : ℝ)
    (hF : ∀ r k, InKernel 3 y r → InKernel 3 x k → F r k = c * (g (y - r) * h (x - k))) :
    (∑ r ∈ Finset.range n, ∑ k ∈ Finset.range m, if InKernel 3 y r ∧ InKernel 3 x k then F r k else 0) =
      c * ((∑ r ∈ Finset.range n, if InKernel 3 y r then g (y - r) else 0) *
        (∑ k ∈ Finset.range m, if InKernel 3 x k then h (x - k) else 0)) := by
  rw [Finset.sum_mul, Finset.mul_sum]
  refine Finset.sum_congr rfl fun r _ => ?_
  rw [Finset.mul_sum, Finset.mul_sum]
  refine Finset.sum_congr rfl fun k _ => ?_
  by_cases h1 : InKernel 3 y r <;> by_cases h2 : InKernel 3 x k <;> simp [h1, h2]
  exact hF r k h1 h2

/-- C148: well inside the image, where the pixels in the kernel follow to `t` a quadratic function of their distance from the
position (with the value `c0` at the position, the gradient `(c1, c2)` and the second derivatives `2 c3`, `c4` and `2 c5`), the
resampled value is `c0`, to 1.15 per cent of it, 2.2 per cent of the change from pixel to pixel and next to nothing of
the curvature, plus at most 2.41 times `t`. -/
theorem C148_quadratic (im : Img ℝ) (c0 c1 c2 c3 c4 c5 t y x v : ℝ) (e : Bool)
    (hy : 2 ≤ y) (hy' : y + 3 < im.nrow) (hx : 2 ≤ x) (hx' : x + 3 < im.ncol)
    (hq : ∀ r k, InKernel 3 y r → InKernel 3 x k → |im.px r k - (c0 + c1 * (r - y) + c2 * (k - x) + c3 * (r - y) ^ 2 +
      c4 * ((r - y) * (k - x)) + c5 * (k - x) ^ 2)| ≤ t)
    (h : Resampled im 3 y x v e) :
    |v - c0| ≤ 0.0115 * |c0| + 0.022 * (|c1| + |c2|) + 0.0001 * (|c3| + |c5|) + 0.0005 * |c4| + 2.41 * t := by
  obtain ⟨e', h'⟩ := C89_value sincVal sincPade_eq im 3 (by norm_num) y x
  have hv := Except.ok.inj (h.symm.trans h')
  simp only [List.cons.injEq, Prod.mk.injEq, and_true] at hv
  set q : Nat → Nat → ℝ := fun r k => c0 + c1 * (r - y) + c2 * (k - x) + c3 * (r - y) ^ 2 + c4 * ((r - y) * (k - x)) +
    c5 * (k - x) ^ 2 with hqd
  set n := im.nrow
  set m := im.ncol
  let S (F : Nat → Nat → ℝ) : ℝ :=
    ∑ r ∈ Finset.range n, ∑ k ∈ Finset.range m, if InKernel 3 y r ∧ InKernel 3 x k then F r k else 0
  have Sadd : ∀ F G, S (fun r k => F r k + G r k) = S F + S G := by
    intro F G
    simp only [S]
    rw [← Finset.sum_add_distrib]
    refine Finset.sum_congr rfl fun r _ => ?_
    rw [← Finset.sum_add_distrib]
    refine Finset.sum_congr rfl fun k _ => ?_
    split_ifs <;> simp
  have hvS : v = S fun r k => im.px r k * (padeK (y - r) * padeK (x - k)) := by
    rw [hv.1]
    simp only [S, padeK]
    refine Finset.sum_congr rfl fun r _ => Finset.sum_congr rfl fun k _ => ?_
    split_ifs
    · ring
    · rfl
  obtain ⟨a1, a2, a3⟩ := kernel_moments n y hy hy'
  obtain ⟨b1, b2, b3⟩ := kernel_moments m x hx hx'
  have a0 := abs_le.1 (kernel_sum_bounds n y hy hy')
  have b0 := abs_le.1 (kernel_sum_bounds m x hx hx')
  change _ ≤ (∑ r ∈ Finset.range n, if InKernel 3 y r then padeK (y - r) else 0) - _ ∧
    (∑ r ∈ Finset.range n, if InKernel 3 y r then padeK (y - r) else 0) - _ ≤ _ at a0
  change _ ≤ (∑ r ∈ Finset.range m, if InKernel 3 x r then padeK (x - r) else 0) - _ ∧
    (∑ r ∈ Finset.range m, if InKernel 3 x r then padeK (x - r) else 0) - _ ≤ _ at b0
  have hpart : (S fun r k => q r k * (padeK (y - r) * padeK (x - k))) =
      c0 * ((∑ r ∈ Finset.range n, if InKernel 3 y r then padeK (y - r) else 0) *
        (∑ k ∈ Finset.range m, if InKernel 3 x k then padeK (x - k) else 0)) +
      -c1 * ((∑ r ∈ Finset.range n, if InKernel 3 y r then padeK (y - r) * (y - r) else 0) *
        (∑ k ∈ Finset.range m, if InKernel 3 x k then padeK (x - k) else 0)) +
      -c2 * ((∑ r ∈ Finset.range n, if InKernel 3 y r then padeK (y - r) else 0) *
        (∑ k ∈ Finset.range m, if InKernel 3 x k then padeK (x - k) * (x - k) else 0)) +
      c3 * ((∑ r ∈ Finset.range n, if InKernel 3 y r then padeK (y - r) * (y - r) ^ 2 else 0) *
        (∑ k ∈ Finset.range m, if InKernel 3 x k then padeK (x - k) else 0)) +
      c4 * ((∑ r ∈ Finset.range n, if InKernel 3 y r then padeK (y - r) * (y - r) else 0) *
        (∑ k ∈ Finset.range m, if InKernel 3 x k then padeK (x - k) * (x - k) else 0)) +
      c5 * ((∑ r ∈ Finset.range n, if InKernel 3 y r then padeK (y - r) else 0) *
        (∑ k ∈ Finset.range m, if InKernel 3 x k then padeK (x - k) * (x - k) ^ 2 else 0)) := by
    rw [← double_sum n m y x padeK padeK (fun r k => c0 * (padeK (y - r) * padeK (x - k))) c0 (fun _ _ _ _ => rfl),
      ← double_sum n m y x (fun d => padeK d * d) padeK (fun r k => -c1 * (padeK (y - r) * (y - r) * padeK (x - k))) (-c1)
        (fun _ _ _ _ => rfl),
      ← double_sum n m y x padeK (fun d => padeK d * d) (fun r k => -c2 * (padeK (y - r) * (padeK (x - k) * (x - k)))) (-c2)
        (fun _ _ _ _ => rfl),
      ← double_sum n m y x (fun d => padeK d * d ^ 2) padeK (fun r k => c3 * (padeK (y - r) * (y - r) ^ 2 * padeK (x - k))) c3
        (fun _ _ _ _ => rfl),
      ← double_sum n m y x (fun d => padeK d * d) (fun d => padeK d * d)
        (fun r k => c4 * (padeK (y - r) * (y - r) * (padeK (x - k) * (x - k)))) c4 (fun _ _ _ _ => rfl),
      ← double_sum n m y x padeK (fun d => padeK d * d ^ 2) (fun r k => c5 * (padeK (y - r) * (padeK (x - k) * (x - k) ^ 2))) c5
        (fun _ _ _ _ => rfl)]
    simp only [← Finset.sum_add_distrib, S]
    refine Finset.sum_congr rfl fun r _ => Finset.sum_congr rfl fun k _ => ?_
    split_ifs
    · simp only [hqd]
      ring
    · ring
  have hrest : |S fun r k => (im.px r k - q r k) * (padeK (y - r) * padeK (x - k))| ≤ t *
      ((∑ r ∈ Finset.range n, if InKernel 3 y r then |padeK (y - r)| else 0) *
        (∑ k ∈ Finset.range m, if InKernel 3 x k then |padeK (x - k)| else 0)) := by
    rw [← double_sum n m y x (fun d => |padeK d|) (fun d => |padeK d|) (fun r k => t * (|padeK (y - r)| * |padeK (x - k)|)) t
      (fun _ _ _ _ => rfl)]
    refine (Finset.abs_sum_le_sum_abs _ _).trans (Finset.sum_le_sum fun r _ =>
      (Finset.abs_sum_le_sum_abs _ _).trans (Finset.sum_le_sum fun k _ => ?_))
    split_ifs with hk
    · rw [abs_mul, abs_mul]
      exact mul_le_mul_of_nonneg_right (hq r k hk.1 hk.2) (by positivity)
    · simp
  have ht : 0 ≤ t := by
    have h1 : InKernel 3 y ⌊y⌋.toNat := by
      have h2 : (0 : ℤ) ≤ ⌊y⌋ := Int.floor_nonneg.2 (by linarith)
      rw [inKernel_iff, Finset.mem_Icc]
      omega
    have h2 : InKernel 3 x ⌊x⌋.toNat := by
      have h2 : (0 : ℤ) ≤ ⌊x⌋ := Int.floor_nonneg.2 (by linarith)
      rw [inKernel_iff, Finset.mem_Icc]
      omega
    exact (abs_nonneg _).trans (hq _ _ h1 h2)
  have hsplit : v = (S fun r k => q r k * (padeK (y - r) * padeK (x - k))) +
      S fun r k => (im.px r k - q r k) * (padeK (y - r) * padeK (x - k)) := by
    rw [hvS, ← Sadd]
    refine congrArg S ?_
    funext r k
    ring
  rw [hpart] at hsplit
  have a3' : 0 ≤ ∑ r ∈ Finset.range n, if InKernel 3 y r then |padeK (y - r)| else 0 :=
    Finset.sum_nonneg fun _ _ => by split_ifs <;> positivity
  have b3' : 0 ≤ ∑ k ∈ Finset.range m, if InKernel 3 x k then |padeK (x - k)| else 0 :=
    Finset.sum_nonneg fun _ _ => by split_ifs <;> positivity
  generalize (∑ r ∈ Finset.range n, if InKernel 3 y r then padeK (y - r) else 0) = A0 at *
  generalize (∑ r ∈ Finset.range n, if InKernel 3 y r then padeK (y - r) * (y - r) else 0) = A1 at *
  generalize (∑ r ∈ Finset.range n, if InKernel 3 y r then padeK (y - r) * (y - r) ^ 2 else 0) = A2 at *
  generalize (∑ r ∈ Finset.range n, if InKernel 3 y r then |padeK (y - r)| else 0) = A at *
  generalize (∑ k ∈ Finset.range m, if InKernel 3 x k then padeK (x - k) else 0) = B0 at *
  generalize (∑ k ∈ Finset.range m, if InKernel 3 x k then padeK (x - k) * (x - k) else 0) = B1 at *
  generalize (∑ k ∈ Finset.range m, if InKernel 3 x k then padeK (x - k) * (x - k) ^ 2 else 0) = B2 at *
  generalize (∑ k ∈ Finset.range m, if InKernel 3 x k then |padeK (x - k)| else 0) = B at *
  generalize (S fun r k => (im.px r k - q r k) * (padeK (y - r) * padeK (x - k))) = R at *
  have hA0 : |A0| ≤ 1.00012 := abs_le.2 ⟨by linarith [a0.1], by linarith [a0.2]⟩
  have hB0 : |B0| ≤ 1.00012 := abs_le.2 ⟨by linarith [b0.1], by linarith [b0.2]⟩
  have hAB : |A0 * B0 - 1| ≤ 0.0115 := by
    rw [abs_le]
    have l1 : (0.99428 : ℝ) ≤ A0 := by linarith [a0.1]
    have l2 : A0 ≤ 1.00012 := by linarith [a0.2]
    have l3 : (0.99428 : ℝ) ≤ B0 := by linarith [b0.1]
    have l4 : B0 ≤ 1.00012 := by linarith [b0.2]
    have m1 := mul_nonneg (sub_nonneg.2 l1) (sub_nonneg.2 l3)
    have m2 := mul_nonneg (sub_nonneg.2 l2) (by linarith : (0 : ℝ) ≤ B0)
    constructor <;> norm_num at * <;> nlinarith
  have prod : ∀ {p q P Q c : ℝ}, |p| ≤ P → |q| ≤ Q → |c * (p * q)| ≤ (P * Q) * |c| := by
    intro p q P Q c hp hq
    rw [abs_mul, abs_mul, mul_comm]
    exact mul_le_mul_of_nonneg_right (mul_le_mul hp hq (abs_nonneg _) ((abs_nonneg _).trans hp)) (abs_nonneg _)
  have t1 := prod (c := -c1) a1 hB0
  have t2 := prod (c := -c2) hA0 b1
  have t3 := prod (c := c3) a2 hB0
  have t4 := prod (c := c4) a1 b1
  have t5 := prod (c := c5) hA0 b2
  rw [abs_neg] at t1 t2
  have t0 : |c0 * (A0 * B0 - 1)| ≤ 0.0115 * |c0| := by
    rw [abs_mul, mul_comm]
    exact mul_le_mul_of_nonneg_right hAB (abs_nonneg _)
  have t6 : |R| ≤ 2.41 * t := by
    refine hrest.trans ?_
    rw [mul_comm]
    refine mul_le_mul_of_nonneg_right ((mul_le_mul a3 b3 b3' (by norm_num)).trans (by norm_num)) ht
  have hdiff : v - c0 = c0 * (A0 * B0 - 1) + -c1 * (A1 * B0) + -c2 * (A0 * B1) + c3 * (A2 * B0) + c4 * (A1 * B1) +
      c5 * (A0 * B2) + R := by
    rw [hsplit]
    ring
  rw [hdiff]
  have g1 := abs_nonneg c1
  have g2 := abs_nonneg c2
  have g3 := abs_nonneg c3
  have g4 := abs_nonneg c4
  have g5 := abs_nonneg c5
  rw [abs_le] at t0 t1 t2 t3 t4 t5 t6 ⊢
  constructor <;> norm_num at * <;> linarith [t0.1, t0.2, t1.1, t1.2]

end Pizza
