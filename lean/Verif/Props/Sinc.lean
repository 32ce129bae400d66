import Verif.Lemmas.Sinc
import Verif.Props.Lanczos

/-!
Properties C96 and C97: accuracy of the approximate sinc and of Lanczos resampling, over the reals.
`Real.sinc t` is `sin t / t` (1 at 0), from Mathlib.
-/

namespace Pizza

open PolyBound
open scoped Classical

/-- The Lanczos window of size `a` (specification). -/
noncomputable def trueLanczos (a : ℤ) (d : ℝ) : ℝ := Real.sinc (Real.pi * d) * Real.sinc (Real.pi * (d / a))

/-- C96: `sinc_pade` is within 6e-15, 2.5e-10 and 1.04e-6 of the sinc on the intervals [-1, 1], [-2, 2]
and [-3, 3]. -/
theorem C96_sinc (x : ℝ) : ∃ v, sincPade x = .ok v ∧
    (|x| ≤ 1 → |v - Real.sinc (Real.pi * x)| ≤ 6e-15) ∧
    (|x| ≤ 2 → |v - Real.sinc (Real.pi * x)| ≤ 2.5e-10) ∧
    (|x| ≤ 3 → |v - Real.sinc (Real.pi * x)| ≤ 1.04e-6) := by
  obtain ⟨h1, h2, h3⟩ := sincVal_close x
  exact ⟨_, sincPade_eq x, fun h => (h1 h).trans (by norm_num), fun h => (h2 h).trans (by norm_num),
    fun h => (h3 h).trans (by norm_num)⟩

theorem kern_close (a : ℤ) (ha : 1 ≤ a) (ha3 : a ≤ 3) (d : ℝ) (hd : |d| ≤ a) :
    |sincVal d * sincVal (d / a) - trueLanczos a d| ≤ 1.05e-6 := by
  have har : (1 : ℝ) ≤ a := by exact_mod_cast ha
  have har3 : (a : ℝ) ≤ 3 := by exact_mod_cast ha3
  have hq : |d / a| ≤ 1 := by
    rw [abs_div, abs_of_pos (by linarith : (0 : ℝ) < a), div_le_one (by linarith)]; exact hd
  have h1 := (sincVal_close d).2.2 (hd.trans har3)
  have h2 := (sincVal_close (d / a)).1 hq
  have s1 := Real.abs_sinc_le_one (Real.pi * d)
  have s2 := Real.abs_sinc_le_one (Real.pi * (d / a))
  unfold trueLanczos
  set u := sincVal d
  set w := sincVal (d / (a : ℝ))
  set p := Real.sinc (Real.pi * d)
  set q := Real.sinc (Real.pi * (d / a))
  have e : u * w - p * q = (u - p) * q + (u - p) * (w - q) + p * (w - q) := by ring
  have b1 : |(u - p) * q| ≤ 1.04 / 10 ^ 6 := by
    rw [abs_mul]; nlinarith [abs_nonneg (u - p), abs_nonneg q]
  have b2 : |(u - p) * (w - q)| ≤ 1.04 / 10 ^ 6 * (6 / 10 ^ 15) := by
    rw [abs_mul]; exact mul_le_mul h1 h2 (abs_nonneg _) (by norm_num)
  have b3 : |p * (w - q)| ≤ 6 / 10 ^ 15 := by
    rw [abs_mul]; nlinarith [abs_nonneg (w - q), abs_nonneg p]
  rw [e]
  refine (abs_add_three _ _ _).trans ?_
  refine (add_le_add (add_le_add b1 b2) b3).trans (by norm_num)

/-- C96: inside its support the kernel that is computed is within 1.05e-6 of the Lanczos kernel (the
documentation promises 1.03019e-5). -/
theorem C96_kernel (a : ℤ) (ha : 1 ≤ a) (ha3 : a ≤ 3) (d : ℝ) (hd : |d| ≤ a) :
    ∃ v, lanczosKernel a d = .ok v ∧ |v - trueLanczos a d| ≤ 1.05e-6 :=
  ⟨_, lanczosKernel_eq (by omega) d, kern_close a ha ha3 d hd⟩

theorem trueLanczos_le (a : ℤ) (d : ℝ) : |trueLanczos a d| ≤ 1 := by
  unfold trueLanczos
  rw [abs_mul]
  exact mul_le_one₀ (Real.abs_sinc_le_one _) (abs_nonneg _) (Real.abs_sinc_le_one _)

theorem inKernel_abs {a : ℤ} {p : ℝ} {k : Nat} (h : InKernel a p k) : |p - k| ≤ a := by
  obtain ⟨h1, h2⟩ := h
  rw [abs_le]; constructor <;> linarith

/-- C96: the resampled value differs from the Lanczos sum by at most 2.11e-6 times the sum of the
absolute values of the pixels used. -/
theorem C96_value (im : Img ℝ) (a : ℤ) (ha : 1 ≤ a) (y x v : ℝ) (e : Bool) (h : Resampled im a y x v e) :
    |v - ∑ r ∈ Finset.range im.nrow, ∑ c ∈ Finset.range im.ncol,
        (if InKernel a y r ∧ InKernel a x c then
          im.px r c * (trueLanczos a (x - c) * trueLanczos a (y - r)) else 0)| ≤
      2.11e-6 * ∑ r ∈ Finset.range im.nrow, ∑ c ∈ Finset.range im.ncol,
        (if InKernel a y r ∧ InKernel a x c then |im.px r c| else 0) := by
  have ha3 : a ≤ 3 := by
    by_contra hc
    have := C29_large_kernel im [(y, x)] a (by omega)
    rw [Resampled, this] at h
    exact nomatch h
  obtain ⟨e', h'⟩ := C89_value sincVal sincPade_eq im a ha3 y x
  have hv := Except.ok.inj (h.symm.trans h')
  simp only [List.cons.injEq, Prod.mk.injEq, and_true] at hv
  rw [hv.1, ← Finset.sum_sub_distrib, Finset.mul_sum]
  refine (Finset.abs_sum_le_sum_abs _ _).trans (Finset.sum_le_sum fun r _ => ?_)
  rw [← Finset.sum_sub_distrib, Finset.mul_sum]
  refine (Finset.abs_sum_le_sum_abs _ _).trans (Finset.sum_le_sum fun c _ => ?_)
  by_cases hk : InKernel a y r ∧ InKernel a x c
  · rw [if_pos hk, if_pos hk, if_pos hk, ← mul_sub, abs_mul, mul_comm]
    refine mul_le_mul_of_nonneg_right ?_ (abs_nonneg _)
    have k1 := kern_close a ha ha3 (x - c) (inKernel_abs hk.2)
    have k2 := kern_close a ha ha3 (y - r) (inKernel_abs hk.1)
    have t1 := trueLanczos_le a (x - c)
    have t2 := trueLanczos_le a (y - r)
    set u := sincVal (x - c) * sincVal ((x - c) / (a : ℝ))
    set w := sincVal (y - r) * sincVal ((y - r) / (a : ℝ))
    set p := trueLanczos a (x - c)
    set q := trueLanczos a (y - r)
    have e : u * w - p * q = (u - p) * q + (u - p) * (w - q) + p * (w - q) := by ring
    have b1 : |(u - p) * q| ≤ 1.05e-6 := by
      rw [abs_mul]; nlinarith [abs_nonneg (u - p), abs_nonneg q]
    have b2 : |(u - p) * (w - q)| ≤ 1.05e-6 * 1.05e-6 := by
      rw [abs_mul]; exact mul_le_mul k1 k2 (abs_nonneg _) (by norm_num)
    have b3 : |p * (w - q)| ≤ 1.05e-6 := by
      rw [abs_mul]; nlinarith [abs_nonneg (w - q), abs_nonneg p]
    rw [e]
    refine (abs_add_three _ _ _).trans ?_
    refine (add_le_add (add_le_add b1 b2) b3).trans (by norm_num)
  · rw [if_neg hk, if_neg hk, if_neg hk]; simp

/-- `C96_value` for a position between pixels, with a kernel that is partly outside the image (the
value exists, see below). -/
example (v : ℝ) (e : Bool)
    (h : Resampled (⟨4, 4, fun r c => (r : ℝ) - c⟩ : Img ℝ) 2 0.25 2.5 v e) :=
  C96_value _ 2 (by norm_num) _ _ v e h

/-! ### C97 -/

/-- The six columns of the kernel. -/
theorem sum_kernel (n : Nat) (x : ℝ) (h2 : 2 ≤ x) (hn : x + 3 < n) (g : ℝ → ℝ) :
    ∃ f : ℝ, 0 ≤ f ∧ f ≤ 1 ∧ (∑ c ∈ Finset.range n, if InKernel 3 x c then g (x - c) else 0) =
      g (f + 2) + g (f + 1) + g f + g (f - 1) + g (f - 2) + g (f - 3) := by
  have hf0 : (0 : ℝ) ≤ x - ⌊x⌋ := by linarith [Int.floor_le x]
  have hf1 : x - ⌊x⌋ ≤ 1 := by linarith [Int.lt_floor_add_one x]
  have hm : (2 : ℤ) ≤ ⌊x⌋ := Int.le_floor.2 (by exact_mod_cast h2)
  obtain ⟨m, hm'⟩ : ∃ m : ℕ, ⌊x⌋ = (m : ℤ) + 2 := ⟨(⌊x⌋ - 2).toNat, by omega⟩
  have hxm : (⌊x⌋ : ℝ) = (m : ℝ) + 2 := by rw [hm']; push_cast; rfl
  have hmn : m + 6 ≤ n := by
    have h1 := Int.floor_le x
    rw [hxm] at h1
    have : ((m + 5 : ℕ) : ℝ) < (n : ℝ) := by push_cast; linarith
    have : m + 5 < n := by exact_mod_cast this
    omega
  refine ⟨x - ⌊x⌋, hf0, hf1, ?_⟩
  have hk : ∀ c : ℕ, InKernel 3 x c ↔ c ∈ Finset.Ico m (m + 6) := by
    intro c
    rw [inKernel_iff, Finset.mem_Icc, Finset.mem_Ico, hm']
    omega
  rw [← Finset.sum_filter]
  have hfil : (Finset.range n).filter (fun c => InKernel 3 x c) = Finset.Ico m (m + 6) := by
    ext c
    rw [Finset.mem_filter, hk, Finset.mem_range, Finset.mem_Ico]
    omega
  rw [hfil, Finset.sum_Ico_eq_sum_range]
  rw [show m + 6 - m = 6 by omega]
  simp only [Finset.sum_range_succ, Finset.sum_range_zero, zero_add]
  push_cast
  rw [hxm]
  have g1 : x - ((m : ℝ) + 1) = x - (m + 2) + 1 := by ring
  have g0 : x - (m : ℝ) = x - (m + 2) + 2 := by ring
  have g3 : x - ((m : ℝ) + 3) = x - (m + 2) - 1 := by ring
  have g4 : x - ((m : ℝ) + 4) = x - (m + 2) - 2 := by ring
  have g5 : x - ((m : ℝ) + 5) = x - (m + 2) - 3 := by ring
  rw [add_zero, g0, g1, g3, g4, g5]

theorem serV_sum_close (d : ℝ) (hd : |d| ≤ 3) : |sincVal d * sincVal (d / (3 : ℤ)) - serV d * serV (d / 3)| ≤ 1.1e-6 := by
  have h1 := kern_close 3 (by norm_num) (by norm_num) d (by simpa using hd)
  have hq : |d / 3| ≤ 1 := by
    rw [abs_div, abs_of_pos (by norm_num : (0 : ℝ) < 3), div_le_one (by norm_num)]; exact hd
  have c1 := serV_close_three d hd
  have c2 := serV_close_two (d / 3) (by linarith)
  have s1 := Real.abs_sinc_le_one (Real.pi * d)
  have s2 := Real.abs_sinc_le_one (Real.pi * (d / 3))
  unfold trueLanczos at h1
  push_cast at h1 ⊢
  set p := Real.sinc (Real.pi * d)
  set q := Real.sinc (Real.pi * (d / 3))
  have e : p * q - serV d * serV (d / 3) = (p - serV d) * q - (p - serV d) * (q - serV (d / 3)) + p * (q - serV (d / 3)) := by
    ring
  have b1 : |(p - serV d) * q| ≤ 1 / 10 ^ 13 := by
    rw [abs_mul]; nlinarith [abs_nonneg (p - serV d), abs_nonneg q]
  have b2 : |(p - serV d) * (q - serV (d / 3))| ≤ 1 / 10 ^ 13 * (1 / 10 ^ 18) := by
    rw [abs_mul]; exact mul_le_mul c1 c2 (abs_nonneg _) (by norm_num)
  have b3 : |p * (q - serV (d / 3))| ≤ 1 / 10 ^ 18 := by
    rw [abs_mul]; nlinarith [abs_nonneg (q - serV (d / 3)), abs_nonneg p]
  have b4 : |p * q - serV d * serV (d / 3)| ≤ 1 / 10 ^ 12 := by
    rw [e]
    have l1 := abs_le.1 b1
    have l2 := abs_le.1 b2
    have l3 := abs_le.1 b3
    rw [abs_le]
    constructor <;> norm_num at * <;> linarith
  have := abs_sub_le (sincVal d * sincVal (d / 3)) (p * q) (serV d * serV (d / 3))
  refine this.trans ((add_le_add h1 b4).trans (by norm_num))

theorem kernel_sum_bounds (n : Nat) (x : ℝ) (h2 : 2 ≤ x) (hn : x + 3 < n) :
    |(∑ c ∈ Finset.range n, if InKernel 3 x c then sincVal (x - c) * sincVal ((x - c) / (3 : ℤ)) else 0) - 0.9972| ≤ 0.00292 := by
  obtain ⟨f, h0, h1, e⟩ := sum_kernel n x h2 hn fun d => sincVal d * sincVal (d / (3 : ℤ))
  obtain ⟨l, u⟩ := sum_bounds f h0 h1
  have k1 := abs_le.1 (serV_sum_close (f + 2) (abs_le.2 ⟨by linarith, by linarith⟩))
  have k2 := abs_le.1 (serV_sum_close (f + 1) (abs_le.2 ⟨by linarith, by linarith⟩))
  have k3 := abs_le.1 (serV_sum_close f (abs_le.2 ⟨by linarith, by linarith⟩))
  have k4 := abs_le.1 (serV_sum_close (f - 1) (abs_le.2 ⟨by linarith, by linarith⟩))
  have k5 := abs_le.1 (serV_sum_close (f - 2) (abs_le.2 ⟨by linarith, by linarith⟩))
  have k6 := abs_le.1 (serV_sum_close (f - 3) (abs_le.2 ⟨by linarith, by linarith⟩))
  rw [e, abs_le]
  constructor <;> norm_num at * <;> linarith

/-- C97: well inside the image, where all pixels in the kernel have the value `c`, the resampled value
is `c` to 1.15 per cent, and the position is not flagged (kernel size 3, which is the one used). -/
theorem C97_constant (im : Img ℝ) (c y x v : ℝ) (e : Bool)
    (hy : 2 ≤ y) (hy' : y + 3 < im.nrow) (hx : 2 ≤ x) (hx' : x + 3 < im.ncol)
    (hc : ∀ r k, InKernel 3 y r → InKernel 3 x k → im.px r k = c)
    (h : Resampled im 3 y x v e) : e = false ∧ |v - c| ≤ 0.0115 * |c| := by
  constructor
  · have hr : 0 < im.nrow := by
      have : (0 : ℝ) < im.nrow := by linarith
      exact_mod_cast this
    have hk : 0 < im.ncol := by
      have : (0 : ℝ) < im.ncol := by linarith
      exact_mod_cast this
    have := (C28_edge_iff im 3 y x v e (by norm_num) hr hk h).1
    cases e with
    | false => rfl
    | true =>
      exfalso
      refine this.1 rfl ⌊y⌋.toNat ?_ ⌊x⌋.toNat ?_ ⟨?_, ?_⟩
      · have h1 := Int.floor_le y
        have h2 : (0 : ℤ) ≤ ⌊y⌋ := Int.floor_nonneg.2 (by linarith)
        have h3 : ((⌊y⌋.toNat : ℤ) : ℝ) = ⌊y⌋ := by rw [Int.toNat_of_nonneg h2]
        have : ((⌊y⌋.toNat : ℕ) : ℝ) < im.nrow := by
          have : ((⌊y⌋.toNat : ℕ) : ℝ) = ⌊y⌋ := by exact_mod_cast h3
          linarith
        exact_mod_cast this
      · have h1 := Int.floor_le x
        have h2 : (0 : ℤ) ≤ ⌊x⌋ := Int.floor_nonneg.2 (by linarith)
        have h3 : ((⌊x⌋.toNat : ℤ) : ℝ) = ⌊x⌋ := by rw [Int.toNat_of_nonneg h2]
        have : ((⌊x⌋.toNat : ℕ) : ℝ) < im.ncol := by
          have : ((⌊x⌋.toNat : ℕ) : ℝ) = ⌊x⌋ := by exact_mod_cast h3
          linarith
        exact_mod_cast this
      · have h2 : (0 : ℤ) ≤ ⌊y⌋ := Int.floor_nonneg.2 (by linarith)
        rw [inKernel_iff, Finset.mem_Icc]
        omega
      · have h2 : (0 : ℤ) ≤ ⌊x⌋ := Int.floor_nonneg.2 (by linarith)
        rw [inKernel_iff, Finset.mem_Icc]
        omega
  · obtain ⟨e', h'⟩ := C89_value sincVal sincPade_eq im 3 (by norm_num) y x
    have hv := Except.ok.inj (h.symm.trans h')
    simp only [List.cons.injEq, Prod.mk.injEq, and_true] at hv
    have hs : v = c * ((∑ r ∈ Finset.range im.nrow, if InKernel 3 y r then sincVal (y - r) * sincVal ((y - r) / (3 : ℤ)) else 0) *
        (∑ k ∈ Finset.range im.ncol, if InKernel 3 x k then sincVal (x - k) * sincVal ((x - k) / (3 : ℤ)) else 0)) := by
      rw [hv.1, Finset.sum_mul, Finset.mul_sum]
      refine Finset.sum_congr rfl fun r _ => ?_
      rw [Finset.mul_sum, Finset.mul_sum]
      refine Finset.sum_congr rfl fun k _ => ?_
      by_cases h1 : InKernel 3 y r <;> by_cases h2 : InKernel 3 x k <;> simp only [h1, h2, and_true, and_false, if_true, if_false, mul_zero, zero_mul]
      rw [hc r k h1 h2]; ring
    have b1 := abs_le.1 (kernel_sum_bounds im.nrow y hy hy')
    have b2 := abs_le.1 (kernel_sum_bounds im.ncol x hx hx')
    set A := ∑ r ∈ Finset.range im.nrow, if InKernel 3 y r then sincVal (y - r) * sincVal ((y - r) / (3 : ℤ)) else 0
    set B := ∑ k ∈ Finset.range im.ncol, if InKernel 3 x k then sincVal (x - k) * sincVal ((x - k) / (3 : ℤ)) else 0
    have hAB : |A * B - 1| ≤ 0.0115 := by
      rw [abs_le]
      have a1 : (0.99428 : ℝ) ≤ A := by linarith [b1.1]
      have a2 : A ≤ 1.00012 := by linarith [b1.2]
      have a3 : (0.99428 : ℝ) ≤ B := by linarith [b2.1]
      have a4 : B ≤ 1.00012 := by linarith [b2.2]
      have m1 := mul_nonneg (sub_nonneg.2 a1) (sub_nonneg.2 a3)
      have m2 := mul_nonneg (sub_nonneg.2 a2) (by linarith : (0 : ℝ) ≤ B)
      constructor <;> nlinarith
    have : v - c = (A * B - 1) * c := by rw [hs]; ring
    rw [this, abs_mul]
    exact mul_le_mul_of_nonneg_right hAB (abs_nonneg _)

/-! ### cases -/

/-- Half a pixel between two pixels of a constant image. -/
example : ∃ v e, Resampled (⟨10, 12, fun _ _ => 7⟩ : Img ℝ) 3 4.5 5.5 v e ∧ e = false ∧ |v - 7| ≤ 0.0115 * |7| := by
  obtain ⟨e, h⟩ := C89_value sincVal sincPade_eq (⟨10, 12, fun _ _ => 7⟩ : Img ℝ) 3 (by norm_num) 4.5 5.5
  exact ⟨_, e, h, C97_constant _ 7 4.5 5.5 _ e (by norm_num) (by norm_num) (by norm_num) (by norm_num) (fun _ _ _ _ => rfl) h⟩

/-- C96 for a position between pixels, with a kernel that is partly outside the image. -/
example : ∃ v e, Resampled (⟨4, 4, fun r c => (r : ℝ) - c⟩ : Img ℝ) 2 0.25 2.5 v e := by
  obtain ⟨e, h⟩ := C89_value sincVal sincPade_eq (⟨4, 4, fun r c => (r : ℝ) - c⟩ : Img ℝ) 2 (by norm_num) 0.25 2.5
  exact ⟨_, e, h⟩

/-- The bounds of C96 at a position where neither sinc is zero. -/
example : ∃ v, lanczosKernel 3 (2.5 : ℝ) = .ok v ∧ |v - trueLanczos 3 2.5| ≤ 1.05e-6 :=
  C96_kernel 3 (by norm_num) (by norm_num) 2.5 (by norm_num [abs_of_pos])

end Pizza
