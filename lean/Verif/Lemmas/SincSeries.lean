import Verif.Lemmas.PolyBound
import Mathlib.Analysis.SpecialFunctions.Trigonometric.Sinc
import Mathlib.Analysis.SpecialFunctions.Trigonometric.Bounds
import Mathlib.Analysis.Real.Pi.Bounds
import Mathlib.Analysis.Complex.Trigonometric
import Mathlib.Algebra.BigOperators.Field
import Mathlib.Algebra.Field.GeomSum

/-! A polynomial close to `sin (π x) / (π x)`, and bounds of polynomials found by bisection.  Nothing
here depends on the model; the coefficients of `sinc_pade` in `numZ` and `denZ` are compared with the
model in `Verif.Lemmas.Sinc`. -/

namespace Pizza.PolyBound

/-- The numerator of `sinc_pade` without its roots, times `10 ^ 22`. -/
def numZ : List ℤ := [
  -1666666666666660000000, -2891766853433730000000, -1097576690895460000000,
  350931080575596000000, 229947584643336000000, -8936395820193500000, -16272219296572200000,
  -300689146075626000, 513864469774294000, 12356156338221400, -6373922536190410]

/-- The denominator of `sinc_pade`, times `10 ^ 22`. -/
def denZ : List ℤ := [
  10000000000000000000000, -982732212730775000000, 1225365426084030000000,
  -111525324680647000000, 72470751283301900000, -5847744456534040000, 2625280482965790000,
  -171596576734417000, 59194541166080400, -2441748185794910, 674473938075399]

/-- The coefficients of the Taylor series of `sinc (π x)` in powers of `x ^ 2`, times `2 ^ 160`,
rounded. -/
def serC : List ℤ := [
  1461501637330902918203684832716283019655932542976,
  -2404073832000063850419798934870571847394030974795,
  1186362883642579476377399609003388168220376203978,
  -278784103278282501422518081704252607674922354838,
  38215122398181767585809754867180693441914526005,
  -3428801274629666348348408509690181789623129305, 216928924041959984505916361891246148566039181,
  -10195250778324321146569155929372155948636702, 369937838058674371035181274105840276921307,
  -10675848288401681294889264682704137772570, 250872379172789357194284025614333017783,
  -4893302643469407487180045667930876626, 80491602176413094683354745974761997,
  -1131652807822023470196282638066647, 13754883660819424874461672017141,
  -145973398188489789691620719126, 1364298951896863860918807261, -11315202470624274562872521,
  83841270347815708939624, -558353691509935669235, 3360201250665214104, -18363154513904410,
  91533874044603]

/-- A polynomial in `x ^ 2` as a polynomial in `x`. -/
def pspread : List ℤ → List ℤ
  | [] => []
  | a :: p => a :: 0 :: pspread p

theorem horner_pspread {K : Type} [Field K] (p : List ℤ) (t : K) :
    horner (pspread p) t = horner p (t * t) := by
  induction p with
  | nil => rfl
  | cons a p ih => simp only [pspread, horner, ih]; push_cast; ring

theorem horner_eq_sum {K : Type} [Field K] (p : List ℤ) (t : K) :
    horner p t = ∑ k ∈ Finset.range p.length, (p.getD k 0 : K) * t ^ k := by
  induction p with
  | nil => simp [horner]
  | cons a p ih =>
    rw [List.length_cons, Finset.sum_range_succ']
    simp only [horner, ih, List.getD_cons_zero, List.getD_cons_succ, pow_zero, mul_one, Finset.mul_sum]
    rw [add_comm]
    congr 1
    refine Finset.sum_congr rfl fun k _ => ?_
    rw [pow_succ]; ring

/-! ### the Taylor series of the sine -/

theorem im_sum (θ : ℝ) (n : ℕ) :
    (∑ m ∈ Finset.range (2 * n + 1), ((θ : ℂ) * Complex.I) ^ m / (m.factorial : ℂ)).im =
      ∑ k ∈ Finset.range n, (-1) ^ k * θ ^ (2 * k + 1) / ((2 * k + 1).factorial : ℝ) := by
  induction n with
  | zero => simp
  | succ n ih =>
    rw [show 2 * (n + 1) + 1 = 2 * n + 1 + 1 + 1 from by ring, Finset.sum_range_succ _ (2 * n + 1 + 1),
      Finset.sum_range_succ _ (2 * n + 1), Complex.add_im, Complex.add_im, ih, Finset.sum_range_succ]
    have h2 : Complex.I ^ (2 * n) = (((-1 : ℝ) ^ n : ℝ) : ℂ) := by
      rw [pow_mul, Complex.I_sq]; push_cast; rfl
    have h1 : (((θ : ℂ) * Complex.I) ^ (2 * n + 1) / ((2 * n + 1).factorial : ℂ)).im =
        (-1) ^ n * θ ^ (2 * n + 1) / ((2 * n + 1).factorial : ℝ) := by
      have : ((θ : ℂ) * Complex.I) ^ (2 * n + 1) / ((2 * n + 1).factorial : ℂ) =
          (((-1) ^ n * θ ^ (2 * n + 1) / ((2 * n + 1).factorial : ℝ) : ℝ) : ℂ) * Complex.I := by
        rw [mul_pow, pow_succ Complex.I, h2]; push_cast; ring
      rw [this, Complex.mul_im, Complex.ofReal_re, Complex.ofReal_im, Complex.I_im]; ring
    have h3 : (((θ : ℂ) * Complex.I) ^ (2 * n + 1 + 1) / ((2 * n + 1 + 1).factorial : ℂ)).im = 0 := by
      have : ((θ : ℂ) * Complex.I) ^ (2 * n + 1 + 1) / ((2 * n + 1 + 1).factorial : ℂ) =
          ((-(-1) ^ n * θ ^ (2 * n + 2) / ((2 * n + 1 + 1).factorial : ℝ) : ℝ) : ℂ) := by
        rw [mul_pow, pow_succ Complex.I, pow_succ Complex.I, h2, mul_assoc, Complex.I_mul_I]
        push_cast; ring
      rw [this, Complex.ofReal_im]
    rw [h1, h3, add_zero]

theorem sin_series (θ : ℝ) (n : ℕ) (h : |θ| ≤ n + 1) :
    |Real.sin θ - ∑ k ∈ Finset.range n, (-1) ^ k * θ ^ (2 * k + 1) / ((2 * k + 1).factorial : ℝ)| ≤
      |θ| ^ (2 * n + 1) / ((2 * n + 1).factorial : ℝ) * 2 := by
  have hn : ‖(θ : ℂ) * Complex.I‖ = |θ| := by simp
  have hb : ‖(θ : ℂ) * Complex.I‖ / ((2 * n + 1).succ : ℕ) ≤ 1 / 2 := by
    rw [hn, div_le_iff₀ (by positivity)]; push_cast; linarith
  have key := Complex.exp_bound' hb
  rw [hn] at key
  refine le_trans ?_ key
  refine le_trans (le_of_eq ?_) (Complex.abs_im_le_norm _)
  rw [Complex.sub_im, im_sum, Complex.exp_ofReal_mul_I_im]

/-! ### the truncated series -/

/-- `π` rounded down to twenty decimals. -/
def piQ : ℚ := 3.14159265358979323846

theorem serC_close : ∀ k < 23, |(serC.getD k 0 : ℚ) / 2 ^ 160 - (-1) ^ k * piQ ^ (2 * k) / ((2 * k + 1).factorial : ℚ)| ≤
    1 / 2 ^ 160 := by decide +kernel

/-- The polynomial that replaces `sinc (π x)`. -/
noncomputable def serV (x : ℝ) : ℝ := horner serC (x * x) / 2 ^ 160

theorem piQ_close : |Real.pi - (piQ : ℝ)| ≤ 1 / 10 ^ 20 := by
  have h1 := Real.pi_gt_d20
  have h2 := Real.pi_lt_d20
  have e : (piQ : ℝ) = 3.14159265358979323846 := by norm_num [piQ]
  rw [e, abs_le]; constructor <;> norm_num at * <;> linarith

theorem serV_series (x : ℝ) (hx : |x| ≤ 3) :
    |serV x - ∑ k ∈ Finset.range 23, (-1) ^ k * ((piQ : ℝ) * x) ^ (2 * k) / ((2 * k + 1).factorial : ℝ)| ≤
      1 / 10 ^ 20 := by
  have hl : serC.length = 23 := rfl
  unfold serV
  rw [horner_eq_sum, hl, Finset.sum_div, ← Finset.sum_sub_distrib]
  have hx2 : x * x ≤ 9 := by nlinarith [abs_le.1 hx]
  refine (Finset.abs_sum_le_sum_abs _ _).trans ?_
  have term : ∀ k ∈ Finset.range 23, |(serC.getD k 0 : ℝ) * (x * x) ^ k / 2 ^ 160 -
      (-1) ^ k * ((piQ : ℝ) * x) ^ (2 * k) / ((2 * k + 1).factorial : ℝ)| ≤ 9 ^ k / 2 ^ 160 := by
    intro k hk
    have h := serC_close k (Finset.mem_range.1 hk)
    have h' : |(serC.getD k 0 : ℝ) / 2 ^ 160 - (-1) ^ k * (piQ : ℝ) ^ (2 * k) / ((2 * k + 1).factorial : ℝ)| ≤
        1 / 2 ^ 160 := by
      have h'' := (Rat.cast_le (K := ℝ)).2 h
      push_cast at h''
      exact h''
    have e : (serC.getD k 0 : ℝ) * (x * x) ^ k / 2 ^ 160 -
        (-1) ^ k * ((piQ : ℝ) * x) ^ (2 * k) / ((2 * k + 1).factorial : ℝ) =
        ((serC.getD k 0 : ℝ) / 2 ^ 160 - (-1) ^ k * (piQ : ℝ) ^ (2 * k) / ((2 * k + 1).factorial : ℝ)) *
          (x * x) ^ k := by
      rw [mul_pow (piQ : ℝ), pow_mul x, sq]; ring
    rw [e, abs_mul]
    have h9 : |(x * x) ^ k| ≤ 9 ^ k := by
      rw [abs_pow, abs_of_nonneg (mul_self_nonneg x)]
      exact pow_le_pow_left₀ (mul_self_nonneg x) hx2 k
    calc _ ≤ 1 / 2 ^ 160 * 9 ^ k := mul_le_mul h' h9 (abs_nonneg _) (by positivity)
      _ = _ := by ring
  refine (Finset.sum_le_sum term).trans ?_
  rw [← Finset.sum_div, geom_sum_eq (by norm_num)]
  norm_num

theorem sinc_series (θ : ℝ) (n : ℕ) (h : |θ| ≤ n + 1) :
    |Real.sinc θ - ∑ k ∈ Finset.range n, (-1) ^ k * θ ^ (2 * k) / ((2 * k + 1).factorial : ℝ)| ≤
      |θ| ^ (2 * n) / ((2 * n + 1).factorial : ℝ) * 2 := by
  rcases eq_or_ne θ 0 with rfl | h0
  · cases n with
    | zero => simp
    | succ n =>
      rw [Finset.sum_range_succ']
      simp
  · have := sin_series θ n h
    rw [Real.sinc_of_ne_zero h0]
    have hp : 0 < |θ| := abs_pos.2 h0
    have e : Real.sin θ / θ - ∑ k ∈ Finset.range n, (-1) ^ k * θ ^ (2 * k) / ((2 * k + 1).factorial : ℝ) =
        (Real.sin θ - ∑ k ∈ Finset.range n, (-1) ^ k * θ ^ (2 * k + 1) / ((2 * k + 1).factorial : ℝ)) / θ := by
      rw [sub_div, Finset.sum_div]
      congr 1
      refine Finset.sum_congr rfl fun k _ => ?_
      rw [pow_succ]; field_simp
    rw [e, abs_div, div_le_iff₀ hp]
    refine this.trans (le_of_eq ?_)
    rw [pow_succ]; ring

theorem sinc_pi_close (x : ℝ) : |Real.sinc (Real.pi * x) - Real.sinc ((piQ : ℝ) * x)| ≤ 1 / 10 ^ 20 := by
  rcases eq_or_ne x 0 with rfl | h0
  · simp
  · have hpi : (3 : ℝ) < Real.pi := Real.pi_gt_three
    have hq : (3 : ℝ) < (piQ : ℝ) := by norm_num [piQ]
    have hc := piQ_close
    rw [Real.sinc_of_ne_zero (mul_ne_zero (by linarith) h0), Real.sinc_of_ne_zero (mul_ne_zero (by linarith) h0)]
    set p := Real.pi with hp
    set q := (piQ : ℝ) with hqd
    have hx : 0 < |x| := abs_pos.2 h0
    have e : Real.sin (p * x) / (p * x) - Real.sin (q * x) / (q * x) =
        (Real.sin (p * x) - Real.sin (q * x)) / (p * x) + Real.sin (q * x) / (q * x) * ((q - p) / p) := by
      have : p ≠ 0 := by linarith
      have : q ≠ 0 := by linarith
      field_simp; ring
    have h1 : |(Real.sin (p * x) - Real.sin (q * x)) / (p * x)| ≤ |p - q| / 3 := by
      rw [abs_div, div_le_div_iff₀ (by rw [abs_mul, abs_of_pos (by linarith : (0:ℝ) < p)]; positivity) (by norm_num)]
      have := Real.abs_sin_sub_sin_le (p * x) (q * x)
      rw [← sub_mul, abs_mul] at this
      rw [abs_mul, abs_of_pos (by linarith : (0:ℝ) < p)]
      nlinarith [mul_nonneg (abs_nonneg (p - q)) hx.le]
    have h2 : |Real.sin (q * x) / (q * x) * ((q - p) / p)| ≤ |p - q| / 3 := by
      rw [abs_mul, abs_div (q - p), abs_of_pos (by linarith : (0:ℝ) < p), abs_sub_comm q p]
      have hs := Real.abs_sinc_le_one (q * x)
      rw [Real.sinc_of_ne_zero (mul_ne_zero (by linarith) h0)] at hs
      calc _ ≤ 1 * (|p - q| / p) := mul_le_mul_of_nonneg_right hs (by positivity)
        _ ≤ |p - q| / 3 := by
          rw [one_mul]; exact div_le_div_of_nonneg_left (abs_nonneg _) (by norm_num) hpi.le
    rw [e]
    refine (abs_add_le _ _).trans ?_
    linarith [abs_nonneg (p - q)]

theorem serV_close (x : ℝ) (hx : |x| ≤ 3) : |Real.sinc (Real.pi * x) - serV x| ≤
    1 / 10 ^ 19 + |(piQ : ℝ) * x| ^ 46 / ((47).factorial : ℝ) * 2 := by
  have hq : (piQ : ℝ) ≤ 4 := by norm_num [piQ]
  have hq0 : (0 : ℝ) < (piQ : ℝ) := by norm_num [piQ]
  have h1 := sinc_pi_close x
  have h2 := sinc_series ((piQ : ℝ) * x) 23 (by
    rw [abs_mul, abs_of_pos hq0]; push_cast
    nlinarith [abs_nonneg x])
  have h3 := serV_series x hx
  rw [abs_sub_comm] at h3
  have := (abs_add_le (Real.sinc (Real.pi * x) - Real.sinc ((piQ : ℝ) * x)) (Real.sinc ((piQ : ℝ) * x) - serV x))
  have h4 := (abs_add_le (Real.sinc ((piQ : ℝ) * x) - ∑ k ∈ Finset.range 23, (-1) ^ k * ((piQ : ℝ) * x) ^ (2 * k) / ((2 * k + 1).factorial : ℝ)) (∑ k ∈ Finset.range 23, (-1) ^ k * ((piQ : ℝ) * x) ^ (2 * k) / ((2 * k + 1).factorial : ℝ) - serV x))
  rw [sub_add_sub_cancel] at this h4
  refine this.trans ?_
  have : (1 : ℝ) / 10 ^ 20 + 1 / 10 ^ 20 ≤ 1 / 10 ^ 19 := by norm_num
  simp only [show 2 * 23 = 46 from rfl, show 46 + 1 = 47 from rfl] at h2
  linarith

theorem tail_le (x b : ℝ) (hx : |x| ≤ b) :
    |(piQ : ℝ) * x| ^ 46 / ((47).factorial : ℝ) * 2 ≤ ((piQ : ℝ) * b) ^ 46 / ((47).factorial : ℝ) * 2 := by
  have hq0 : (0 : ℝ) < (piQ : ℝ) := by norm_num [piQ]
  rw [abs_mul, abs_of_pos hq0]
  gcongr

theorem serV_close_two (x : ℝ) (hx : |x| ≤ 2) : |Real.sinc (Real.pi * x) - serV x| ≤ 1 / 10 ^ 18 := by
  refine (serV_close x (hx.trans (by norm_num))).trans ?_
  have := tail_le x 2 hx
  have h : ((piQ : ℝ) * 2) ^ 46 / ((47).factorial : ℝ) * 2 ≤ 1 / 10 ^ 20 := by
    norm_num [piQ, Nat.factorial]
  have : (1 : ℝ) / 10 ^ 19 + 1 / 10 ^ 20 ≤ 1 / 10 ^ 18 := by norm_num
  linarith

theorem serV_close_three (x : ℝ) (hx : |x| ≤ 3) : |Real.sinc (Real.pi * x) - serV x| ≤ 1 / 10 ^ 13 := by
  refine (serV_close x hx).trans ?_
  have := tail_le x 3 hx
  have h : ((piQ : ℝ) * 3) ^ 46 / ((47).factorial : ℝ) * 2 ≤ 1 / 10 ^ 14 := by
    norm_num [piQ, Nat.factorial]
  have : (1 : ℝ) / 10 ^ 19 + 1 / 10 ^ 14 ≤ 1 / 10 ^ 13 := by norm_num
  linarith

/-! ### the fraction -/

/-- The numerator of `sinc_pade`, times `10 ^ 22`. -/
def numP : List ℤ := pmul numZ (pmul [-1, 1] (pmul [-2, 1] [-3, 1]))

/-- The numerator minus the denominator times the series, times `10 ^ 22 * 2 ^ 160`. -/
def errP : List ℤ := padd (psmul (2 ^ 160) numP) (psmul (-1) (pmul (pspread serC) denZ))

/-- Non-negative where the signed error is at most `e / m`. -/
def marginP (sgn e m : ℤ) : List ℤ := padd (psmul (e * 2 ^ 160) denZ) (psmul (sgn * m) errP)

set_option maxRecDepth 100000 in
theorem margin_zero : nonnegOn 6 (pshift (2 * 0 + 1) (phalf (marginP 1 59 (10 ^ 16)))) = true ∧
    nonnegOn 6 (pshift (2 * 0 + 1) (phalf (marginP (-1) 59 (10 ^ 16)))) = true := by decide +kernel

set_option maxRecDepth 100000 in
theorem margin_one : nonnegOn 8 (pshift (2 * 1 + 1) (phalf (marginP 1 249 (10 ^ 12)))) = true ∧
    nonnegOn 8 (pshift (2 * 1 + 1) (phalf (marginP (-1) 249 (10 ^ 12)))) = true := by decide +kernel

set_option maxRecDepth 100000 in
theorem margin_two : nonnegOn 8 (pshift (2 * 2 + 1) (phalf (marginP 1 1039 (10 ^ 9)))) = true ∧
    nonnegOn 8 (pshift (2 * 2 + 1) (phalf (marginP (-1) 1039 (10 ^ 9)))) = true := by decide +kernel

/-! ### the sum of the six kernel values -/

/-- The polynomial for `sinc (π x) * sinc (π x / 3)`, times `2 ^ 160 * 2 ^ 160 * 3 ^ 46`. -/
def prodP : List ℤ := pmul (pspread serC) (pthird (pspread serC))

/-- The sum of the values at `f - 3, …, f + 2`. -/
def sumP : List ℤ :=
  padd (pshift 2 prodP) (padd (pshift 1 prodP) (padd (pshift 0 prodP)
    (padd (pshift (-1) prodP) (padd (pshift (-2) prodP) (pshift (-3) prodP)))))

theorem horner_prodP (x : ℝ) : horner prodP x = (2 ^ 160 * 2 ^ 160 * 3 ^ 46) * (serV x * serV (x / 3)) := by
  rw [prodP, horner_pmul, horner_pthird, horner_pspread, horner_pspread]
  have : (pspread serC).length = 46 := rfl
  rw [this]
  unfold serV
  ring

theorem horner_sumP (f : ℝ) : horner sumP f = (2 ^ 160 * 2 ^ 160 * 3 ^ 46) *
    (serV (f + 2) * serV ((f + 2) / 3) + serV (f + 1) * serV ((f + 1) / 3) + serV f * serV (f / 3) +
      serV (f - 1) * serV ((f - 1) / 3) + serV (f - 2) * serV ((f - 2) / 3) +
      serV (f - 3) * serV ((f - 3) / 3)) := by
  simp only [sumP, horner_padd, horner_pshift, horner_prodP]
  push_cast
  simp only [← sub_eq_add_neg, add_zero]
  ring

/-- Whether the sum is at least `e / m`. -/
def lowerP (e m : ℤ) : List ℤ := padd (psmul m sumP) [-(e * (2 ^ 160 * 2 ^ 160 * 3 ^ 46))]

/-- Whether the sum is at most `e / m`. -/
def upperP (e m : ℤ) : List ℤ := padd (psmul (-m) sumP) [e * (2 ^ 160 * 2 ^ 160 * 3 ^ 46)]

set_option maxRecDepth 100000 in
theorem lower_check : nonnegOn 8 (pshift (2 * 0 + 1) (phalf (lowerP 99429 100000))) = true := by
  decide +kernel

set_option maxRecDepth 100000 in
theorem upper_check : nonnegOn 8 (pshift (2 * 0 + 1) (phalf (upperP 10001 10000))) = true := by
  decide +kernel

theorem sum_bounds (f : ℝ) (h0 : 0 ≤ f) (h1 : f ≤ 1) :
    let g := serV (f + 2) * serV ((f + 2) / 3) + serV (f + 1) * serV ((f + 1) / 3) + serV f * serV (f / 3) +
      serV (f - 1) * serV ((f - 1) / 3) + serV (f - 2) * serV ((f - 2) / 3) +
      serV (f - 3) * serV ((f - 3) / 3)
    0.99429 ≤ g ∧ g ≤ 1.0001 := by
  have p1 := nonneg_unit 8 0 _ lower_check f (by simpa using h0) (by simpa using h1)
  have p2 := nonneg_unit 8 0 _ upper_check f (by simpa using h0) (by simpa using h1)
  rw [lowerP, horner_padd, horner_psmul, horner_sumP] at p1
  rw [upperP, horner_padd, horner_psmul, horner_sumP] at p2
  intro g
  simp only [horner, mul_zero, add_zero] at p1 p2
  push_cast at p1 p2
  have e1 : (0 : ℝ) ≤ (2 ^ 160 * 2 ^ 160 * 3 ^ 46) * (100000 * g - 99429) := by
    refine p1.trans (le_of_eq ?_); simp only [g]; ring
  have e2 : (0 : ℝ) ≤ (2 ^ 160 * 2 ^ 160 * 3 ^ 46) * (10001 - 10000 * g) := by
    refine p2.trans (le_of_eq ?_); simp only [g]; ring
  have e1 := nonneg_of_mul_nonneg_right e1 (by positivity)
  have e2 := nonneg_of_mul_nonneg_right e2 (by positivity)
  constructor <;> norm_num <;> linarith

end Pizza.PolyBound
