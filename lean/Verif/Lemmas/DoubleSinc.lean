import Verif.Lemmas.DoubleLanczos
import Verif.Props.Sinc

/-!
The rounding errors of the approximate sinc and of the Lanczos kernel, in the orders of evaluation that
`fastmath` allows.
-/

namespace Pizza

open PolyBound
open scoped Classical

section
variable {rnd : ℚ → ℚ}

/-! ### The approximate sinc -/

theorem sincDen_ge (x : ℚ) : 0.9 ≤ sincDen x := by
  have q0 : 0.9 ≤ 1 - 0.0982732212730775 * x + 0.0612 * x ^ 2 := by
    nlinarith [sq_nonneg (0.0612 * x - 0.04913661063653875)]
  have q1 : 0 ≤ 0.061336542608403 - 0.0111525324680647 * x + 0.0036 * x ^ 2 := by
    nlinarith [sq_nonneg (0.0036 * x - 0.00557626623403235)]
  have q2 : 0 ≤ 0.00364707512833019 - 0.000584774445653404 * x + 0.00013 * x ^ 2 := by
    nlinarith [sq_nonneg (0.00013 * x - 0.000292387222826702)]
  have q3 : 0 ≤ 0.000132528048296579 - 1.71596576734417e-05 * x + 2.9e-06 * x ^ 2 := by
    nlinarith [sq_nonneg (2.9e-06 * x - 8.57982883672085e-06)]
  have q4 : 0 ≤ 3.01945411660804e-06 - 2.44174818579491e-07 * x + 6.74473938075399e-08 * x ^ 2 := by
    nlinarith [sq_nonneg (6.74473938075399e-08 * x - 1.220874092897455e-07)]
  have h2 : 0 ≤ x ^ 2 := sq_nonneg x
  have h4 : 0 ≤ x ^ 4 := by positivity
  have h6 : 0 ≤ x ^ 6 := by positivity
  have h8 : 0 ≤ x ^ 8 := by positivity
  have e : sincDen x = (1 - 0.0982732212730775 * x + 0.0612 * x ^ 2)
      + x ^ 2 * (0.061336542608403 - 0.0111525324680647 * x + 0.0036 * x ^ 2)
      + x ^ 4 * (0.00364707512833019 - 0.000584774445653404 * x + 0.00013 * x ^ 2)
      + x ^ 6 * (0.000132528048296579 - 1.71596576734417e-05 * x + 2.9e-06 * x ^ 2)
      + x ^ 8 * (3.01945411660804e-06 - 2.44174818579491e-07 * x + 6.74473938075399e-08 * x ^ 2) := by
    unfold sincDen; ring
  rw [e]
  have := mul_nonneg h2 q1
  have := mul_nonneg h4 q2
  have := mul_nonneg h6 q3
  have := mul_nonneg h8 q4
  linarith

theorem polyAt_num (x : ℚ) : polyAt x sincNumCoefs * ((x - 1) * ((x - 2) * (x - 3))) = sincNum x := by
  simp only [polyAt, sincNumCoefs, List.foldr, sincNum]; ring

theorem polyAt_den (x : ℚ) : polyAt x sincDenCoefs = sincDen x := by
  simp only [polyAt, sincDenCoefs, List.foldr, sincDen]; ring

theorem polyAbs_mono {x y : ℚ} (hx : 0 ≤ x) (hxy : x ≤ y) (l : List ℚ) : 0 ≤ polyAbs x l ∧ polyAbs x l ≤ polyAbs y l := by
  induction l with
  | nil => simp [polyAbs]
  | cons a l ih =>
    simp only [polyAbs, List.foldr] at ih ⊢
    rw [abs_of_nonneg hx, abs_of_nonneg (hx.trans hxy)] at *
    constructor
    · have := mul_nonneg hx ih.1
      linarith [abs_nonneg a]
    · have := mul_le_mul hxy ih.2 ih.1 (hx.trans hxy)
      linarith

theorem polyAbs_num {x : ℚ} (hx : 0 ≤ x) (h3 : x ≤ 3) : polyAbs x sincNumCoefs ≤ 6.701 :=
  (polyAbs_mono hx h3 _).2.trans (by norm_num [polyAbs, sincNumCoefs, abs_of_nonneg, abs_of_nonpos])

theorem polyAbs_den {x : ℚ} (hx : 0 ≤ x) (h3 : x ≤ 3) : polyAbs x sincDenCoefs ≤ 3.705 :=
  (polyAbs_mono hx h3 _).2.trans (by norm_num [polyAbs, sincDenCoefs, abs_of_nonneg, abs_of_nonpos])

theorem zeros_le {x : ℚ} (hx : 0 ≤ x) (h3 : x ≤ 3) : |(x - 1) * ((x - 2) * (x - 3))| ≤ 6 := by
  rw [abs_mul, abs_mul]
  have h1 : |x - 1| ≤ 2 := abs_le.2 ⟨by linarith, by linarith⟩
  rw [abs_of_nonpos (by linarith : x - 3 ≤ 0)]
  rcases le_total x 2 with h | h
  · rcases le_total x 1 with h' | h'
    · rw [abs_of_nonpos (by linarith : x - 1 ≤ 0), abs_of_nonpos (by linarith : x - 2 ≤ 0)]
      nlinarith [mul_nonneg hx (sub_nonneg.2 h'), mul_nonneg hx (mul_nonneg hx (sub_nonneg.2 h3))]
    · rw [abs_of_nonneg (by linarith : 0 ≤ x - 1), abs_of_nonpos (by linarith : x - 2 ≤ 0)]
      have a1 : (x - 1) ≤ 1 := by linarith
      have a2 : -(x - 2) * -(x - 3) ≤ 1 * 2 := mul_le_mul (by linarith) (by linarith) (by linarith) (by norm_num)
      have a3 : 0 ≤ -(x - 2) * -(x - 3) := mul_nonneg (by linarith) (by linarith)
      nlinarith
  · rw [abs_of_nonneg (by linarith : 0 ≤ x - 1), abs_of_nonneg (by linarith : 0 ≤ x - 2)]
    have a1 : (x - 1) ≤ 2 := by linarith
    have a2 : (x - 2) * -(x - 3) ≤ 1 * 1 := mul_le_mul (by linarith) (by linarith) (by linarith) (by norm_num)
    have a3 : 0 ≤ (x - 2) * -(x - 3) := mul_nonneg (by linarith) (by linarith)
    nlinarith

theorem quotRuns_near (hr : Rounds 53 rnd) {a b : ℚ} {r : Except Err ℚ} (hb : b ≠ 0) (h : QuotRuns rnd a b r) :
    ∃ v, r = .ok v ∧ Near (unitOf 53) 2 v (a / b) |a / b| := by
  have hu := (unitOf_pos 53).le
  cases h with
  | zero h => exact absurd h hb
  | div _ => exact ⟨_, rfl, (Near.round' hr (by norm_num) _).mono hu (by norm_num)⟩
  | recip _ =>
    refine ⟨_, rfl, ?_⟩
    have := ((Near.refl (unitOf 53) a).mul hu (Near.round' hr (by norm_num) (1 / b))).round hr (by norm_num)
    rwa [← abs_mul, mul_one_div] at this

/-- The rounding errors of the approximate sinc. -/
theorem sincRuns_near (hr : Rounds 53 rnd) {x : ℚ} (hx : |x| ≤ 3) {r : Except Err ℚ} (h : SincRuns rnd x r) :
    ∃ v, r = .ok v ∧ |v - sincVal x| ≤ 1e-12 := by
  cases h with
  | @run h n d _ hn hd hp hq =>
    have hu := (unitOf_pos 53).le
    have p1 : 1 ≤ 53 := by norm_num
    obtain ⟨z, hz⟩ : ∃ z, z = |x| := ⟨_, rfl⟩
    have hz0 : 0 ≤ z := hz ▸ abs_nonneg x
    rw [← hz] at hx hn hd hp
    have n1 := hornerRuns_near hr p1 hn
    have d1 := hornerRuns_near hr p1 hd
    have s1 := Near.round' hr p1 (z - 1)
    have s2 := Near.round' hr p1 (z - 2)
    have s3 := Near.round' hr p1 (z - 3)
    have pr := prodRuns_near hr p1 hp
    simp only [List.prod_cons, List.prod_nil, mul_one, List.length_cons, List.length_nil] at pr
    have fac := n1.mul hu (s1.mul hu (s2.mul hu s3))
    rw [polyAt_num] at fac
    rw [polyAt_den] at d1
    set F := h * (rnd (z - 1) * (rnd (z - 2) * rnd (z - 3))) with hF
    -- the numerator
    have eN : |n - sincNum z| ≤ 1.3e-13 := by
      have a1 : |F| ≤ (1 + unitOf 53) ^ (2 * sincNumCoefs.length + (1 + (1 + 1))) * (6.701 * 6) := by
        refine fac.abs_le.trans (mul_le_mul_of_nonneg_left ?_ (by positivity))
        rw [← abs_mul, ← abs_mul]
        exact mul_le_mul (polyAbs_num hz0 hx) (zeros_le hz0 hx) (abs_nonneg _) (by norm_num)
      have a2 : |F - sincNum z| ≤ ((1 + unitOf 53) ^ (2 * sincNumCoefs.length + (1 + (1 + 1))) - 1) * (6.701 * 6) := by
        refine fac.1.trans (mul_le_mul_of_nonneg_left ?_ (by linarith [Near.pow_ge hu (2 * sincNumCoefs.length + (1 + (1 + 1)))]))
        rw [← abs_mul, ← abs_mul]
        exact mul_le_mul (polyAbs_num hz0 hx) (zeros_le hz0 hx) (abs_nonneg _) (by norm_num)
      have a3 := pr.1.trans (mul_le_mul_of_nonneg_left a1 (by norm_num [unitOf]))
      have a4 := abs_sub_le n F (sincNum z)
      refine a4.trans ((add_le_add a3 a2).trans ?_)
      norm_num [unitOf, sincNumCoefs]
    have eD : |d - sincDen z| ≤ 1e-14 := by
      refine (d1.1.trans (mul_le_mul_of_nonneg_left (polyAbs_den hz0 hx) (by norm_num [unitOf, sincDenCoefs]))).trans ?_
      norm_num [unitOf, sincDenCoefs]
    have hD := sincDen_ge z
    have hd8 : 0.89 ≤ d := by
      have := (abs_le.1 eD).1
      norm_num at *
      linarith
    have hN : |sincNum z| ≤ 40.3 := by
      rw [← polyAt_num, abs_mul]
      have b1 := n1.2.trans (polyAbs_num hz0 hx)
      exact (mul_le_mul b1 (zeros_le hz0 hx) (abs_nonneg _) (by norm_num)).trans (by norm_num)
    obtain ⟨v, rfl, hv⟩ := quotRuns_near hr (by norm_num at *; linarith) hq
    refine ⟨v, rfl, ?_⟩
    have eQ : |n / d - sincNum z / sincDen z| ≤ 7e-13 := by
      have d0 : (0 : ℚ) < d := by norm_num at *; linarith
      have D0 : (0 : ℚ) < sincDen z := by norm_num at *; linarith
      have e : n / d - sincNum z / sincDen z = (n - sincNum z) / d + sincNum z * (sincDen z - d) / (d * sincDen z) := by
        field_simp; ring
      rw [e]
      refine (abs_add_le _ _).trans ?_
      have c1 : |(n - sincNum z) / d| ≤ 1.3e-13 / 0.89 := by
        rw [abs_div, abs_of_pos d0]
        exact div_le_div₀ (by norm_num) eN (by norm_num) hd8
      have c2 : |sincNum z * (sincDen z - d) / (d * sincDen z)| ≤ 40.3 * 1e-14 / (0.89 * 0.9) := by
        rw [abs_div, abs_mul, abs_of_pos (mul_pos d0 D0), abs_sub_comm]
        exact div_le_div₀ (by norm_num) (mul_le_mul hN eD (abs_nonneg _) (by norm_num)) (by norm_num)
          (mul_le_mul hd8 hD (by norm_num) d0.le)
      refine (add_le_add c1 c2).trans (by norm_num)
    have hS : sincVal x = sincNum z / sincDen z := by rw [hz]; rfl
    rw [hS]
    have hQ : |n / d| ≤ 46 := by
      have D0 : (0 : ℚ) < sincDen z := by norm_num at *; linarith
      have c3 : |sincNum z / sincDen z| ≤ 40.3 / 0.9 := by
        rw [abs_div, abs_of_pos D0]
        exact div_le_div₀ (by norm_num) hN (by norm_num) hD
      have := abs_add_le (n / d - sincNum z / sincDen z) (sincNum z / sincDen z)
      rw [sub_add_cancel] at this
      refine this.trans ((add_le_add eQ c3).trans (by norm_num))
    have eV := hv.1.trans (mul_le_mul_of_nonneg_left hQ (by norm_num [unitOf]))
    refine (abs_sub_le v (n / d) _).trans ((add_le_add eV eQ).trans ?_)
    norm_num [unitOf]

/-- The cast of the approximate sinc to the reals. -/
theorem sincVal_cast (x : ℚ) : ((sincVal x : ℚ) : ℝ) = sincVal (x : ℝ) := by
  simp only [sincVal, sincNum, sincDen]
  push_cast
  rfl

/-- The sinc of a number with a small relative error. -/
theorem sinc_rel {s t ε : ℝ} (hε : 0 ≤ ε) (h : |t - s| ≤ ε * |s|) : |Real.sinc t - Real.sinc s| ≤ 2 * ε := by
  rcases eq_or_ne s 0 with rfl | h0
  · have : t = 0 := by
      rw [abs_zero, mul_zero, sub_zero] at h
      exact abs_eq_zero.1 (le_antisymm h (abs_nonneg _))
    rw [this]; simpa using hε
  have hs : 0 < |s| := abs_pos.2 h0
  rcases eq_or_ne t 0 with rfl | ht0
  · rw [zero_sub, abs_neg] at h
    have h1 : 1 ≤ ε := by
      by_contra hc
      nlinarith
    have := abs_sub (Real.sinc 0) (Real.sinc s)
    linarith [Real.abs_sinc_le_one 0, Real.abs_sinc_le_one s]
  have e : Real.sinc t - Real.sinc s = (Real.sin t - Real.sin s) / s + Real.sinc t * ((s - t) / s) := by
    rw [Real.sinc_of_ne_zero h0, Real.sinc_of_ne_zero ht0]
    field_simp; ring
  have h1 : |(Real.sin t - Real.sin s) / s| ≤ ε := by
    rw [abs_div, div_le_iff₀ hs]
    exact (Real.abs_sin_sub_sin_le t s).trans h
  have h2 : |Real.sinc t * ((s - t) / s)| ≤ ε := by
    rw [abs_mul, abs_div, abs_sub_comm]
    calc _ ≤ 1 * (|t - s| / |s|) := mul_le_mul_of_nonneg_right (Real.abs_sinc_le_one t) (by positivity)
      _ ≤ ε := by rw [one_mul, div_le_iff₀ hs]; exact h
  rw [e]
  exact (abs_add_le _ _).trans (by linarith)

theorem abs_cast_le {a b c : ℚ} (h : |a - b| ≤ c) : |(a : ℝ) - b| ≤ c := by
  rw [← Rat.cast_sub, ← Rat.cast_abs]
  exact_mod_cast h

/-- The approximate sinc in floating point is near the sinc at a nearby point. -/
theorem sincRuns_true (hr : Rounds 53 rnd) {q : ℚ} (hq : |q| ≤ 3) {r : Except Err ℚ} (h : SincRuns rnd q r) :
    ∃ v, r = .ok v ∧ |(v : ℝ) - Real.sinc (Real.pi * q)| ≤ 1.0400011e-6 ∧
      (|q| ≤ 2 → |(v : ℝ) - Real.sinc (Real.pi * q)| ≤ 2.6e-10) := by
  obtain ⟨v, rfl, hv⟩ := sincRuns_near hr hq h
  have h1 := abs_cast_le hv
  rw [sincVal_cast] at h1
  obtain ⟨-, c2, c3⟩ := sincVal_close (q : ℝ)
  have hq' : |(q : ℝ)| ≤ 3 := by rw [← Rat.cast_abs]; exact_mod_cast hq
  refine ⟨v, rfl, ?_, fun h2 => ?_⟩
  · refine (abs_sub_le _ _ _).trans ((add_le_add h1 (c3 hq')).trans ?_)
    push_cast
    norm_num
  · have hq2 : |(q : ℝ)| ≤ 2 := by rw [← Rat.cast_abs]; exact_mod_cast h2
    refine (abs_sub_le _ _ _).trans ((add_le_add h1 (c2 hq2)).trans ?_)
    push_cast
    norm_num

theorem rnd_abs_le (hr : Rounds 53 rnd) {x : ℚ} {n : ℤ} (hn : |n| ≤ 2 ^ 53) (h : |x| ≤ n) : |rnd x| ≤ n := by
  have e1 := hr.exact (isFloat_int hn)
  have e2 := hr.exact (isFloat_int (p := 53) (n := -n) (by rwa [abs_neg]))
  push_cast at e2
  obtain ⟨h1, h2⟩ := abs_le.1 h
  have h1 := hr.mono h1
  have h2 := hr.mono h2
  rw [e1] at h2
  rw [e2] at h1
  exact abs_le.2 ⟨h1, h2⟩

/-- The product of two numbers near two others. -/
theorem mul_near {u w p q δ η : ℝ} (h1 : |u - p| ≤ δ) (h2 : |w - q| ≤ η) (hp : |p| ≤ 1) (hq : |q| ≤ 1) :
    |u * w - p * q| ≤ δ + δ * η + η := by
  have hδ := (abs_nonneg _).trans h1
  have hη := (abs_nonneg _).trans h2
  rw [show u * w - p * q = (u - p) * q + (u - p) * (w - q) + p * (w - q) by ring]
  refine (abs_add_three _ _ _).trans (add_le_add (add_le_add ?_ ?_) ?_)
  · rw [abs_mul]; nlinarith [abs_nonneg (u - p), abs_nonneg q]
  · rw [abs_mul]; exact mul_le_mul h1 h2 (abs_nonneg _) hδ
  · rw [abs_mul]; nlinarith [abs_nonneg (w - q), abs_nonneg p]

/-- The kernel in one dimension. -/
theorem kernelRuns_true (hr : Rounds 53 rnd) (a : ℤ) (ha : 1 ≤ a) (ha3 : a ≤ 3) {d : ℚ} (hd : |d| ≤ a)
    {r : Except Err (ℚ × ℚ)} (h : KernelRuns rnd a (rnd d) r) :
    ∃ k : ℚ × ℚ, r = .ok k ∧ |((k.1 * k.2 : ℚ) : ℝ) - trueLanczos a d| ≤ 1.041e-6 := by
  have har : (1 : ℚ) ≤ a := by exact_mod_cast ha
  have ha0 : (a : ℚ) ≠ 0 := by linarith
  have hu := (unitOf_pos 53).le
  have hD : |rnd d| ≤ a := rnd_abs_le hr (by rw [abs_of_nonneg (by omega)]; omega) hd
  have hD3 : |rnd d| ≤ 3 := hD.trans (by exact_mod_cast ha3)
  have hquot : ∀ {r}, QuotRuns rnd (rnd d) a r → ∃ q, r = .ok q ∧ |q| ≤ 2 ∧ |q - d / a| ≤ 1e-15 * |d / a| := by
    intro r hq
    obtain ⟨q, rfl, hqn⟩ := quotRuns_near hr ha0 hq
    refine ⟨q, rfl, ?_, ?_⟩
    · have h1 := hqn.abs_le
      have h2 : |rnd d / a| ≤ 1 := by
        rw [abs_div, abs_of_pos (by linarith : (0 : ℚ) < a), div_le_one (by linarith)]; exact hD
      refine h1.trans ((mul_le_mul_of_nonneg_left h2 (by norm_num [unitOf])).trans (by norm_num [unitOf]))
    · have h1 := hqn.1
      have h2 := hr.err (by norm_num) d
      have hpos : (0 : ℚ) < a := by linarith
      rw [abs_div, abs_of_pos hpos] at h1 ⊢
      have h3 : |rnd d / a - d / a| ≤ unitOf 53 * (|d| / a) := by
        rw [← sub_div, abs_div, abs_of_pos hpos, ← mul_div_assoc]
        exact div_le_div_of_nonneg_right h2 hpos.le
      have h4 : |rnd d| ≤ (1 + unitOf 53) * |d| := by
        have := abs_add_le (rnd d - d) d
        rw [sub_add_cancel] at this
        linarith
      have h5 : |rnd d| / a ≤ (1 + unitOf 53) * (|d| / a) := by
        rw [← mul_div_assoc]; exact div_le_div_of_nonneg_right h4 hpos.le
      have h6 := h1.trans (mul_le_mul_of_nonneg_left h5 (by norm_num [unitOf]))
      have h7 : 0 ≤ |d| / a := by positivity
      refine (abs_sub_le q (rnd d / a) _).trans ((add_le_add h6 h3).trans ?_)
      rw [← mul_assoc, ← add_mul]
      exact mul_le_mul_of_nonneg_right (by norm_num [unitOf]) h7
  have close : ∀ {q e : ℚ}, |q - e| ≤ 1e-15 * |e| → |Real.sinc (Real.pi * q) - Real.sinc (Real.pi * e)| ≤ 2e-15 := by
    intro q e hqe
    have h1 : |(q : ℝ) - e| ≤ 1e-15 * |(e : ℝ)| := by
      rw [← Rat.cast_sub, ← Rat.cast_abs, ← Rat.cast_abs]
      have : ((|q - e| : ℚ) : ℝ) ≤ ((1e-15 * |e| : ℚ) : ℝ) := by exact_mod_cast hqe
      refine this.trans (le_of_eq ?_)
      push_cast
      norm_num
    have := sinc_rel (s := Real.pi * e) (t := Real.pi * q) (ε := 1e-15) (by norm_num) (by
      rw [← mul_sub, abs_mul, abs_mul]
      have := mul_le_mul_of_nonneg_left h1 (abs_nonneg Real.pi)
      linarith)
    exact this.trans (by norm_num)
  cases h with
  | sinc1 h =>
    obtain ⟨v, hv, -⟩ := sincRuns_true hr hD3 h
    cases hv
  | quot h =>
    obtain ⟨v, hv, -⟩ := hquot h
    cases hv
  | sinc2 h1 h2 =>
    obtain ⟨v, hv, h3, -⟩ := hquot h1
    cases hv
    obtain ⟨w, hw, -⟩ := sincRuns_true hr (h3.trans (by norm_num)) h2
    cases hw
  | @run q s1 s2 h1 hq h2 =>
    obtain ⟨q', hq', hq2, hqd⟩ := hquot hq
    cases hq'
    obtain ⟨v, hv, hv1, -⟩ := sincRuns_true hr hD3 h1
    cases hv
    obtain ⟨w, hw, -, hw2⟩ := sincRuns_true hr (hq2.trans (by norm_num)) h2
    cases hw
    refine ⟨(s1, s2), rfl, ?_⟩
    have c1 := close ((hr.err (by norm_num) d).trans (mul_le_mul_of_nonneg_right (by norm_num [unitOf]) (abs_nonneg d)))
    have c2 := close hqd
    have f1 := (abs_sub_le _ _ _).trans (add_le_add hv1 c1)
    have f2 := (abs_sub_le _ _ _).trans (add_le_add (hw2 hq2) c2)
    push_cast at f1 f2 ⊢
    unfold trueLanczos
    refine (mul_near f1 f2 (Real.abs_sinc_le_one _) (Real.abs_sinc_le_one _)).trans (by norm_num)

/-- The pixels in the kernel. -/
theorem kernelPixels_sum {M : Type} [AddCommMonoid M] (im : Img ℚ) (a : ℤ) (y x : ℚ) (g : ℤ → ℤ → M) :
    ((kernelPixels im a y x).map fun p => g p.1 p.2).sum = ∑ r ∈ Finset.range im.nrow, ∑ c ∈ Finset.range im.ncol,
      if InKernel a y r ∧ InKernel a x c then g r c else 0 := by
  have axis : ∀ (n : ℕ) (z : ℚ) (f : ℤ → M),
      (((pyRange (⌊z⌋ - a + 1) (⌊z⌋ + a + 1)).filter fun r => !(decide (r < 0) || decide ((n : ℤ) - 1 < r))).map f).sum =
        ∑ k ∈ Finset.range n, if InKernel a z k then f k else 0 := by
    intro n z f
    have hn : (pyRange (⌊z⌋ - a + 1) (⌊z⌋ + a + 1)).Nodup := by
      unfold pyRange
      exact List.nodup_range.map (fun i j h => by simpa using h)
    rw [← List.sum_toFinset _ (hn.filter _), ← Finset.sum_filter]
    symm
    apply Finset.sum_of_injOn (fun r : ℕ => (r : ℤ))
    · intro i _ j _ h; simpa using h
    · intro i hi
      simp only [Finset.coe_filter, Set.mem_ofPred_eq, Finset.mem_range, inKernel_iff, Finset.mem_Icc] at hi
      simp only [Finset.mem_coe, List.mem_toFinset, List.mem_filter, mem_pyRange]
      refine ⟨by omega, ?_⟩
      simp
      omega
    · intro r hr hnot
      exfalso
      apply hnot
      simp only [List.mem_toFinset, List.mem_filter, mem_pyRange] at hr
      have h2 := hr.2
      simp only [Bool.not_eq_true', Bool.or_eq_false_iff, decide_eq_false_iff_not] at h2
      refine ⟨r.toNat, ?_, by simp; omega⟩
      simp only [Finset.coe_filter, Set.mem_ofPred_eq, Finset.mem_range, inKernel_iff, Finset.mem_Icc]
      omega
    · intro i _; rfl
  have flat : ∀ (l : List ℤ) (f : ℤ → List M), (l.flatMap f).sum = (l.map fun r => (f r).sum).sum := by
    intro l f
    induction l with
    | nil => rfl
    | cons r l ih => rw [List.flatMap_cons, List.sum_append, ih, List.map_cons, List.sum_cons]
  unfold kernelPixels
  rw [List.map_flatMap, flat]
  simp only [List.map_map, Function.comp_def]
  rw [axis im.nrow y fun r => _]
  refine Finset.sum_congr rfl fun r _ => ?_
  by_cases h1 : InKernel a y r
  · rw [if_pos h1, axis im.ncol x fun c => g r c]
    refine Finset.sum_congr rfl fun c _ => ?_
    simp [h1]
  · rw [if_neg h1]
    symm
    refine Finset.sum_eq_zero fun c _ => ?_
    simp [h1]

end

end Pizza
