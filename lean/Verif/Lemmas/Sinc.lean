import Verif.Lemmas.SincSeries
import Verif.Lemmas.Lanczos

/-! How far `sinc_pade` is from `sin (π x) / (π x)`. -/

namespace Pizza.PolyBound

theorem horner_numP (x : ℝ) : horner numP x = 10 ^ 22 * sincNum x := by
  simp only [numP, horner_pmul, horner, numZ, sincNum]
  push_cast
  ring

theorem horner_denZ (x : ℝ) : horner denZ x = 10 ^ 22 * sincDen x := by
  simp only [horner, denZ, sincDen]
  push_cast
  ring

theorem horner_marginP (sgn e m : ℤ) (x : ℝ) :
    horner (marginP sgn e m) x =
      (10 ^ 22 * 2 ^ 160) * (e * sincDen x + sgn * m * (sincNum x - serV x * sincDen x)) := by
  simp only [marginP, errP, horner_padd, horner_psmul, horner_pmul, horner_numP, horner_denZ,
    horner_pspread, serV]
  push_cast
  field_simp
  ring

theorem margin_sound (d : Nat) (a e m : ℤ) (hm : 0 < m)
    (h1 : nonnegOn d (pshift (2 * a + 1) (phalf (marginP 1 e m))) = true)
    (h2 : nonnegOn d (pshift (2 * a + 1) (phalf (marginP (-1) e m))) = true)
    (x : ℝ) (hx0 : (a : ℝ) ≤ x) (hx1 : x ≤ a + 1) :
    |sincNum x / sincDen x - serV x| ≤ (e : ℝ) / m := by
  have p1 := nonneg_unit d a _ h1 x hx0 hx1
  have p2 := nonneg_unit d a _ h2 x hx0 hx1
  rw [horner_marginP] at p1 p2
  have q1 := nonneg_of_mul_nonneg_right p1 (by positivity)
  have q2 := nonneg_of_mul_nonneg_right p2 (by positivity)
  push_cast at q1 q2
  have hd : 0 < sincDen x := sincDen_pos x
  have hmr : (0 : ℝ) < m := by exact_mod_cast hm
  have e1 : sincNum x / sincDen x - serV x = (sincNum x - serV x * sincDen x) / sincDen x := by
    field_simp
  rw [e1, abs_div, abs_of_pos hd, div_le_div_iff₀ hd hmr]
  rcases abs_cases (sincNum x - serV x * sincDen x) with ⟨h, _⟩ | ⟨h, _⟩ <;> rw [h] <;> linarith

theorem sincVal_abs (x : ℝ) : sincVal |x| = sincVal x := by simp [sincVal]

theorem sinc_pi_abs (x : ℝ) : Real.sinc (Real.pi * |x|) = Real.sinc (Real.pi * x) := by
  rcases abs_choice x with h | h <;> rw [h]
  rw [mul_neg, Real.sinc_neg]

theorem sincVal_close_nonneg (x : ℝ) (h0 : 0 ≤ x) :
    (x ≤ 1 → |sincVal x - Real.sinc (Real.pi * x)| ≤ 6 / 10 ^ 15) ∧
    (x ≤ 2 → |sincVal x - Real.sinc (Real.pi * x)| ≤ 2.5 / 10 ^ 10) ∧
    (x ≤ 3 → |sincVal x - Real.sinc (Real.pi * x)| ≤ 1.04 / 10 ^ 6) := by
  have ev : sincVal x = sincNum x / sincDen x := by unfold sincVal; rw [abs_of_nonneg h0]
  have tri : ∀ u v : ℝ, |sincNum x / sincDen x - serV x| ≤ u → |Real.sinc (Real.pi * x) - serV x| ≤ v →
      |sincVal x - Real.sinc (Real.pi * x)| ≤ u + v := by
    intro u v hu hv
    rw [abs_sub_comm] at hv
    have := abs_add_le (sincNum x / sincDen x - serV x) (serV x - Real.sinc (Real.pi * x))
    rw [sub_add_sub_cancel] at this
    rw [ev]; linarith
  have one : x ≤ 1 → |sincVal x - Real.sinc (Real.pi * x)| ≤ 6 / 10 ^ 15 := by
    intro h
    have m := margin_sound 6 0 59 (10 ^ 16) (by norm_num) margin_zero.1 margin_zero.2 x (by simpa using h0) (by simpa using h)
    have := tri _ _ m (serV_close_two x (by rw [abs_of_nonneg h0]; linarith))
    push_cast at this
    refine this.trans (by norm_num)
  have two : x ≤ 2 → |sincVal x - Real.sinc (Real.pi * x)| ≤ 2.5 / 10 ^ 10 := by
    intro h
    rcases le_total x 1 with h1 | h1
    · exact (one h1).trans (by norm_num)
    have m := margin_sound 8 1 249 (10 ^ 12) (by norm_num) margin_one.1 margin_one.2 x (by simpa using h1)
      (by push_cast; linarith)
    have := tri _ _ m (serV_close_two x (by rw [abs_of_nonneg h0]; linarith))
    push_cast at this
    refine this.trans (by norm_num)
  refine ⟨one, two, fun h => ?_⟩
  rcases le_total x 2 with h1 | h1
  · exact (two h1).trans (by norm_num)
  have m := margin_sound 8 2 1039 (10 ^ 9) (by norm_num) margin_two.1 margin_two.2 x (by simpa using h1)
    (by push_cast; linarith)
  have := tri _ _ m (serV_close_three x (by rw [abs_of_nonneg h0]; linarith))
  push_cast at this
  refine this.trans (by norm_num)

theorem sincVal_close (x : ℝ) :
    (|x| ≤ 1 → |sincVal x - Real.sinc (Real.pi * x)| ≤ 6 / 10 ^ 15) ∧
    (|x| ≤ 2 → |sincVal x - Real.sinc (Real.pi * x)| ≤ 2.5 / 10 ^ 10) ∧
    (|x| ≤ 3 → |sincVal x - Real.sinc (Real.pi * x)| ≤ 1.04 / 10 ^ 6) := by
  have := sincVal_close_nonneg |x| (abs_nonneg x)
  rwa [sincVal_abs, sinc_pi_abs] at this

end Pizza.PolyBound
