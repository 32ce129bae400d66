import Verif.Lemmas.SincSeries

/-!
Bounds for the moments of the Lanczos kernel and for the sum of its absolute values, used for C148.
-/

namespace Pizza.PolyBound

/-- The polynomial approximation of the kernel. -/
noncomputable def serK (d : ℝ) : ℝ := serV d * serV (d / 3)

/-- The sum of the values of a polynomial at `f - 3, …, f + 2`. -/
def sixP (p : List ℤ) : List ℤ :=
  padd (pshift 2 p) (padd (pshift 1 p) (padd (pshift 0 p) (padd (pshift (-1) p) (padd (pshift (-2) p) (pshift (-3) p)))))

/-- The same with the signs that the kernel has there. -/
def signP (p : List ℤ) : List ℤ :=
  padd (pshift 2 p) (padd (psmul (-1) (pshift 1 p)) (padd (pshift 0 p) (padd (pshift (-1) p)
    (padd (psmul (-1) (pshift (-2) p)) (pshift (-3) p)))))

theorem horner_sixP (p : List ℤ) (f : ℝ) : horner (sixP p) f =
    horner p (f + 2) + horner p (f + 1) + horner p f + horner p (f - 1) + horner p (f - 2) + horner p (f - 3) := by
  simp only [sixP, horner_padd, horner_pshift]
  push_cast
  simp only [← sub_eq_add_neg, add_zero]
  ring

theorem horner_signP (p : List ℤ) (f : ℝ) : horner (signP p) f =
    horner p (f + 2) - horner p (f + 1) + horner p f + horner p (f - 1) - horner p (f - 2) + horner p (f - 3) := by
  simp only [signP, horner_padd, horner_psmul, horner_pshift]
  push_cast
  simp only [← sub_eq_add_neg, add_zero]
  ring

/-- `m p + e` times the scale of the polynomial of the kernel. -/
def withMargin (m e : ℤ) (p : List ℤ) : List ℤ := padd (psmul m p) [e * (2 ^ 160 * 2 ^ 160 * 3 ^ 46)]

theorem horner_withMargin (m e : ℤ) (p : List ℤ) (x : ℝ) :
    horner (withMargin m e p) x = m * horner p x + e * (2 ^ 160 * 2 ^ 160 * 3 ^ 46) := by
  rw [withMargin, horner_padd, horner_psmul]
  simp only [horner, mul_zero, add_zero]
  push_cast
  ring

theorem horner_prodP_serK (x : ℝ) : horner prodP x = (2 ^ 160 * 2 ^ 160 * 3 ^ 46) * serK x := horner_prodP x

set_option maxRecDepth 100000 in
theorem first_check : nonnegOn 9 (pshift (2 * 0 + 1) (phalf (withMargin 1000 21 (sixP (0 :: prodP))))) = true ∧
    nonnegOn 9 (pshift (2 * 0 + 1) (phalf (withMargin (-1000) 21 (sixP (0 :: prodP))))) = true := by decide +kernel

set_option maxRecDepth 100000 in
theorem second_check : nonnegOn 9 (pshift (2 * 0 + 1) (phalf (withMargin 1000000 1 (sixP (0 :: 0 :: prodP))))) = true ∧
    nonnegOn 9 (pshift (2 * 0 + 1) (phalf (withMargin (-1000000) 1 (sixP (0 :: 0 :: prodP))))) = true := by decide +kernel

set_option maxRecDepth 100000 in
theorem abs_check : nonnegOn 9 (pshift (2 * 0 + 1) (phalf (withMargin (-100) 155 (signP prodP)))) = true := by
  decide +kernel

/-- The bound that a check gives. -/
theorem le_of_check {m e : ℤ} {p : List ℤ} {g : ℝ → ℝ} (hp : ∀ x : ℝ, horner p x = (2 ^ 160 * 2 ^ 160 * 3 ^ 46) * g x)
    (h : nonnegOn 9 (pshift (2 * 0 + 1) (phalf (withMargin m e p))) = true) {f : ℝ} (h0 : 0 ≤ f) (h1 : f ≤ 1) :
    0 ≤ m * g f + e := by
  have p1 := nonneg_unit 9 0 _ h f (by simpa using h0) (by simpa using h1)
  rw [horner_withMargin, hp] at p1
  have e1 : (0 : ℝ) ≤ (2 ^ 160 * 2 ^ 160 * 3 ^ 46) * (m * g f + e) := p1.trans (le_of_eq (by ring))
  exact nonneg_of_mul_nonneg_right e1 (by positivity)

theorem first_moment (f : ℝ) (h0 : 0 ≤ f) (h1 : f ≤ 1) :
    |(f + 2) * serK (f + 2) + (f + 1) * serK (f + 1) + f * serK f + (f - 1) * serK (f - 1) + (f - 2) * serK (f - 2) +
      (f - 3) * serK (f - 3)| ≤ 0.021 := by
  have hp : ∀ x : ℝ, horner (sixP (0 :: prodP)) x = (2 ^ 160 * 2 ^ 160 * 3 ^ 46) *
      ((x + 2) * serK (x + 2) + (x + 1) * serK (x + 1) + x * serK x + (x - 1) * serK (x - 1) + (x - 2) * serK (x - 2) +
      (x - 3) * serK (x - 3)) := by
    intro x
    rw [horner_sixP]
    simp only [horner, horner_prodP_serK]
    push_cast
    ring
  have l := le_of_check hp first_check.1 h0 h1
  have u := le_of_check hp first_check.2 h0 h1
  push_cast at l u
  rw [abs_le]
  constructor <;> norm_num <;> linarith

theorem second_moment (f : ℝ) (h0 : 0 ≤ f) (h1 : f ≤ 1) :
    |(f + 2) ^ 2 * serK (f + 2) + (f + 1) ^ 2 * serK (f + 1) + f ^ 2 * serK f + (f - 1) ^ 2 * serK (f - 1) +
      (f - 2) ^ 2 * serK (f - 2) + (f - 3) ^ 2 * serK (f - 3)| ≤ 1e-6 := by
  have hp : ∀ x : ℝ, horner (sixP (0 :: 0 :: prodP)) x = (2 ^ 160 * 2 ^ 160 * 3 ^ 46) *
      ((x + 2) ^ 2 * serK (x + 2) + (x + 1) ^ 2 * serK (x + 1) + x ^ 2 * serK x + (x - 1) ^ 2 * serK (x - 1) +
      (x - 2) ^ 2 * serK (x - 2) + (x - 3) ^ 2 * serK (x - 3)) := by
    intro x
    rw [horner_sixP]
    simp only [horner, horner_prodP_serK]
    push_cast
    ring
  have l := le_of_check hp second_check.1 h0 h1
  have u := le_of_check hp second_check.2 h0 h1
  push_cast at l u
  rw [abs_le]
  constructor <;> norm_num <;> linarith

theorem signed_sum (f : ℝ) (h0 : 0 ≤ f) (h1 : f ≤ 1) :
    serK (f + 2) - serK (f + 1) + serK f + serK (f - 1) - serK (f - 2) + serK (f - 3) ≤ 1.55 := by
  have hp : ∀ x : ℝ, horner (signP prodP) x = (2 ^ 160 * 2 ^ 160 * 3 ^ 46) *
      (serK (x + 2) - serK (x + 1) + serK x + serK (x - 1) - serK (x - 2) + serK (x - 3)) := by
    intro x
    rw [horner_signP]
    simp only [horner_prodP_serK]
    ring
  have l := le_of_check hp abs_check h0 h1
  push_cast at l
  norm_num
  linarith

end Pizza.PolyBound
