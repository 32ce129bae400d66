import Mathlib.Algebra.Order.Field.Basic
import Mathlib.Data.Int.Cast.Lemmas
import Mathlib.Algebra.Order.Ring.Abs
import Mathlib.Tactic.Ring
import Mathlib.Tactic.FieldSimp
import Mathlib.Tactic.Linarith

/-!
A checker for the non-negativity of polynomials with integer coefficients on `[-1, 1]`, by
bisection, and its correctness.  Used to bound the error of `sinc_pade` on whole intervals.
-/

namespace Pizza.PolyBound

/-- The value of the polynomial with coefficients `p`, lowest first. -/
def horner {K : Type} [Ring K] (p : List ℤ) (t : K) : K :=
  match p with
  | [] => 0
  | a :: p => a + t * horner p t

/-- The sum of two polynomials. -/
def padd : List ℤ → List ℤ → List ℤ
  | [], q => q
  | p, [] => p
  | a :: p, b :: q => (a + b) :: padd p q

/-- A multiple of a polynomial. -/
def psmul (c : ℤ) (p : List ℤ) : List ℤ := p.map (c * ·)

/-- The product of two polynomials. -/
def pmul : List ℤ → List ℤ → List ℤ
  | [], _ => []
  | a :: p, q => padd (psmul a q) (0 :: pmul p q)

/-- The coefficients of `2 ^ p.length * p (t / 2)`. -/
def phalf : List ℤ → List ℤ
  | [] => []
  | a :: p => (a * 2 ^ (p.length + 1)) :: phalf p

/-- The coefficients of `a + (t + s) * q t`. -/
def pstep (s : ℤ) : ℤ → List ℤ → List ℤ
  | a, [] => [a]
  | a, b :: q => (a + s * b) :: pstep s b q

/-- The coefficients of `p (t + s)`. -/
def pshift (s : ℤ) : List ℤ → List ℤ
  | [] => []
  | a :: p => pstep s a (pshift s p)

/-- The coefficients of `p (t / 3)`, times a power of 3. -/
def pthird : List ℤ → List ℤ
  | [] => []
  | a :: p => (a * 3 ^ (p.length + 1)) :: pthird p

/-- The first coefficient is at least the sum of the absolute values of the others. -/
def dominates : List ℤ → Bool
  | [] => true
  | a :: p => decide (((p.map Int.natAbs).sum : ℤ) ≤ a)

/-- Bisection, at most `d` times. -/
def nonnegOn : Nat → List ℤ → Bool
  | 0, p => dominates p
  | d + 1, p => dominates p ||
      (nonnegOn d (pshift 1 (phalf p)) && nonnegOn d (pshift (-1) (phalf p)))

section
variable {K : Type} [Field K]

theorem horner_padd (p q : List ℤ) (t : K) : horner (padd p q) t = horner p t + horner q t := by
  induction p generalizing q with
  | nil => simp [padd, horner]
  | cons a p ih =>
    cases q with
    | nil => simp [padd, horner]
    | cons b q => simp only [padd, horner, ih]; push_cast; ring

theorem horner_psmul (c : ℤ) (p : List ℤ) (t : K) : horner (psmul c p) t = c * horner p t := by
  induction p with
  | nil => simp [psmul, horner]
  | cons a p ih =>
    have : psmul c (a :: p) = (c * a) :: psmul c p := rfl
    rw [this]; simp only [horner, ih]; push_cast; ring

theorem horner_pmul (p q : List ℤ) (t : K) : horner (pmul p q) t = horner p t * horner q t := by
  induction p with
  | nil => simp [pmul, horner]
  | cons a p ih =>
    simp only [pmul, horner_padd, horner_psmul, horner, ih]; push_cast; ring

theorem horner_pstep (s a : ℤ) (q : List ℤ) (t : K) :
    horner (pstep s a q) t = a + (t + s) * horner q t := by
  induction q generalizing a with
  | nil => simp [pstep, horner]
  | cons b q ih => simp only [pstep, horner, ih]; push_cast; ring

theorem horner_pshift (s : ℤ) (p : List ℤ) (t : K) : horner (pshift s p) t = horner p (t + s) := by
  induction p with
  | nil => simp [pshift, horner]
  | cons a p ih =>
    simp only [pshift, horner_pstep, horner, ih]

variable [CharZero K]

theorem horner_phalf (p : List ℤ) (t : K) :
    horner (phalf p) t = 2 ^ p.length * horner p (t / 2) := by
  induction p with
  | nil => simp [phalf, horner]
  | cons a p ih =>
    simp only [phalf, horner, ih, List.length_cons]; push_cast
    rw [pow_succ]; field_simp

theorem horner_pthird (p : List ℤ) (t : K) :
    horner (pthird p) t = 3 ^ p.length * horner p (t / 3) := by
  induction p with
  | nil => simp [pthird, horner]
  | cons a p ih =>
    simp only [pthird, horner, ih, List.length_cons]; push_cast
    rw [pow_succ]; field_simp
end

section
variable {K : Type} [Field K] [LinearOrder K] [IsStrictOrderedRing K]

theorem abs_horner_le (p : List ℤ) (t : K) (ht : |t| ≤ 1) :
    |horner p t| ≤ ((p.map Int.natAbs).sum : ℕ) := by
  induction p with
  | nil => simp [horner]
  | cons a p ih =>
    simp only [horner, List.map_cons, List.sum_cons]
    have h1 : |t * horner p t| ≤ ((p.map Int.natAbs).sum : ℕ) := by
      rw [abs_mul]
      calc |t| * |horner p t| ≤ 1 * |horner p t| := mul_le_mul_of_nonneg_right ht (abs_nonneg _)
        _ ≤ _ := by rw [one_mul]; exact ih
    have h2 : |(a : K)| = (a.natAbs : K) := by
      rw [Nat.cast_natAbs]; push_cast; rfl
    push_cast
    calc _ ≤ |(a : K)| + |t * horner p t| := abs_add_le _ _
      _ ≤ _ := by rw [h2]; linarith

theorem dominates_sound (p : List ℤ) (h : dominates p = true) (t : K) (ht : |t| ≤ 1) :
    0 ≤ horner p t := by
  cases p with
  | nil => simp [horner]
  | cons a p =>
    simp only [dominates, decide_eq_true_eq] at h
    have h1 := abs_horner_le p t ht
    have h2 : |t * horner p t| ≤ ((p.map Int.natAbs).sum : ℕ) := by
      rw [abs_mul]
      calc |t| * |horner p t| ≤ 1 * |horner p t| := mul_le_mul_of_nonneg_right ht (abs_nonneg _)
        _ ≤ _ := by rw [one_mul]; exact h1
    have h3 : (((p.map Int.natAbs).sum : ℕ) : K) ≤ a := by exact_mod_cast h
    have := (abs_le.1 h2).1
    simp only [horner]
    linarith

theorem nonnegOn_sound (d : Nat) (p : List ℤ) (h : nonnegOn d p = true) (t : K) (ht : |t| ≤ 1) :
    0 ≤ horner p t := by
  induction d generalizing p t with
  | zero => exact dominates_sound p h t ht
  | succ d ih =>
    simp only [nonnegOn, Bool.or_eq_true, Bool.and_eq_true] at h
    rcases h with h | ⟨h1, h2⟩
    · exact dominates_sound p h t ht
    · obtain ⟨l, u⟩ := abs_le.1 ht
      have pos : (0 : K) < 2 ^ p.length := by positivity
      rcases le_total 0 t with ht0 | ht0
      · have := ih _ h1 (2 * t - 1) (abs_le.2 ⟨by linarith, by linarith⟩)
        rw [horner_pshift, horner_phalf] at this
        have e : (2 * t - 1 + ((1 : ℤ) : K)) / 2 = t := by push_cast; ring
        rw [e] at this
        exact nonneg_of_mul_nonneg_right this pos
      · have := ih _ h2 (2 * t + 1) (abs_le.2 ⟨by linarith, by linarith⟩)
        rw [horner_pshift, horner_phalf] at this
        have e : (2 * t + 1 + ((-1 : ℤ) : K)) / 2 = t := by push_cast; ring
        rw [e] at this
        exact nonneg_of_mul_nonneg_right this pos

/-- Non-negativity on `[a, a + 1]`. -/
theorem nonneg_unit (d : Nat) (a : ℤ) (p : List ℤ) (h : nonnegOn d (pshift (2 * a + 1) (phalf p)) = true)
    (x : K) (h0 : (a : K) ≤ x) (h1 : x ≤ a + 1) : 0 ≤ horner p x := by
  have pos : (0 : K) < 2 ^ p.length := by positivity
  have := nonnegOn_sound d _ h (2 * x - (2 * a + 1)) (abs_le.2 ⟨by linarith, by linarith⟩)
  rw [horner_pshift, horner_phalf] at this
  have e : (2 * x - (2 * (a : K) + 1) + ((2 * a + 1 : ℤ) : K)) / 2 = x := by push_cast; ring
  rw [e] at this
  exact nonneg_of_mul_nonneg_right this pos
end
end Pizza.PolyBound
