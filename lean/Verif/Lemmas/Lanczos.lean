import Verif.Model.Lanczos
import Verif.Lemmas.Basic
import Mathlib.Algebra.BigOperators.Ring.Finset
import Mathlib.Algebra.BigOperators.Intervals
import Mathlib.Algebra.Order.Field.Basic
import Mathlib.Data.Int.Interval
import Mathlib.Algebra.Order.Interval.Finset.Basic
import Mathlib.Tactic.Positivity
import Mathlib.Tactic.Linarith
import Mathlib.Tactic.NormNum
import Mathlib.Tactic.Ring

/-! The Lanczos loops as finite sums. -/

set_option linter.unusedSectionVars false

namespace Pizza

section
variable {K : Type} [Field K] [LinearOrder K] [IsStrictOrderedRing K] [FloorRing K]

theorem sincDen_pos (x : K) : 0 < sincDen x := by
  have q0 : 0 < 1 - 0.0982732212730775 * x + 0.0612 * x ^ 2 := by
    nlinarith [sq_nonneg (0.0612 * x - 0.04913661063653875)]
  have q1 : 0 ≤ 0.061336542608403 - 0.0111525324680647 * x + 0.0036 * x ^ 2 := by
    nlinarith [sq_nonneg (0.0036 * x - 0.00557626623403235)]
  have q2 : 0 ≤ 0.00364707512833019 - 0.000584774445653404 * x + 0.00013 * x ^ 2 := by
    nlinarith [sq_nonneg (0.00013 * x - 0.000292387222826702)]
  have q3 : 0 ≤ 0.000132528048296579 - 1.71596576734417e-05 * x + 2.9e-06 * x ^ 2 := by
    nlinarith [sq_nonneg (2.9e-06 * x - 8.57982883672085e-06)]
  have q4 : 0 ≤ 3.01945411660804e-06 - 2.44174818579491e-07 * x + 6.74473938075399e-08 * x ^ 2 := by
    nlinarith [sq_nonneg (6.74473938075399e-08 * x - 1.220874092897455e-07)]
  have h2 : 0 ≤ x ^ 2 := sq_nonneg x
  have h4 : 0 ≤ x ^ 4 := by positivity
  have h6 : 0 ≤ x ^ 6 := by positivity
  have h8 : 0 ≤ x ^ 8 := by positivity
  have e : sincDen x = (1 - 0.0982732212730775 * x + 0.0612 * x ^ 2)
      + x ^ 2 * (0.061336542608403 - 0.0111525324680647 * x + 0.0036 * x ^ 2)
      + x ^ 4 * (0.00364707512833019 - 0.000584774445653404 * x + 0.00013 * x ^ 2)
      + x ^ 6 * (0.000132528048296579 - 1.71596576734417e-05 * x + 2.9e-06 * x ^ 2)
      + x ^ 8 * (3.01945411660804e-06 - 2.44174818579491e-07 * x + 6.74473938075399e-08 * x ^ 2) := by
    unfold sincDen; ring
  rw [e]
  have := mul_nonneg h2 q1
  have := mul_nonneg h4 q2
  have := mul_nonneg h6 q3
  have := mul_nonneg h8 q4
  linarith

/-- The value of `sinc_pade` as a fraction. -/
def sincVal (x : K) : K := sincNum |x| / sincDen |x|

theorem sincPade_eq (x : K) : sincPade x = .ok (sincVal x) := by
  unfold sincPade checkedDiv
  rw [if_neg (sincDen_pos _).ne']; rfl

theorem sincVal_neg (x : K) : sincVal (-x) = sincVal x := by simp [sincVal]

theorem sincVal_zero : sincVal (0 : K) = 0.999999999999996 := by
  simp only [sincVal, abs_zero, sincNum, sincDen]; norm_num

theorem sincVal_one : sincVal (1 : K) = 0 := by
  simp [sincVal, sincNum]
theorem sincVal_two : sincVal (2 : K) = 0 := by
  simp [sincVal, sincNum]
theorem sincVal_three : sincVal (3 : K) = 0 := by
  simp [sincVal, sincNum]

theorem sincVal_int {d : ℤ} (h0 : d ≠ 0) (h3 : |d| ≤ 3) : sincVal (d : K) = 0 := by
  have : d = 1 ∨ d = 2 ∨ d = 3 ∨ d = -1 ∨ d = -2 ∨ d = -3 := by
    rw [abs_le] at h3; omega
  rcases this with rfl | rfl | rfl | rfl | rfl | rfl <;>
    simp [sincVal_neg, sincVal_one, sincVal_two, sincVal_three]

/-- The one dimensional kernel. -/
def kern (a : ℤ) (d : K) : K := sincVal d * sincVal (d / a)

theorem kern_neg (a : ℤ) (d : K) : kern a (-d) = kern a d := by
  simp [kern, neg_div, sincVal_neg]

theorem lanczosKernel_eq {a : ℤ} (ha : a ≠ 0) (d : K) : lanczosKernel a d = .ok (kern a d) := by
  have : (a : K) ≠ 0 := by exact_mod_cast ha
  simp only [lanczosKernel, sincPade_eq, checkedDiv, if_neg this]; rfl

/-- The image extended by zero. -/
def ext (im : Img K) (r c : ℤ) : K := (im.getZ? r c).getD 0

theorem ext_in (im : Img K) {r c : ℤ} (h0 : 0 ≤ r) (h1 : r < im.nrow) (h2 : 0 ≤ c)
    (h3 : c < im.ncol) : ext im r c = im.px r.toNat c.toNat := by
  simp [ext, Img.getZ?, h0, h1, h2, h3]

theorem ext_out (im : Img K) {r c : ℤ} (h : ¬ (0 ≤ r ∧ r < im.nrow ∧ 0 ≤ c ∧ c < im.ncol)) :
    ext im r c = 0 := by
  simp [ext, Img.getZ?, h]

theorem readIm_in (im : Img K) {r c : ℤ} (h0 : 0 ≤ r) (h1 : r < im.nrow) (h2 : 0 ≤ c)
    (h3 : c < im.ncol) : readIm im r c = .ok (ext im r c) := by
  rw [ext_in im h0 h1 h2 h3]
  simp [readIm, Img.getZ?, h0, h1, h2, h3]

theorem foldlM_add {ι : Type} (l : List ι) (step : K → ι → Except Err K) (f : ι → K)
    (h : ∀ i ∈ l, ∀ v, step v i = .ok (v + f i)) (v : K) :
    l.foldlM step v = .ok (v + (l.map f).sum) := by
  induction l generalizing v with
  | nil => simp; rfl
  | cons i l ih =>
    rw [List.foldlM_cons, h i (by simp), ok_bind, ih (fun j hj => h j (by simp [hj]))]
    simp [add_assoc]

theorem sum_pyRange (f : ℤ → K) (s e : ℤ) :
    ((pyRange s (e + 1)).map f).sum = ∑ i ∈ Finset.Icc s e, f i := by
  have hn : (pyRange s (e + 1)).Nodup := by
    unfold pyRange
    refine List.Nodup.map ?_ List.nodup_range
    intro i j h; simpa using h
  rw [← List.sum_toFinset _ hn]
  congr 1
  ext i
  simp only [List.mem_toFinset, mem_pyRange, Finset.mem_Icc]
  omega

/-- The value computed by the loops. -/
def lanczosSum (im : Img K) (a : ℤ) (y x : K) : K :=
  ∑ r ∈ Finset.Icc (⌊y⌋ - a + 1) (⌊y⌋ + a), ∑ c ∈ Finset.Icc (⌊x⌋ - a + 1) (⌊x⌋ + a),
    ext im r c * (kern a (x - c) * kern a (y - r))

theorem lanczosOne_eq (im : Img K) (a : ℤ) (y x : K) :
    lanczosOne im a y x = .ok (lanczosSum im a y x,
      outOfBounds im.ncol im.nrow (⌊x⌋ - a + 1) (⌊x⌋ + a) (⌊y⌋ - a + 1) (⌊y⌋ + a)) := by
  unfold lanczosOne
  simp only []
  rw [foldlM_add _ _ (fun r => ∑ c ∈ Finset.Icc (⌊x⌋ - a + 1) (⌊x⌋ + a),
    ext im r c * (kern a (x - c) * kern a (y - r)))]
  · rw [ok_bind, sum_pyRange, zero_add]; rfl
  intro r hr v
  rw [mem_pyRange] at hr
  have ha : a ≠ 0 := by omega
  unfold lanczosRowStep
  split
  · rename_i h
    rw [Finset.sum_eq_zero, add_zero]
    intro c _
    rw [ext_out _ (by omega), zero_mul]
  rename_i hrow
  rw [lanczosKernel_eq ha, ok_bind, foldlM_add _ _ (fun c =>
    ext im r c * (kern a (x - c) * kern a (y - r)))]
  · rw [sum_pyRange]
  intro c hc v
  unfold lanczosColStep
  split
  · rw [ext_out _ (by omega), zero_mul, add_zero]
  · rw [lanczosKernel_eq ha, ok_bind, readIm_in _ (by omega) (by omega) (by omega) (by omega)]
    rfl

theorem foldlM_pair {ι : Type} (l : List ι) (step : K × K → ι → Except Err (K × K)) (f g : ι → K)
    (h : ∀ i ∈ l, ∀ v, step v i = .ok (v.1 + f i, v.2 + g i)) (v : K × K) :
    l.foldlM step v = .ok (v.1 + (l.map f).sum, v.2 + (l.map g).sum) := by
  induction l generalizing v with
  | nil => simp; rfl
  | cons i l ih =>
    rw [List.foldlM_cons, h i (by simp), ok_bind, ih (fun j hj => h j (by simp [hj]))]
    simp [add_assoc]

theorem lanczosOne2_eq (im1 im2 : Img K) (h1 : im1.nrow = im2.nrow) (h2 : im1.ncol = im2.ncol)
    (a : ℤ) (y x : K) :
    lanczosOne2 im1 im2 a y x = .ok (lanczosSum im1 a y x, lanczosSum im2 a y x,
      outOfBounds im1.ncol im1.nrow (⌊x⌋ - a + 1) (⌊x⌋ + a) (⌊y⌋ - a + 1) (⌊y⌋ + a)) := by
  unfold lanczosOne2
  simp only []
  rw [foldlM_pair _ _ (fun r => ∑ c ∈ Finset.Icc (⌊x⌋ - a + 1) (⌊x⌋ + a),
    ext im1 r c * (kern a (x - c) * kern a (y - r))) (fun r => ∑ c ∈ Finset.Icc (⌊x⌋ - a + 1) (⌊x⌋ + a),
    ext im2 r c * (kern a (x - c) * kern a (y - r)))]
  · rw [ok_bind, sum_pyRange, sum_pyRange, zero_add, zero_add]; rfl
  intro r hr v
  rw [mem_pyRange] at hr
  have ha : a ≠ 0 := by omega
  unfold lanczosRowStep2
  split
  · rename_i h
    rw [Finset.sum_eq_zero, Finset.sum_eq_zero, add_zero, add_zero]
    all_goals
      intro c _
      rw [ext_out _ (by omega), zero_mul]
  rename_i hrow
  rw [lanczosKernel_eq ha, ok_bind, foldlM_pair _ _ (fun c =>
    ext im1 r c * (kern a (x - c) * kern a (y - r))) (fun c =>
    ext im2 r c * (kern a (x - c) * kern a (y - r)))]
  · rw [sum_pyRange, sum_pyRange]
  intro c hc v
  unfold lanczosColStep2
  split
  · rw [ext_out _ (by omega), ext_out _ (by omega), zero_mul, add_zero, add_zero]
  · rw [lanczosKernel_eq ha, ok_bind]
    simp only []
    rw [readIm_in im1 (by omega) (by omega) (by omega) (by omega), ok_bind,
      readIm_in im2 (by omega) (by omega) (by omega) (by omega)]
    rfl

theorem mapM_ok {α β : Type} (l : List α) (f : α → Except Err β) (g : α → β)
    (h : ∀ p ∈ l, f p = .ok (g p)) : l.mapM f = .ok (l.map g) := by
  induction l with
  | nil => rfl
  | cons p l ih =>
    rw [List.mapM_cons, h p (by simp), ok_bind, ih (fun q hq => h q (by simp [hq])), ok_bind]
    rfl

end
end Pizza
