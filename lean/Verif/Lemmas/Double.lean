import Verif.Model.Double
import Mathlib.Data.Int.Log
import Mathlib.Algebra.Order.Round

/-! Facts about rounding. -/

namespace Pizza

theorem IsFloat.neg {p : ℕ} {x : ℚ} (h : IsFloat p x) : IsFloat p (-x) := by
  obtain ⟨m, e, hm, rfl⟩ := h
  exact ⟨-m, e, by rwa [abs_neg], by push_cast; ring⟩

theorem isFloat_zero (p : ℕ) : IsFloat p 0 := ⟨0, 0, by simp, by simp⟩

theorem isFloat_int {p : ℕ} {n : ℤ} (h : |n| ≤ 2 ^ p) : IsFloat p n := ⟨n, 0, h, by simp⟩

theorem isFloat_scaled {p : ℕ} {m : ℤ} (e : ℤ) (h : |m| ≤ 2 ^ p) : IsFloat p (m * (2 : ℚ) ^ e) := ⟨m, e, h, rfl⟩

theorem isFloat_half {p : ℕ} {n : ℤ} (h : |n| ≤ 2 ^ p) : IsFloat p (n / 2) :=
  ⟨n, -1, h, by rw [zpow_neg_one]; ring⟩

theorem IsFloat.mul_zpow {p : ℕ} {x : ℚ} (h : IsFloat p x) (k : ℤ) : IsFloat p (x * 2 ^ k) := by
  obtain ⟨m, e, hm, rfl⟩ := h
  exact ⟨m, e + k, hm, by rw [zpow_add₀ (by norm_num)]; ring⟩

/-- Near every number there is one with `p` digits, and no other is nearer: the one on the grid of the
exponent of the number. -/
theorem exists_nearest (p : ℕ) (hp : 1 ≤ p) (x : ℚ) :
    ∃ y, IsFloat p y ∧ (∀ z, IsFloat p z → |x - y| ≤ |x - z|) ∧ |x - y| ≤ |x| / 2 ^ p := by
  rcases eq_or_ne x 0 with rfl | hx
  · exact ⟨0, isFloat_zero p, fun z _ => by simp, by simp⟩
  obtain ⟨e, he⟩ : ∃ e : ℤ, e = Int.log 2 |x| - (p - 1) := ⟨_, rfl⟩
  have hpos : 0 < |x| := abs_pos.2 hx
  have h1 : (2 : ℚ) ^ (Int.log 2 |x|) ≤ |x| := by
    have := Int.zpow_log_le_self (b := 2) (r := |x|) (by norm_num) hpos
    exact_mod_cast this
  have h2 : |x| < (2 : ℚ) ^ (Int.log 2 |x| + 1) := by
    have := Int.lt_zpow_succ_log_self (b := 2) (by norm_num) |x|
    exact_mod_cast this
  have he0 : (0 : ℚ) < 2 ^ e := by positivity
  have e1 : (2 : ℚ) ^ (Int.log 2 |x|) = 2 ^ e * 2 ^ (p - 1) := by
    rw [← zpow_natCast, ← zpow_add₀ (by norm_num)]
    congr 1
    rw [he, Nat.cast_sub hp]
    push_cast; ring
  have e2 : (2 : ℚ) ^ (Int.log 2 |x| + 1) = 2 ^ e * 2 ^ p := by
    rw [zpow_add_one₀ (by norm_num), e1, mul_assoc, ← pow_succ, Nat.sub_add_cancel hp]
  rw [e1] at h1
  rw [e2] at h2
  -- the nearest multiple of `2 ^ e`
  have hr : |x / 2 ^ e - round (x / 2 ^ e)| ≤ 1 / 2 := abs_sub_round _
  have hsub : x - round (x / 2 ^ e) * 2 ^ e = (x / 2 ^ e - round (x / 2 ^ e)) * 2 ^ e := by
    field_simp
  have hbound : |round (x / 2 ^ e)| ≤ 2 ^ p := by
    have h3 : |x / 2 ^ e| < 2 ^ p := by
      rw [abs_div, abs_of_pos he0, div_lt_iff₀ he0]
      linarith
    have h4 : |((round (x / 2 ^ e) : ℤ) : ℚ)| < 2 ^ p + 1 := by
      calc |((round (x / 2 ^ e) : ℤ) : ℚ)| = |x / 2 ^ e - (x / 2 ^ e - round (x / 2 ^ e))| := by ring_nf
        _ ≤ |x / 2 ^ e| + |x / 2 ^ e - round (x / 2 ^ e)| := abs_sub _ _
        _ < 2 ^ p + 1 := by linarith
    have h5 : |round (x / 2 ^ e)| < 2 ^ p + 1 := by exact_mod_cast h4
    omega
  have hmult : ∀ m : ℤ, |x - round (x / 2 ^ e) * 2 ^ e| ≤ |x - m * 2 ^ e| := by
    intro m
    have hm : x - m * 2 ^ e = (x / 2 ^ e - m) * 2 ^ e := by field_simp
    rw [hsub, hm, abs_mul, abs_mul]
    exact mul_le_mul_of_nonneg_right (round_le _ _) (abs_nonneg _)
  refine ⟨round (x / 2 ^ e) * 2 ^ e, ⟨_, _, hbound, rfl⟩, ?_, ?_⟩
  · rintro z ⟨m, k, hm, rfl⟩
    rcases le_or_gt e k with hk | hk
    · -- a multiple of `2 ^ e`
      have : (m : ℚ) * 2 ^ k = ((m * 2 ^ (k - e).toNat : ℤ) : ℚ) * 2 ^ e := by
        push_cast
        rw [mul_assoc, ← zpow_natCast, ← zpow_add₀ (by norm_num)]
        congr 2
        omega
      rw [this]
      exact hmult _
    · -- small: the end of the binade lies between
      have hz : |(m : ℚ) * 2 ^ k| ≤ 2 ^ e * 2 ^ (p - 1) := by
        have h3 : (|(m : ℚ)|) ≤ 2 ^ p := by exact_mod_cast hm
        have h4 : (2 : ℚ) ^ k ≤ 2 ^ (e - 1) := zpow_le_zpow_right₀ (by norm_num) (by omega)
        have h5 : (0 : ℚ) < 2 ^ k := by positivity
        rw [abs_mul, abs_of_pos h5]
        calc |(m : ℚ)| * 2 ^ k ≤ 2 ^ p * 2 ^ (e - 1) := by gcongr
          _ = 2 ^ e * 2 ^ (p - 1) := by
            obtain ⟨q, rfl⟩ : ∃ q, p = q + 1 := ⟨p - 1, by omega⟩
            rw [zpow_sub_one₀ (by norm_num), pow_succ, Nat.add_sub_cancel]
            ring
      have h6 : |x| - 2 ^ e * 2 ^ (p - 1) ≤ |x - m * 2 ^ k| := by
        have := abs_sub_abs_le_abs_sub x (m * 2 ^ k)
        linarith
      refine le_trans ?_ h6
      rcases lt_or_ge x 0 with hneg | hnn
      · have := hmult (-(2 ^ (p - 1)))
        refine this.trans ?_
        push_cast
        rw [abs_of_neg hneg] at h1 ⊢
        rw [abs_le]
        constructor <;> linarith
      · have := hmult (2 ^ (p - 1))
        refine this.trans ?_
        push_cast
        rw [abs_of_nonneg hnn] at h1 ⊢
        rw [abs_le]
        constructor <;> linarith
  · rw [hsub, abs_mul, abs_of_pos he0, le_div_iff₀ (by positivity)]
    calc |x / 2 ^ e - round (x / 2 ^ e)| * 2 ^ e * 2 ^ p ≤ 1 / 2 * 2 ^ e * 2 ^ p := by gcongr
      _ = 2 ^ e * 2 ^ (p - 1) := by
        obtain ⟨q, rfl⟩ : ∃ q, p = q + 1 := ⟨p - 1, by omega⟩
        rw [pow_succ, Nat.add_sub_cancel]
        ring
      _ ≤ |x| := h1

/-- There is a rounding. -/
theorem exists_rounds (p : ℕ) (hp : 1 ≤ p) : ∃ rnd, Rounds p rnd :=
  ⟨fun x => (exists_nearest p hp x).choose,
    fun x => (exists_nearest p hp x).choose_spec.1, fun x => (exists_nearest p hp x).choose_spec.2.1⟩

namespace Rounds
variable {p : ℕ} {rnd : ℚ → ℚ}

theorem exact (h : Rounds p rnd) {x : ℚ} (hx : IsFloat p x) : rnd x = x := by
  have := h.nearest x x hx
  rw [sub_self, abs_zero] at this
  have := abs_eq_zero.1 (le_antisymm this (abs_nonneg _))
  linarith

theorem rel (h : Rounds p rnd) (hp : 1 ≤ p) (x : ℚ) : |x - rnd x| ≤ |x| / 2 ^ p := by
  obtain ⟨y, h1, -, h3⟩ := exists_nearest p hp x
  exact (h.nearest x y h1).trans h3

theorem mono (h : Rounds p rnd) {x y : ℚ} (hxy : x ≤ y) : rnd x ≤ rnd y := by
  rcases eq_or_lt_of_le hxy with rfl | hlt
  · exact le_rfl
  by_contra hcon
  rw [not_le] at hcon
  have h1 := h.nearest x _ (h.float y)
  have h2 := h.nearest y _ (h.float x)
  rw [← sq_le_sq] at h1 h2
  nlinarith

theorem zero (h : Rounds p rnd) : rnd 0 = 0 := h.exact (isFloat_zero p)

theorem nonneg (h : Rounds p rnd) {x : ℚ} (hx : 0 ≤ x) : 0 ≤ rnd x := by
  have := h.mono hx
  rwa [h.zero] at this

theorem pos (h : Rounds p rnd) (hp : 1 ≤ p) {x : ℚ} (hx : 0 < x) : 0 < rnd x := by
  have h1 := h.rel hp x
  have h2 : |x| / 2 ^ p ≤ x / 2 := by
    rw [abs_of_pos hx]
    have : (2 : ℚ) ≤ 2 ^ p := by
      calc (2 : ℚ) = 2 ^ 1 := by norm_num
        _ ≤ 2 ^ p := pow_le_pow_right₀ (by norm_num) hp
    gcongr
  have h3 := (abs_le.1 (h1.trans h2)).2
  have h4 := (abs_le.1 (h1.trans h2)).1
  linarith

end Rounds

/-- Sterbenz: the difference of two numbers within a factor of two of each other needs no rounding. -/
theorem IsFloat.sub_exact {p : ℕ} {a b : ℚ} (ha : IsFloat p a) (hb : IsFloat p b) (h1 : b / 2 ≤ a) (h2 : a ≤ 2 * b) :
    IsFloat p (a - b) := by
  -- the difference is a multiple of the smaller of the two last places and not larger than that number
  have key : ∀ {a b : ℚ}, IsFloat p a → IsFloat p b → b ≤ a → a ≤ 2 * b → IsFloat p (a - b) := by
    rintro a b ⟨m, e, hm, rfl⟩ ⟨n, k, hn, rfl⟩ h3 h4
    have hk0 : (0 : ℚ) < 2 ^ k := by positivity
    have he0 : (0 : ℚ) < 2 ^ e := by positivity
    have hb0 : 0 ≤ (n : ℚ) * 2 ^ k := by linarith
    rcases le_or_gt k e with hk | hk
    · -- multiples of `2 ^ k`; the difference is at most `b`
      have hx : (m : ℚ) * 2 ^ e - n * 2 ^ k = ((m * 2 ^ (e - k).toNat - n : ℤ) : ℚ) * 2 ^ k := by
        push_cast
        rw [sub_mul, mul_assoc, ← zpow_natCast, ← zpow_add₀ (by norm_num)]
        congr 3
        omega
      refine ⟨_, _, ?_, hx⟩
      have h5 : 0 ≤ ((m * 2 ^ (e - k).toNat - n : ℤ) : ℚ) * 2 ^ k := by rw [← hx]; linarith
      have h6 : ((m * 2 ^ (e - k).toNat - n : ℤ) : ℚ) * 2 ^ k ≤ n * 2 ^ k := by rw [← hx]; linarith
      have h7 : (0 : ℚ) ≤ ((m * 2 ^ (e - k).toNat - n : ℤ) : ℚ) := nonneg_of_mul_nonneg_left h5 hk0
      have h8 : ((m * 2 ^ (e - k).toNat - n : ℤ) : ℚ) ≤ n := le_of_mul_le_mul_right h6 hk0
      have h9 : m * 2 ^ (e - k).toNat - n ≤ n := by exact_mod_cast h8
      have h10 : 0 ≤ m * 2 ^ (e - k).toNat - n := by exact_mod_cast h7
      rw [abs_of_nonneg h10]
      exact h9.trans ((le_abs_self n).trans hn)
    · have hx : (m : ℚ) * 2 ^ e - n * 2 ^ k = ((m - n * 2 ^ (k - e).toNat : ℤ) : ℚ) * 2 ^ e := by
        push_cast
        rw [sub_mul, mul_assoc (n : ℚ), ← zpow_natCast, ← zpow_add₀ (by norm_num)]
        congr 3
        omega
      refine ⟨_, _, ?_, hx⟩
      have h5 : 0 ≤ ((m - n * 2 ^ (k - e).toNat : ℤ) : ℚ) * 2 ^ e := by rw [← hx]; linarith
      have h6 : ((m - n * 2 ^ (k - e).toNat : ℤ) : ℚ) * 2 ^ e ≤ m * 2 ^ e := by rw [← hx]; linarith
      have h7 : (0 : ℚ) ≤ ((m - n * 2 ^ (k - e).toNat : ℤ) : ℚ) := nonneg_of_mul_nonneg_left h5 he0
      have h8 : ((m - n * 2 ^ (k - e).toNat : ℤ) : ℚ) ≤ m := le_of_mul_le_mul_right h6 he0
      have h9 : m - n * 2 ^ (k - e).toNat ≤ m := by exact_mod_cast h8
      have h10 : 0 ≤ m - n * 2 ^ (k - e).toNat := by exact_mod_cast h7
      rw [abs_of_nonneg h10]
      exact h9.trans ((le_abs_self m).trans hm)
  rcases le_total b a with h | h
  · exact key ha hb h h2
  · have := (key hb ha h (by linarith)).neg
    rwa [neg_sub] at this

end Pizza
