import Verif.Model.DoubleStore
import Verif.Props.DoubleCoadd
import Verif.Lemmas.DoubleLanczos

/-! C133: masked fractions and weights as they are written. -/

namespace Pizza

section
variable {p : ℕ} {rnd : ℚ → ℚ}

/-- Numbers with `p` digits next to one that needs all of them. -/
theorem IsFloat.apart {m e : ℤ} (h1 : 2 ^ (p - 1) < m) (hp : 1 ≤ p) {z : ℚ} (hz : IsFloat p z)
    (hne : z ≠ m * (2 : ℚ) ^ e) : (2 : ℚ) ^ e ≤ |z - m * 2 ^ e| := by
  obtain ⟨n, k, hn, rfl⟩ := hz
  have he0 : (0 : ℚ) < 2 ^ e := by positivity
  rcases le_or_gt e k with hk | hk
  · have hx : (n : ℚ) * 2 ^ k = ((n * 2 ^ (k - e).toNat : ℤ) : ℚ) * 2 ^ e := by
      push_cast
      rw [mul_assoc, ← zpow_natCast, ← zpow_add₀ (by norm_num)]
      congr 2
      omega
    rw [hx] at hne ⊢
    have hd : n * 2 ^ (k - e).toNat - m ≠ 0 := by
      intro hc
      apply hne
      rw [show n * 2 ^ (k - e).toNat = m by omega]
    have h2 : (1 : ℚ) ≤ |((n * 2 ^ (k - e).toNat - m : ℤ) : ℚ)| := by
      rw [← Int.cast_abs]
      exact_mod_cast Int.one_le_abs hd
    rw [← sub_mul, abs_mul, abs_of_pos he0, ← Int.cast_sub]
    nlinarith
  · have hk2 : (2 : ℚ) ^ k ≤ 2 ^ (e - 1) := zpow_le_zpow_right₀ (by norm_num) (by omega)
    have hn' : (n : ℚ) ≤ 2 ^ p := by
      have := (le_abs_self n).trans hn
      exact_mod_cast this
    have e1 : (2 : ℚ) ^ p * 2 ^ (e - 1) = 2 ^ (p - 1) * 2 ^ e := by
      obtain ⟨q, rfl⟩ : ∃ q, p = q + 1 := ⟨p - 1, by omega⟩
      rw [zpow_sub_one₀ (by norm_num), pow_succ]
      simp only [Nat.add_sub_cancel]
      ring
    have h2 : (n : ℚ) * 2 ^ k ≤ 2 ^ (p - 1) * 2 ^ e := by
      rw [← e1]
      calc (n : ℚ) * 2 ^ k ≤ 2 ^ p * 2 ^ k := mul_le_mul_of_nonneg_right hn' (by positivity)
        _ ≤ _ := mul_le_mul_of_nonneg_left hk2 (by positivity)
    have h3 : ((2 : ℚ) ^ (p - 1) + 1) * 2 ^ e ≤ m * 2 ^ e := by
      refine mul_le_mul_of_nonneg_right ?_ he0.le
      have : 2 ^ (p - 1) + 1 ≤ m := by omega
      exact_mod_cast this
    rw [abs_sub_comm]
    refine le_trans ?_ (le_abs_self _)
    linarith

/-- What a number is rounded to. -/
theorem Rounds.eq (h : Rounds p rnd) (hp : 1 ≤ p) {x : ℚ} (m e : ℤ) (h1 : 2 ^ (p - 1) < m) (h2 : m ≤ 2 ^ p)
    (hx : |x - m * (2 : ℚ) ^ e| < 2 ^ e / 2) : rnd x = m * (2 : ℚ) ^ e := by
  by_contra hne
  have hpos : 0 < m := lt_trans (by positivity) h1
  have h3 := (h.float x).apart h1 hp hne
  have h4 := h.nearest x _ (isFloat_scaled e (p := p) (m := m) (by rw [abs_of_pos hpos]; exact h2))
  have h5 := abs_sub_le (rnd x) x (m * (2 : ℚ) ^ e)
  rw [abs_sub_comm (rnd x) x] at h5
  linarith

/-! ### The weight -/

theorem rnd_sq (h : Rounds p rnd) (hp : 1 ≤ p) (x : ℚ) : (1 - unitOf p) ^ 3 * x ^ 2 ≤ rnd (rnd x * rnd x) ∧
    rnd (rnd x * rnd x) ≤ (1 + unitOf p) ^ 3 * x ^ 2 := by
  have hu0 := unitOf_pos p
  have hu1 := unitOf_le hp
  have h1 := abs_le.1 (h.err hp x)
  have hsq : (1 - unitOf p) ^ 2 * x ^ 2 ≤ rnd x * rnd x ∧ rnd x * rnd x ≤ (1 + unitOf p) ^ 2 * x ^ 2 := by
    have hlo : (1 - unitOf p) * |x| ≤ |rnd x| := by
      have := abs_sub_abs_le_abs_sub x (rnd x)
      rw [abs_sub_comm x] at this
      linarith [h.err hp x]
    have hhi : |rnd x| ≤ (1 + unitOf p) * |x| := by
      have := abs_sub_abs_le_abs_sub (rnd x) x
      linarith [h.err hp x]
    rw [← abs_mul_abs_self (rnd x), ← mul_pow, ← mul_pow, ← sq_abs ((1 - unitOf p) * x), ← sq_abs ((1 + unitOf p) * x), abs_mul,
      abs_mul, abs_of_pos (show 0 < 1 - unitOf p by linarith), abs_of_pos (show 0 < 1 + unitOf p by linarith), ← sq]
    constructor
    · exact pow_le_pow_left₀ (mul_nonneg (by linarith) (abs_nonneg _)) hlo 2
    · exact pow_le_pow_left₀ (abs_nonneg _) hhi 2
  obtain ⟨b1, b2⟩ := h.between hp (mul_self_nonneg (rnd x))
  constructor
  · calc (1 - unitOf p) ^ 3 * x ^ 2 = (1 - unitOf p) * ((1 - unitOf p) ^ 2 * x ^ 2) := by ring
      _ ≤ (1 - unitOf p) * (rnd x * rnd x) := mul_le_mul_of_nonneg_left hsq.1 (by linarith)
      _ ≤ _ := b1
  · calc _ ≤ (1 + unitOf p) * (rnd x * rnd x) := b2
      _ ≤ (1 + unitOf p) * ((1 + unitOf p) ^ 2 * x ^ 2) := mul_le_mul_of_nonneg_left hsq.2 (by linarith)
      _ = _ := by ring

/-- The mean of the squares of the distances from `m` (specification). -/
def meanSq (l : List ℚ) (m : ℚ) : ℚ := (l.map fun x => (x - m) ^ 2).sum / l.length

/-- The mean (specification). -/
def meanOf (l : List ℚ) : ℚ := l.sum / l.length

theorem meanSq_shift (l : List ℚ) (hne : l ≠ []) (m : ℚ) : meanSq l m = meanSq l (meanOf l) + (m - meanOf l) ^ 2 := by
  have hn : (l.length : ℚ) ≠ 0 := by exact_mod_cast (List.length_pos_iff.2 hne).ne'
  have key : ∀ (c : ℚ) (l : List ℚ), (l.map fun x => (x - c) ^ 2).sum = (l.map fun x => x ^ 2).sum - 2 * c * l.sum + c ^ 2 * l.length := by
    intro c l
    induction l with
    | nil => simp
    | cons a l ih => simp only [List.map_cons, List.sum_cons, ih, List.length_cons]; push_cast; ring
  unfold meanSq meanOf
  rw [key, key]
  field_simp
  ring

theorem unitOf_anti {p q : ℕ} (h : p ≤ q) : unitOf q ≤ unitOf p := by
  unfold unitOf
  exact one_div_le_one_div_of_le (by positivity) (pow_le_pow_right₀ (by norm_num) h)

theorem sumRuns_near (h : Rounds p rnd) (hp : 1 ≤ p) {l : List ℚ} {s : ℚ} (hs : SumRuns rnd l s)
    (hl : ∀ x ∈ l, IsFloat p x) : Near (unitOf p) (l.length - 1) s l.sum (l.map abs).sum := by
  have hu := (unitOf_pos p).le
  induction hs with
  | nil => exact Near.zero hu le_rfl
  | one x => simpa using Near.refl (unitOf p) x
  | @add l a b s t hperm ha hb iha ihb =>
    have hmem : ∀ x, x ∈ l ↔ x ∈ a ∨ x ∈ b := fun x => by rw [hperm.mem_iff, List.mem_append]
    have hla : ∀ x ∈ a, IsFloat p x := fun x hx => hl x ((hmem x).2 (.inl hx))
    have hlb : ∀ x ∈ b, IsFloat p x := fun x hx => hl x ((hmem x).2 (.inr hx))
    have na := iha hla
    have nb := ihb hlb
    have hsf := sumRuns_float h ha hla
    have htf := sumRuns_float h hb hlb
    have hlen : l.length = a.length + b.length := by rw [hperm.length_eq, List.length_append]
    rw [hperm.sum_eq, List.sum_append, (hperm.map abs).sum_eq, List.map_append, List.sum_append, hlen]
    rcases Nat.eq_zero_or_pos a.length with h0 | hapos
    · obtain rfl := List.length_eq_zero_iff.1 h0
      have hs0 : s = 0 := (Near.eq_zero (by simpa using na)).1
      simpa [hs0, h.exact htf] using nb
    rcases Nat.eq_zero_or_pos b.length with h0 | hbpos
    · obtain rfl := List.length_eq_zero_iff.1 h0
      have ht0 : t = 0 := (Near.eq_zero (by simpa using nb)).1
      simpa [ht0, h.exact hsf] using na
    exact (((na.mono hu (show _ ≤ a.length + b.length - 2 by omega)).add
      (nb.mono hu (show _ ≤ a.length + b.length - 2 by omega))).round h hp).mono hu (by omega)

/-- Rounding to more digits is no worse. -/
theorem Near.round_fine {rd : ℚ → ℚ} {q : ℕ} (hr : Rounds q rd) (hp : 1 ≤ p) (hq : p ≤ q) {e : ℕ} {s t T : ℚ}
    (h : Near (unitOf p) e s t T) : Near (unitOf p) (e + 1) (rd s) t T := by
  have hu := (unitOf_pos p).le
  have e1 : |rd s - s| ≤ unitOf p * |s| :=
    (hr.err (hp.trans hq) s).trans (mul_le_mul_of_nonneg_right (unitOf_anti hq) (abs_nonneg _))
  have e2 := h.abs_le
  refine ⟨?_, h.2⟩
  have e3 := abs_sub_le (rd s) s t
  have e4 : unitOf p * |s| ≤ unitOf p * ((1 + unitOf p) ^ e * T) := mul_le_mul_of_nonneg_left e2 hu
  have : ((1 + unitOf p) ^ (e + 1) - 1) * T = unitOf p * ((1 + unitOf p) ^ e * T) + ((1 + unitOf p) ^ e - 1) * T := by ring
  rw [this]
  linarith [h.1]

theorem Rounds.between_fine {rd : ℚ → ℚ} {q : ℕ} (hr : Rounds q rd) (hp : 1 ≤ p) (hq : p ≤ q) {x : ℚ} (hx : 0 ≤ x) :
    (1 - unitOf p) * x ≤ rd x ∧ rd x ≤ (1 + unitOf p) * x := by
  obtain ⟨a, b⟩ := hr.between (hp.trans hq) hx
  have := mul_le_mul_of_nonneg_right (unitOf_anti hq) hx
  constructor <;> linarith

/-- Two roundings. -/
theorem twice {rd : ℚ → ℚ} {q : ℕ} (h : Rounds p rnd) (hr : Rounds q rd) (hp : 1 ≤ p) (hq : p ≤ q) {x : ℚ} (hx : 0 ≤ x) :
    (1 - unitOf p) ^ 2 * x ≤ rnd (rd x) ∧ rnd (rd x) ≤ (1 + unitOf p) ^ 2 * x := by
  have hu0 := unitOf_pos p
  have hu1 := unitOf_le hp
  obtain ⟨a1, a2⟩ := hr.between_fine hp hq hx
  obtain ⟨b1, b2⟩ := h.between hp (hr.nonneg hx)
  constructor
  · calc _ = (1 - unitOf p) * ((1 - unitOf p) * x) := by ring
      _ ≤ _ := (mul_le_mul_of_nonneg_left a1 (by linarith)).trans b1
  · calc _ ≤ (1 + unitOf p) * ((1 + unitOf p) * x) := b2.trans (mul_le_mul_of_nonneg_left a2 (by linarith))
      _ = _ := by ring

/-- The computed variance is nowhere much below the variance, and above it by no more than rounding and the
square of the error of the computed mean. -/
theorem varRuns_bounds {rd : ℚ → ℚ} {q : ℕ} (h : Rounds p rnd) (hr : Rounds q rd) (hp : 1 ≤ p) (hq : p ≤ q) (l : List ℚ)
    (hne : l ≠ []) (hfloat : ∀ x ∈ l, IsFloat p x) (v : ℚ) (hv : VarRuns rnd rd l v) :
    (1 - unitOf p) ^ (l.length + 4) * meanSq l (meanOf l) ≤ v ∧
      v ≤ (1 + unitOf p) ^ (l.length + 4) *
        (meanSq l (meanOf l) + (((1 + unitOf p) ^ (l.length + 1) - 1) * meanOf (l.map abs)) ^ 2) := by
  obtain ⟨s, t, m, hs, hm, ht, rfl⟩ := hv
  have hu0 := unitOf_pos p
  have hu1 := unitOf_le hp
  have hlen := List.length_pos_iff.2 hne
  have hn : (0 : ℚ) < l.length := by exact_mod_cast hlen
  have hmean : (m - meanOf l) ^ 2 ≤ (((1 + unitOf p) ^ (l.length + 1) - 1) * meanOf (l.map abs)) ^ 2 := by
    have n1 := sumRuns_near h hp hs hfloat
    have n2 : Near (unitOf p) (l.length - 1) (s / l.length) (meanOf l) (meanOf (l.map abs)) := by
      have := n1.mul hu0.le (Near.refl (unitOf p) (1 / (l.length : ℚ)))
      rw [abs_of_pos (show 0 < 1 / (l.length : ℚ) by positivity), mul_one_div, mul_one_div, mul_one_div] at this
      simpa [meanOf] using this
    have n3 := (n2.round_fine hr hp hq).round h hp
    rw [← hm] at n3
    have n4 := (n3.mono hu0.le (show _ ≤ l.length + 1 by omega)).1
    rw [← sq_abs (m - meanOf l)]
    exact pow_le_pow_left₀ (abs_nonneg _) n4 2
  have hshift := meanSq_shift l hne m
  have hbase : meanSq l (meanOf l) ≤ meanSq l m := by
    rw [hshift]
    linarith [sq_nonneg (m - meanOf l)]
  have hfl : ∀ x ∈ l.map fun x => rnd (rnd (x - m) * rnd (x - m)), IsFloat p x ∧ 0 ≤ x := by
    intro x hx
    obtain ⟨y, _, rfl⟩ := List.mem_map.1 hx
    exact ⟨h.float _, h.nonneg (mul_self_nonneg _)⟩
  obtain ⟨-, t0, t1, t2⟩ := sumRuns_bounds h hp ht hfl
  rw [List.length_map] at t1 t2
  have sums : (1 - unitOf p) ^ 3 * (l.map fun x => (x - m) ^ 2).sum ≤ (l.map fun x => rnd (rnd (x - m) * rnd (x - m))).sum ∧
      (l.map fun x => rnd (rnd (x - m) * rnd (x - m))).sum ≤ (1 + unitOf p) ^ 3 * (l.map fun x => (x - m) ^ 2).sum := by
    clear ht hfl t0 t1 t2 hbase hs hn hlen hne hmean hshift hfloat hm
    induction l with
    | nil => simp
    | cons a l ih =>
      simp only [List.map_cons, List.sum_cons, mul_add]
      obtain ⟨r1, r2⟩ := rnd_sq h hp (a - m)
      exact ⟨add_le_add r1 ih.1, add_le_add r2 ih.2⟩
  have hS : 0 ≤ (l.map fun x => (x - m) ^ 2).sum := List.sum_nonneg fun x hx => by
    obtain ⟨y, _, rfl⟩ := List.mem_map.1 hx
    exact sq_nonneg _
  obtain ⟨b1, b2⟩ := twice h hr hp hq (div_nonneg t0 hn.le)
  have hlo0 : 0 ≤ (1 - unitOf p) := by linarith
  constructor
  · refine le_trans (mul_le_mul_of_nonneg_left hbase (by positivity)) (le_trans ?_ b1)
    have : (1 - unitOf p) ^ (l.length - 1) * ((1 - unitOf p) ^ 3 * (l.map fun x => (x - m) ^ 2).sum) ≤ t :=
      (mul_le_mul_of_nonneg_left sums.1 (by positivity)).trans t1
    unfold meanSq
    calc (1 - unitOf p) ^ (l.length + 4) * ((l.map fun x => (x - m) ^ 2).sum / l.length)
        = (1 - unitOf p) ^ 2 * ((1 - unitOf p) ^ (l.length - 1) * ((1 - unitOf p) ^ 3 * (l.map fun x => (x - m) ^ 2).sum) / l.length) := by
          obtain ⟨k, hk⟩ : ∃ k, l.length = k + 1 := ⟨l.length - 1, by omega⟩
          rw [hk, Nat.add_sub_cancel, pow_add, pow_succ]
          ring
      _ ≤ _ := mul_le_mul_of_nonneg_left (div_le_div_of_nonneg_right this hn.le) (by positivity)
  · refine le_trans b2 ?_
    refine le_trans ?_ (mul_le_mul_of_nonneg_left (show meanSq l m ≤ _ by rw [hshift]; exact add_le_add le_rfl hmean) (by positivity))
    have : t ≤ (1 + unitOf p) ^ (l.length - 1) * ((1 + unitOf p) ^ 3 * (l.map fun x => (x - m) ^ 2).sum) :=
      t2.trans (mul_le_mul_of_nonneg_left sums.2 (by positivity))
    unfold meanSq
    calc (1 + unitOf p) ^ 2 * (t / l.length)
        ≤ (1 + unitOf p) ^ 2 * ((1 + unitOf p) ^ (l.length - 1) * ((1 + unitOf p) ^ 3 * (l.map fun x => (x - m) ^ 2).sum) / l.length) :=
          mul_le_mul_of_nonneg_left (div_le_div_of_nonneg_right this hn.le) (by positivity)
      _ = _ := by
          obtain ⟨k, hk⟩ : ∃ k, l.length = k + 1 := ⟨l.length - 1, by omega⟩
          rw [hk, Nat.add_sub_cancel, pow_add, pow_succ]
          ring

theorem meanSq_nonneg (l : List ℚ) (m : ℚ) : 0 ≤ meanSq l m :=
  div_nonneg (List.sum_nonneg fun x hx => by
    obtain ⟨y, _, rfl⟩ := List.mem_map.1 hx
    exact sq_nonneg _) (Nat.cast_nonneg _)

theorem meanSq_zero {l : List ℚ} {m : ℚ} (h : meanSq l m ≤ 0) : ∀ x ∈ l, x = m := by
  intro x hx
  have hn : (0 : ℚ) < l.length := by exact_mod_cast List.length_pos_of_mem hx
  unfold meanSq at h
  have h1 : (l.map fun x => (x - m) ^ 2).sum ≤ 0 := by
    by_contra hc
    exact absurd h (not_le.2 (div_pos (not_le.1 hc) hn))
  have h2 : (x - m) ^ 2 ≤ (l.map fun x => (x - m) ^ 2).sum :=
    List.single_le_sum (fun y hy => by
      obtain ⟨z, _, rfl⟩ := List.mem_map.1 hy
      exact sq_nonneg _) _ (List.mem_map_of_mem hx)
  have h3 : (x - m) ^ 2 = 0 := le_antisymm (h2.trans h1) (sq_nonneg _)
  have := pow_eq_zero_iff (two_ne_zero) |>.1 h3
  linarith

/-- C133: the weight map of a coadd in floating point arithmetic.  It is infinite only for a noise image without any
variation; otherwise it is positive, exceeds the inverse of the variance of the noise image by rounding at most, and
falls short of it by rounding and the square of the rounding error of the mean of the noise image at most. -/
theorem C133_weight (p q : ℕ) (hp : 1 ≤ p) (hq : p ≤ q) (rnd rd : ℚ → ℚ) (h : Rounds p rnd) (hr : Rounds q rd)
    (l : List ℚ) (hne : l ≠ []) (hl : ∀ x ∈ l, IsFloat p x) (v : ℚ) (hv : VarRuns rnd rd l v) :
    (weightD rnd rd v = .posInf ∧ ∀ x ∈ l, ∀ y ∈ l, x = y) ∨
    ∃ w, weightD rnd rd v = .fin w ∧ 0 < w ∧
      w * meanSq l (meanOf l) ≤ (1 + 1 / 2 ^ p) ^ 2 / (1 - 1 / 2 ^ p) ^ (l.length + 4) ∧
      (1 - 1 / 2 ^ p) ^ 2 / (1 + 1 / 2 ^ p) ^ (l.length + 4) ≤
        w * (meanSq l (meanOf l) + (((1 + 1 / 2 ^ p) ^ (l.length + 1) - 1) * meanOf (l.map abs)) ^ 2) := by
  obtain ⟨v1, v2⟩ := varRuns_bounds h hr hp hq l hne hl v hv
  have hu0 := unitOf_pos p
  have hu1 := unitOf_le hp
  rw [show (1 : ℚ) / 2 ^ p = unitOf p from rfl]
  have hlo : 0 < (1 - unitOf p) ^ (l.length + 4) := pow_pos (by linarith) _
  have hv0 : 0 ≤ v := (mul_nonneg hlo.le (meanSq_nonneg _ _)).trans v1
  unfold weightD
  split
  · rename_i h0
    refine .inl ⟨rfl, ?_⟩
    have hz : meanSq l (meanOf l) ≤ 0 := by
      rw [h0] at v1
      by_contra hc
      exact absurd v1 (not_le.2 (mul_pos hlo (not_le.1 hc)))
    have := meanSq_zero hz
    intro x hx y hy
    rw [this x hx, this y hy]
  · rename_i h0
    have hpos : 0 < v := lt_of_le_of_ne hv0 (Ne.symm h0)
    obtain ⟨w1, w2⟩ := twice h hr hp hq (show 0 ≤ 1 / v by positivity)
    have hw0 : 0 < rnd (rd (1 / v)) := lt_of_lt_of_le (mul_pos (pow_pos (by linarith) _) (by positivity)) w1
    refine .inr ⟨_, rfl, hw0, ?_, ?_⟩
    · rw [le_div_iff₀ hlo]
      calc rnd (rd (1 / v)) * meanSq l (meanOf l) * (1 - unitOf p) ^ (l.length + 4)
          = rnd (rd (1 / v)) * ((1 - unitOf p) ^ (l.length + 4) * meanSq l (meanOf l)) := by ring
        _ ≤ ((1 + unitOf p) ^ 2 * (1 / v)) * v :=
          mul_le_mul w2 v1 (mul_nonneg hlo.le (meanSq_nonneg _ _)) (by positivity)
        _ = _ := by field_simp
    · rw [div_le_iff₀ (by positivity)]
      generalize hM : meanSq l (meanOf l) + (((1 + unitOf p) ^ (l.length + 1) - 1) * meanOf (l.map abs)) ^ 2 = M at v2 ⊢
      calc (1 - unitOf p) ^ 2 = ((1 - unitOf p) ^ 2 * (1 / v)) * v := by field_simp
        _ ≤ rnd (rd (1 / v)) * ((1 + unitOf p) ^ (l.length + 4) * M) := mul_le_mul w1 v2 hv0 hw0.le
        _ = _ := by ring

end

/-! ### The masked fraction -/

theorem clipFracD_bounds (v : ℚ) : 0 ≤ clipFracD v ∧ clipFracD v ≤ 1 :=
  ⟨le_min (le_max_right _ _) zero_le_one, min_le_right _ _⟩

/-- Powers of `1 - u` from below. -/
theorem one_sub_pow (u : ℚ) (hu1 : u ≤ 1) (n : ℕ) : 1 - n * u ≤ (1 - u) ^ n := by
  have := one_add_mul_le_pow (show -2 ≤ -u by linarith) n
  rw [show 1 - u = 1 + -u by ring]
  linarith

/-- What rounding may add to a weighted mean of values of at most 1. -/
theorem frac_bound {uw up ua us : ℚ} (hw0 : 0 < uw) (hw : uw ≤ 1 / 2) (hp0 : 0 < up) (hp : up ≤ uw) (ha0 : 0 < ua) (ha : ua ≤ uw)
    (hs0 : 0 < us) (hs : us ≤ 1 / 2) (n : ℕ) (hn : 1 ≤ n) :
    ((1 + ua) * (1 + us)) ^ n * (1 + up) * (highOf uw n ^ 2 / lowOf uw n) ≤ 1 / ((1 - uw) ^ (5 * n + 1) * (1 - us) ^ n) := by
  have inv : ∀ u : ℚ, 0 < u → u ≤ 1 / 2 → 1 + u ≤ 1 / (1 - u) := by
    intro u h0 h1
    rw [le_div_iff₀ (by linarith)]
    nlinarith
  have hd : 0 < 1 - uw := by linarith
  have hds : 0 < 1 - us := by linarith
  have iw := inv uw hw0 hw
  have is' := inv us hs0 hs
  have ia : 1 + ua ≤ 1 / (1 - uw) := by linarith
  have ip : 1 + up ≤ 1 / (1 - uw) := by linarith
  obtain ⟨k, rfl⟩ : ∃ k, n = k + 1 := ⟨n - 1, by omega⟩
  have e1 : ((1 + ua) * (1 + us)) ^ (k + 1) ≤ (1 / (1 - uw) * (1 / (1 - us))) ^ (k + 1) :=
    pow_le_pow_left₀ (by positivity) (mul_le_mul ia is' (by positivity) (by positivity)) _
  have e2 : highOf uw (k + 1) ^ 2 / lowOf uw (k + 1) ≤ (1 / (1 - uw)) ^ (3 * k + 3) := by
    unfold highOf lowOf
    rw [Nat.add_sub_cancel]
    have hh : ((1 + uw) / (1 - uw) ^ k) ^ 2 / ((1 - uw) / (1 + uw) ^ k) = (1 + uw) ^ (k + 2) * ((1 / (1 - uw)) ^ (2 * k + 1)) := by
      rw [one_div_pow]
      field_simp
      ring
    rw [hh, show 3 * k + 3 = (k + 2) + (2 * k + 1) by ring, pow_add (1 / (1 - uw)) (k + 2) (2 * k + 1)]
    exact mul_le_mul_of_nonneg_right (pow_le_pow_left₀ (by positivity) iw _) (by positivity)
  have hlo : 0 < lowOf uw (k + 1) := div_pos hd (by positivity)
  calc _ ≤ (1 / (1 - uw) * (1 / (1 - us))) ^ (k + 1) * (1 / (1 - uw)) * (1 / (1 - uw)) ^ (3 * k + 3) :=
        mul_le_mul (mul_le_mul e1 ip (by positivity) (by positivity)) e2 (by positivity) (by positivity)
    _ = 1 / ((1 - uw) ^ (4 * k + 5) * (1 - us) ^ (k + 1)) := by
        rw [mul_pow, one_div_pow, one_div_pow, one_div_pow]
        field_simp
        ring
    _ ≤ _ := by
        refine one_div_le_one_div_of_le (by positivity) (mul_le_mul_of_nonneg_right ?_ (by positivity))
        exact pow_le_pow_of_le_one hd.le (by linarith) (by omega)

theorem writeExt_not_runtime {V : Type} (ext : String) (data : List V) (start : Nat) (fits : List (Hdu V)) :
    writeExt ext data start fits ≠ .error .runtimeError := by
  induction fits with
  | nil => simp [writeExt]
  | cons h l ih =>
    unfold writeExt
    split
    · split <;> simp
    · intro hc
      cases hw : writeExt ext data start l with
      | ok l' => rw [hw] at hc; cases hc
      | error e =>
        rw [hw] at hc
        apply ih
        rw [hw]
        cases hc
        rfl

/-- C133: the check for negative values never refuses a masked fraction or a weight map: they are not negative in
floating point arithmetic either, for any resampled fractions, positive weights and noise images. -/
theorem C133_not_refused (pw pp pa ps pc : ℕ) (hpw : 1 ≤ pw) (rw' rp ra rs rc : ℚ → ℚ)
    (hrw : Rounds pw rw') (hrp : Rounds pp rp) (hra : Rounds pa ra) (hrs : Rounds ps rs) (hrc : Rounds pc rc)
    (l l'' : List ℚ) (hl : ∀ w ∈ l, IsFloat pw w ∧ 0 < w) (hn : WeightRuns rw' l l'')
    (xss : List (List ℚ)) (nx : List ℚ) (hne : nx ≠ []) (hnx : ∀ x ∈ nx, IsFloat ps x) (hps : 1 ≤ ps)
    (q : ℕ) (hq : ps ≤ q) (rd : ℚ → ℚ) (hrd : Rounds q rd) (v : ℚ) (hv : VarRuns rs rd nx v)
    (fits : List (Hdu Flt)) (start k : Nat) :
    writeSingleImage (f4Ops rc) fits (xss.map fun xs => .fin (interpFracD rp ra rs (xs.zip l''))) MFRAC_EXT start MFRAC_EXT
      ≠ .error .runtimeError ∧
    writeSingleImage (f4Ops rc) fits (List.replicate k (weightD rs rd v)) WEIGHT_EXT start WEIGHT_EXT
      ≠ .error .runtimeError := by
  have hf := C131_weights pw hpw rw' hrw l l'' hl hn
  have hw : ∀ w ∈ l'', 0 ≤ w := by
    intro w hw
    obtain ⟨i, hi, rfl⟩ := List.mem_iff_getElem.1 hw
    exact ((List.forall₂_iff_get.1 hf).2 i (by rw [hf.length_eq]; exact hi) hi).1.le
  have hmf : cutoutDtype MFRAC_EXT = .ok .f4 := by decide +kernel
  have hwt : cutoutDtype WEIGHT_EXT = .ok .f4 := by decide +kernel
  constructor
  · unfold writeSingleImage
    rw [hmf]
    simp only [bind, Except.bind]
    rw [if_neg]
    · exact writeExt_not_runtime _ _ _ _
    rintro ⟨-, hc⟩
    obtain ⟨z, hz, hneg⟩ := List.any_eq_true.1 hc
    obtain ⟨y, hy, rfl⟩ := List.mem_map.1 hz
    obtain ⟨xs, -, rfl⟩ := List.mem_map.1 hy
    have h0 : 0 ≤ interpFracD rp ra rs (xs.zip l'') := by
      have hmap : (xs.zip l'').map (fun e => (clipFracD e.1, e.2)) = (xs.map clipFracD).zip l'' := by
        rw [List.zip_map_left]
        rfl
      unfold interpFracD
      rw [hmap]
      refine (C131_monotone pp pa ps rp ra rs hrp hra hrs l'' (xs.map clipFracD) (xs.map clipFracD) hw
        (List.forall₂_same.2 fun _ _ => le_rfl)).2.1 ?_
      intro x hx
      obtain ⟨y, -, rfl⟩ := List.mem_map.1 hx
      exact (clipFracD_bounds y).1
    simp only [f4Ops, Flt.isNeg, decide_eq_true_eq] at hneg
    exact absurd hneg (not_lt.2 (hrc.nonneg h0))
  · unfold writeSingleImage
    rw [hwt]
    simp only [bind, Except.bind]
    rw [if_neg]
    · exact writeExt_not_runtime _ _ _ _
    rintro ⟨-, hc⟩
    obtain ⟨z, hz, hneg⟩ := List.any_eq_true.1 hc
    obtain ⟨y, hy, rfl⟩ := List.mem_map.1 hz
    obtain rfl := List.eq_of_mem_replicate hy
    rcases C133_weight ps q hps hq rs rd hrs hrd nx hne hnx v hv with ⟨hi, -⟩ | ⟨w, hw, h0, -⟩
    · rw [hi] at hneg
      simp [f4Ops, Flt.isNeg] at hneg
    · rw [hw] at hneg
      simp only [f4Ops, Flt.isNeg, decide_eq_true_eq] at hneg
      exact absurd hneg (not_lt.2 (hrc.nonneg h0.le))

/-- C133: with images in single precision and up to a million epochs, the masked fraction of a pixel, computed in double
precision and stored in single precision after each epoch, lies between 0 and 1 up to rounding.  Missing: that it is at
most 1, which fails (`C133_above_one_fails`). -/
theorem C133_fraction_partial (rw' rp ra rs : ℚ → ℚ) (hrw : Rounds 53 rw') (hrp : Rounds 53 rp) (hra : Rounds 53 ra)
    (hrs : Rounds 24 rs) (xs l l'' : List ℚ) (hl : ∀ w ∈ l, IsFloat 53 w ∧ 0 < w) (hlen : xs.length = l.length)
    (hne : l ≠ []) (hmax : l.length ≤ 2 ^ 20) (hn : WeightRuns rw' l l'') :
    0 ≤ interpFracD rp ra rs (xs.zip l'') ∧
    interpFracD rp ra rs (xs.zip l'') ≤ 1 / (1 - (l.length + 1) / 2 ^ 24) := by
  obtain ⟨h0, h1⟩ := C131_interp_frac 53 53 53 24 (by norm_num) (by norm_num) (by norm_num) (by norm_num) rw' rp ra rs hrw hrp
    hra hrs xs l l'' hl hlen hn
  refine ⟨h0, h1.trans ((frac_bound (unitOf_pos 53) (unitOf_le (by norm_num)) (unitOf_pos 53) le_rfl (unitOf_pos 53) le_rfl
    (unitOf_pos 24) (unitOf_le (by norm_num)) l.length (List.length_pos_iff.2 hne)).trans ?_)⟩
  have hN : (l.length : ℚ) ≤ 2 ^ 20 := by exact_mod_cast hmax
  have hN0 : (0 : ℚ) ≤ l.length := Nat.cast_nonneg _
  have e53 : unitOf 53 = 1 / 2 ^ 53 := rfl
  have e24 : unitOf 24 = 1 / 2 ^ 24 := rfl
  have a1 : 1 - unitOf 24 ≤ (1 - unitOf 53) ^ (5 * l.length + 1) := by
    refine le_trans ?_ (one_sub_pow (unitOf 53) (by rw [e53]; norm_num) _)
    push_cast
    rw [e53, e24]
    linarith
  have a2 := one_sub_pow (unitOf 24) (by rw [e24]; norm_num) (l.length + 1)
  push_cast at a2
  refine one_div_le_one_div_of_le (by linarith) ?_
  have h24 : 0 < 1 - unitOf 24 := by rw [e24]; norm_num
  calc 1 - ((l.length : ℚ) + 1) / 2 ^ 24 ≤ (1 - unitOf 24) ^ (l.length + 1) := by
        refine le_trans (le_of_eq ?_) a2
        rw [e24]
        ring
    _ = (1 - unitOf 24) * (1 - unitOf 24) ^ l.length := by ring
    _ ≤ _ := mul_le_mul_of_nonneg_right a1 (by positivity)

/-- C133: with images in double precision the masked fraction of a pixel is between 0 and 1 once written in single
precision, for up to a million epochs. -/
theorem C133_fraction_double (rw' rp ra rs rc : ℚ → ℚ) (hrw : Rounds 53 rw') (hrp : Rounds 53 rp) (hra : Rounds 53 ra)
    (hrs : Rounds 53 rs) (hrc : Rounds 24 rc) (xs l l'' : List ℚ) (hl : ∀ w ∈ l, IsFloat 53 w ∧ 0 < w)
    (hlen : xs.length = l.length) (hne : l ≠ []) (hmax : l.length ≤ 2 ^ 20) (hn : WeightRuns rw' l l'') :
    ∃ y, (f4Ops rc).cast .f4 (.fin (interpFracD rp ra rs (xs.zip l''))) = .fin y ∧ 0 ≤ y ∧ y ≤ 1 := by
  obtain ⟨h0, h1⟩ := C131_interp_frac 53 53 53 53 (by norm_num) (by norm_num) (by norm_num) (by norm_num) rw' rp ra rs hrw hrp
    hra hrs xs l l'' hl hlen hn
  refine ⟨_, rfl, hrc.nonneg h0, ?_⟩
  have hb := h1.trans (frac_bound (unitOf_pos 53) (unitOf_le (by norm_num)) (unitOf_pos 53) le_rfl (unitOf_pos 53) le_rfl
    (unitOf_pos 53) (unitOf_le (by norm_num)) l.length (List.length_pos_iff.2 hne))
  have hN : (l.length : ℚ) ≤ 2 ^ 20 := by exact_mod_cast hmax
  have e53 : unitOf 53 = 1 / 2 ^ 53 := rfl
  have a1 := one_sub_pow (unitOf 53) (by rw [e53]; norm_num) (5 * l.length + 1 + l.length)
  have h2 : interpFracD rp ra rs (xs.zip l'') ≤ 1 + 1 / 2 ^ 26 := by
    refine hb.trans ?_
    rw [← pow_add]
    have hp : (0 : ℚ) < (1 - unitOf 53) ^ (5 * l.length + 1 + l.length) := pow_pos (by rw [e53]; norm_num) _
    rw [div_le_iff₀ hp]
    push_cast at a1
    rw [e53] at a1 ⊢
    have : (1 : ℚ) ≤ (1 + 1 / 2 ^ 26) * (1 - (5 * l.length + 1 + l.length) * (1 / 2 ^ 53)) := by
      norm_num
      nlinarith
    exact this.trans (mul_le_mul_of_nonneg_left a1 (by norm_num))
  have h3 : rc (1 + 1 / 2 ^ 26) = 1 := by
    have := hrc.eq (x := 1 + 1 / 2 ^ 26) (by norm_num) (2 ^ 24) (-24) (by norm_num) (by norm_num) (by norm_num)
    rw [this]
    norm_num
  rw [← h3]
  exact hrc.mono h2

/-- Ten epochs of equal weight. -/
theorem tenth_weights (rw' : ℚ → ℚ) (hrw : Rounds 53 rw') (l'' : List ℚ) (hn : WeightRuns rw' (List.replicate 10 1) l'') :
    l''.length = 10 ∧ ∀ w ∈ l'', |w - 1 / 10| ≤ 1 / 10 ^ 14 := by
  have hl : ∀ w ∈ List.replicate 10 (1 : ℚ), IsFloat 53 w ∧ 0 < w := by
    intro w hw
    rw [List.eq_of_mem_replicate hw]
    exact ⟨by simpa using isFloat_int (p := 53) (n := 1) (by norm_num), by norm_num⟩
  have hf := C131_weights 53 (by norm_num) rw' hrw _ l'' hl hn
  refine ⟨by simpa using hf.length_eq.symm, ?_⟩
  intro w hw
  obtain ⟨i, hi, rfl⟩ := List.mem_iff_getElem.1 hw
  obtain ⟨-, -, b1, b2⟩ := (List.forall₂_iff_get.1 hf).2 i (by rw [hf.length_eq]; exact hi) hi
  simp only [List.get_eq_getElem, List.getElem_replicate, List.length_replicate, List.sum_replicate, nsmul_eq_mul] at b1 b2
  unfold lowOf highOf unitOf at b1 b2
  norm_num at b1 b2
  rw [abs_le]
  constructor <;> linarith

/-- One step of the sum: a value of single precision after another. -/
theorem tenth_step (rp ra rs : ℚ → ℚ) (hrp : Rounds 53 rp) (hra : Rounds 53 ra) (hrs : Rounds 24 rs) (acc w : ℚ)
    (h0 : 0 ≤ acc) (h1 : acc ≤ 1) (hw : |w - 1 / 10| ≤ 1 / 10 ^ 14) (m e : ℤ) (hm1 : 2 ^ 23 < m) (hm2 : m ≤ 2 ^ 24)
    (hx : |acc + 1 / 10 - m * (2 : ℚ) ^ e| ≤ 2 ^ e / 2 - 1 / 10 ^ 13) :
    rs (ra (acc + rp (1 * w))) = m * (2 : ℚ) ^ e := by
  have e53 : unitOf 53 = 1 / 2 ^ 53 := rfl
  obtain ⟨w1, w2⟩ := abs_le.1 hw
  obtain ⟨x1, x2⟩ := abs_le.1 hx
  have hw0 : 0 ≤ 1 * w := by linarith
  obtain ⟨p1, p2⟩ := hrp.between (by norm_num) hw0
  have hp0 := hrp.nonneg hw0
  obtain ⟨a1, a2⟩ := hra.between (by norm_num) (show 0 ≤ acc + rp (1 * w) by linarith)
  rw [e53] at p1 p2 a1 a2
  refine hrs.eq (by norm_num) m e hm1 hm2 (abs_lt.2 ⟨?_, ?_⟩) <;> norm_num at * <;> linarith

/-- C133 fails for images in single precision: ten epochs of equal weight whose pixel is interpolated everywhere give a
masked fraction of `1 + 2⁻²³`, above 1, in every order of the sums and with every rounding to nearest. -/
theorem C133_above_one_fails (rw' rp ra rs rc : ℚ → ℚ) (hrw : Rounds 53 rw') (hrp : Rounds 53 rp) (hra : Rounds 53 ra)
    (hrs : Rounds 24 rs) (hrc : Rounds 24 rc) (l'' : List ℚ) (hn : WeightRuns rw' (List.replicate 10 1) l'') :
    (f4Ops rc).cast .f4 (.fin (interpFracD rp ra rs ((List.replicate 10 1).zip l''))) = .fin (1 + 1 / 2 ^ 23) := by
  obtain ⟨hlen, hw⟩ := tenth_weights rw' hrw l'' hn
  match l'', hlen, hw with
  | [w0, w1, w2, w3, w4, w5, w6, w7, w8, w9], _, hw =>
    simp only [List.mem_cons, List.not_mem_nil, or_false, forall_eq_or_imp, forall_eq] at hw
    obtain ⟨g0, g1, g2, g3, g4, g5, g6, g7, g8, g9⟩ := hw
    have hc : clipFracD 1 = 1 := by norm_num [clipFracD]
    have st := tenth_step rp ra rs hrp hra hrs
    have key : interpFracD rp ra rs ((List.replicate 10 1).zip [w0, w1, w2, w3, w4, w5, w6, w7, w8, w9]) = 1 + 1 / 2 ^ 23 := by
      simp only [interpFracD, List.replicate, List.zip_cons_cons, List.zip_nil_left, List.map_cons, List.map_nil, hc, coaddPixelD]
      rw [st _ w0 (by norm_num) (by norm_num) g0 13421773 (-27) (by norm_num) (by norm_num) (by norm_num [abs_le])]
      rw [st _ w1 (by norm_num) (by norm_num) g1 13421773 (-26) (by norm_num) (by norm_num) (by norm_num [abs_le])]
      rw [st _ w2 (by norm_num) (by norm_num) g2 10066330 (-25) (by norm_num) (by norm_num) (by norm_num [abs_le])]
      rw [st _ w3 (by norm_num) (by norm_num) g3 13421773 (-25) (by norm_num) (by norm_num) (by norm_num [abs_le])]
      rw [st _ w4 (by norm_num) (by norm_num) g4 16777216 (-25) (by norm_num) (by norm_num) (by norm_num [abs_le])]
      rw [st _ w5 (by norm_num) (by norm_num) g5 10066330 (-24) (by norm_num) (by norm_num) (by norm_num [abs_le])]
      rw [st _ w6 (by norm_num) (by norm_num) g6 11744052 (-24) (by norm_num) (by norm_num) (by norm_num [abs_le])]
      rw [st _ w7 (by norm_num) (by norm_num) g7 13421774 (-24) (by norm_num) (by norm_num) (by norm_num [abs_le])]
      rw [st _ w8 (by norm_num) (by norm_num) g8 15099496 (-24) (by norm_num) (by norm_num) (by norm_num [abs_le])]
      rw [st _ w9 (by norm_num) (by norm_num) g9 8388609 (-23) (by norm_num) (by norm_num) (by norm_num [abs_le])]
      norm_num
    rw [key]
    show Flt.fin (rc (1 + 1 / 2 ^ 23)) = _
    rw [hrc.exact]
    exact ⟨2 ^ 23 + 1, -23, by norm_num, by norm_num⟩

/-- Every array has a computed variance. -/
theorem exists_varRuns (rnd rd : ℚ → ℚ) (l : List ℚ) : ∃ v, VarRuns rnd rd l v := by
  obtain ⟨s, hs⟩ := exists_sumRuns rnd l
  obtain ⟨t, ht⟩ := exists_sumRuns rnd
    (l.map fun x => rnd (rnd (x - rnd (rd (s / l.length))) * rnd (x - rnd (rd (s / l.length)))))
  exact ⟨_, s, t, _, hs, rfl, ht, rfl⟩

/-- The hypotheses of `C133_weight` and `C133_not_refused` are met, with noise that varies and a finite weight. -/
example : ∃ rnd rd, Rounds 24 rnd ∧ Rounds 53 rd ∧ ∃ v, VarRuns rnd rd [1, 2] v ∧ (∀ x ∈ [(1 : ℚ), 2], IsFloat 24 x) ∧
    ∃ w, weightD rnd rd v = .fin w ∧ 0 < w := by
  obtain ⟨rnd, h⟩ := exists_rounds 24 (by norm_num)
  obtain ⟨rd, hr⟩ := exists_rounds 53 (by norm_num)
  obtain ⟨v, hv⟩ := exists_varRuns rnd rd [1, 2]
  have hl : ∀ x ∈ [(1 : ℚ), 2], IsFloat 24 x := by
    intro x hx
    simp only [List.mem_cons, List.not_mem_nil, or_false] at hx
    rcases hx with rfl | rfl
    · simpa using isFloat_int (p := 24) (n := 1) (by norm_num)
    · simpa using isFloat_int (p := 24) (n := 2) (by norm_num)
  refine ⟨rnd, rd, h, hr, v, hv, hl, ?_⟩
  rcases C133_weight 24 53 (by norm_num) (by norm_num) rnd rd h hr [1, 2] (by simp) hl v hv with ⟨-, hc⟩ | ⟨w, h1, h2, -⟩
  · exact absurd (hc 1 (by simp) 2 (by simp)) (by norm_num)
  · exact ⟨w, h1, h2⟩

/-- The hypotheses of `C133_not_refused`, `C133_fraction_partial` and `C133_above_one_fails` are met. -/
example : ∃ r53 r24, Rounds 53 r53 ∧ Rounds 24 r24 ∧ (∀ w ∈ List.replicate 10 (1 : ℚ), IsFloat 53 w ∧ 0 < w) ∧
    ∃ l'', WeightRuns r53 (List.replicate 10 1) l'' ∧
      interpFracD r53 r53 r24 ((List.replicate 10 1).zip l'') = 1 + 1 / 2 ^ 23 := by
  obtain ⟨r53, h⟩ := exists_rounds 53 (by norm_num)
  obtain ⟨r24, h'⟩ := exists_rounds 24 (by norm_num)
  obtain ⟨l'', hl⟩ := exists_weightRuns r53 (List.replicate 10 1)
  refine ⟨r53, r24, h, h', ?_, l'', hl, ?_⟩
  · intro w hw
    rw [List.eq_of_mem_replicate hw]
    exact ⟨by simpa using isFloat_int (p := 53) (n := 1) (by norm_num), by norm_num⟩
  have := C133_above_one_fails r53 r53 r53 r24 r24 h h h h' h' l'' hl
  simp only [f4Ops, Flt.fin.injEq] at this
  rw [← this, h'.exact]
  match l'', (tenth_weights r53 h l'' hl).1 with
  | [w0, w1, w2, w3, w4, w5, w6, w7, w8, w9], _ => exact h'.float _

/-- The hypotheses of `C133_fraction_double` are met by epochs of different weights. -/
example : ∃ r53 r24, Rounds 53 r53 ∧ Rounds 24 r24 ∧ (∀ w ∈ [(1 : ℚ), 3], IsFloat 53 w ∧ 0 < w) ∧
    ([(1 : ℚ), 1 / 2].length = [(1 : ℚ), 3].length) ∧ ∃ l'', WeightRuns r53 [1, 3] l'' := by
  obtain ⟨r53, h⟩ := exists_rounds 53 (by norm_num)
  obtain ⟨r24, h'⟩ := exists_rounds 24 (by norm_num)
  refine ⟨r53, r24, h, h', ?_, rfl, exists_weightRuns r53 [1, 3]⟩
  intro x hx
  simp only [List.mem_cons, List.not_mem_nil, or_false] at hx
  rcases hx with rfl | rfl
  · exact ⟨by simpa using isFloat_int (p := 53) (n := 1) (by norm_num), by norm_num⟩
  · exact ⟨by simpa using isFloat_int (p := 53) (n := 3) (by norm_num), by norm_num⟩

end Pizza
