import Verif.Model.DoubleScale
import Verif.Props.DoubleAffine

/-! C137: calibrated images and normalised PSFs in floating point arithmetic. -/

namespace Pizza

section
variable {p q : ℕ} {rnd rc rd : ℚ → ℚ}

theorem Rounds.sign (h : Rounds p rnd) (hp : 1 ≤ p) (x : ℚ) : (0 < rnd x ↔ 0 < x) ∧ (rnd x < 0 ↔ x < 0) ∧ (rnd x = 0 ↔ x = 0) := by
  have e0 : rnd x = 0 ↔ x = 0 := ⟨h.eq_zero hp, fun hx => by rw [hx, h.zero]⟩
  have e1 : 0 < rnd x ↔ 0 < x := by
    refine ⟨fun hx => ?_, h.pos hp⟩
    by_contra hn
    have := h.mono (not_lt.1 hn)
    rw [h.zero] at this
    linarith
  refine ⟨e1, ?_, e0⟩
  constructor
  · intro hx
    by_contra hn
    have := h.nonneg (not_lt.1 hn)
    linarith
  · intro hx
    have := h.mono hx.le
    rw [h.zero] at this
    exact lt_of_le_of_ne this fun hz => hx.ne (e0.1 hz)

/-- C137: the calibrated image has the sign of the difference to the background, is 0 exactly where there is none, and
is within rounding of the difference times the scale. -/
theorem C137_image (hp : 10 ≤ p) (hq : p ≤ q) (h : Rounds p rnd) (hc : Rounds q rc) (im bkg scale : ℚ) (hs : 0 < scale) :
    (0 < calImageD rnd rc im bkg scale ↔ bkg < im) ∧ (calImageD rnd rc im bkg scale < 0 ↔ im < bkg) ∧
    (calImageD rnd rc im bkg scale = 0 ↔ im = bkg) ∧
    |calImageD rnd rc im bkg scale - (im - bkg) * scale| ≤ 4 / 2 ^ p * |(im - bkg) * scale| := by
  have hp1 : 1 ≤ p := by omega
  have hsc : 0 < rc scale := hc.pos (hp1.trans hq) hs
  obtain ⟨a1, a2, a3⟩ := h.sign hp1 (rnd (im - bkg) * rc scale)
  obtain ⟨b1, b2, b3⟩ := h.sign hp1 (im - bkg)
  unfold calImageD
  refine ⟨?_, ?_, ?_, ?_⟩
  · rw [a1, mul_pos_iff_of_pos_right hsc, b1, sub_pos]
  · rw [a2, mul_neg_iff, b2, sub_neg]
    exact ⟨fun hx => hx.elim (fun hx => absurd hx.2 (not_lt.2 hsc.le)) fun hx => hx.1, fun hx => .inr ⟨hx, hsc⟩⟩
  · rw [a3, mul_eq_zero, or_iff_left hsc.ne', b3, sub_eq_zero]
  · have hu0 := unitOf_pos p
    have hu1 := unitOf_ten hp
    have n := ((Near.round' h hp1 (im - bkg)).mul hu0.le
      ((Near.refl (unitOf p) scale).round_fine hc hp1 hq)).round h hp1
    rw [← abs_mul] at n
    refine n.1.trans (mul_le_mul_of_nonneg_right ?_ (abs_nonneg _))
    rw [show (4 : ℚ) / 2 ^ p = 4 * unitOf p by unfold unitOf; ring,
      show (1 + unitOf p) ^ (1 + (0 + 1) + 1) - 1 = unitOf p * (3 + unitOf p * (3 + unitOf p)) by ring]
    have : unitOf p * (3 + unitOf p) ≤ 1 := by nlinarith
    nlinarith

theorem calWeightD_bounds (hp : 10 ≤ p) (hq : p ≤ q) (h : Rounds p rnd) (hc : Rounds q rc) (hd : Rounds q rd) {w scale : ℚ}
    (hs : 0 < scale) (hw : 0 ≤ w) :
    (1 - unitOf p) / (1 + unitOf p) ^ 2 * (w / scale ^ 2) ≤ calWeightD rnd rc rd w scale ∧
      calWeightD rnd rc rd w scale ≤ (1 + unitOf p) / (1 - unitOf p) ^ 2 * (w / scale ^ 2) := by
  have hp1 : 1 ≤ p := by omega
  have hu0 := unitOf_pos p
  have hu1 := unitOf_ten hp
  have hss : 0 < scale * scale := mul_pos hs hs
  obtain ⟨d1, d2⟩ := hd.between_fine hp1 hq hss.le
  have hd0 : 0 < rd (scale * scale) := hd.pos (hp1.trans hq) hss
  obtain ⟨c1, c2⟩ := hc.between_fine hp1 hq hd0.le
  obtain ⟨s, hS⟩ : ∃ s, s = rc (rd (scale * scale)) := ⟨_, rfl⟩
  have hs0 : 0 < s := hS ▸ hc.pos (hp1.trans hq) hd0
  rw [← hS] at c1 c2
  have l1 : (1 - unitOf p) ^ 2 * scale ^ 2 ≤ s := by
    have := mul_le_mul_of_nonneg_left d1 (show 0 ≤ 1 - unitOf p by linarith)
    linarith [show (1 - unitOf p) ^ 2 * scale ^ 2 = (1 - unitOf p) * ((1 - unitOf p) * (scale * scale)) by ring]
  have l2 : s ≤ (1 + unitOf p) ^ 2 * scale ^ 2 := by
    have := mul_le_mul_of_nonneg_left d2 (show 0 ≤ 1 + unitOf p by linarith)
    linarith [show (1 + unitOf p) ^ 2 * scale ^ 2 = (1 + unitOf p) * ((1 + unitOf p) * (scale * scale)) by ring]
  unfold calWeightD
  rw [← hS]
  obtain ⟨r1, r2⟩ := h.between hp1 (div_nonneg hw hs0.le)
  have hl : 0 < (1 - unitOf p) ^ 2 * scale ^ 2 := mul_pos (pow_pos (by linarith) 2) (by positivity)
  constructor
  · refine le_trans ?_ r1
    rw [div_mul_div_comm, mul_div_assoc']
    exact div_le_div_of_nonneg_left (mul_nonneg (by linarith) hw) hs0 l2
  · refine r2.trans ?_
    rw [div_mul_div_comm, mul_div_assoc']
    exact div_le_div_of_nonneg_left (mul_nonneg (by linarith) hw) hl l1

/-- C137: the weight is 0 exactly where it was, positive exactly where it was, and within rounding of the weight divided
by the square of the scale. -/
theorem C137_weight (hp : 10 ≤ p) (hq : p ≤ q) (h : Rounds p rnd) (hc : Rounds q rc) (hd : Rounds q rd) (w scale : ℚ)
    (hs : 0 < scale) :
    (0 < calWeightD rnd rc rd w scale ↔ 0 < w) ∧ (calWeightD rnd rc rd w scale = 0 ↔ w = 0) ∧
    (0 ≤ w → |calWeightD rnd rc rd w scale - w / scale ^ 2| ≤ 4 / 2 ^ p * (w / scale ^ 2)) := by
  have hp1 : 1 ≤ p := by omega
  have hu0 := unitOf_pos p
  have hu1 := unitOf_ten hp
  have hs0 : 0 < rc (rd (scale * scale)) :=
    hc.pos (hp1.trans hq) (hd.pos (hp1.trans hq) (mul_pos hs hs))
  obtain ⟨a1, a2, a3⟩ := h.sign hp1 (w / rc (rd (scale * scale)))
  refine ⟨?_, ?_, fun hw => ?_⟩
  · unfold calWeightD; rw [a1, div_pos_iff_of_pos_right hs0]
  · unfold calWeightD; rw [a3, div_eq_zero_iff, or_iff_left hs0.ne']
  · obtain ⟨b1, b2⟩ := calWeightD_bounds hp hq h hc hd hs hw
    have hv : 0 ≤ w / scale ^ 2 := by positivity
    have e1 : (1 + unitOf p) / (1 - unitOf p) ^ 2 ≤ 1 + 4 * unitOf p := by
      rw [div_le_iff₀ (pow_pos (by linarith) 2)]
      nlinarith [mul_pos hu0 hu0, mul_pos hu0 (mul_pos hu0 hu0)]
    have e2 : 1 - 4 * unitOf p ≤ (1 - unitOf p) / (1 + unitOf p) ^ 2 := by
      rw [le_div_iff₀ (pow_pos (by linarith) 2)]
      nlinarith [mul_pos hu0 hu0, mul_pos hu0 (mul_pos hu0 hu0)]
    rw [show (4 : ℚ) / 2 ^ p = 4 * unitOf p by unfold unitOf; ring, abs_le]
    constructor
    · have := mul_le_mul_of_nonneg_right e2 hv
      linarith
    · have := mul_le_mul_of_nonneg_right e1 hv
      linarith

/-- C137: signal to noise.  The square of the image times its weight is that of the image as read, to 13 units of
rounding, whatever the scale. -/
theorem C137_signal_to_noise (hp : 10 ≤ p) (hq : p ≤ q) (h : Rounds p rnd) (hc : Rounds q rc) (hd : Rounds q rd)
    (im bkg w scale : ℚ) (hs : 0 < scale) (hw : 0 ≤ w) :
    |calImageD rnd rc im bkg scale ^ 2 * calWeightD rnd rc rd w scale - (im - bkg) ^ 2 * w| ≤
      13 / 2 ^ p * ((im - bkg) ^ 2 * w) := by
  have hu0 := unitOf_pos p
  have hu1 := unitOf_ten hp
  obtain ⟨-, -, -, hi⟩ := C137_image hp hq h hc im bkg scale hs
  obtain ⟨-, -, hwt⟩ := C137_weight hp hq h hc hd w scale hs
  have hwt := hwt hw
  rw [show (4 : ℚ) / 2 ^ p = 4 * unitOf p by unfold unitOf; ring] at hi hwt
  rw [show (13 : ℚ) / 2 ^ p = 13 * unitOf p by unfold unitOf; ring]
  obtain ⟨u, hu⟩ : ∃ u, u = unitOf p := ⟨_, rfl⟩
  obtain ⟨I, hI⟩ : ∃ I, I = calImageD rnd rc im bkg scale := ⟨_, rfl⟩
  obtain ⟨W, hW⟩ : ∃ W, W = calWeightD rnd rc rd w scale := ⟨_, rfl⟩
  rw [← hu] at hu0 hu1 hi hwt ⊢
  rw [← hI] at hi ⊢
  rw [← hW] at hwt ⊢
  obtain ⟨t, ht⟩ : ∃ t, t = (im - bkg) * scale := ⟨_, rfl⟩
  obtain ⟨v, hv⟩ : ∃ v, v = w / scale ^ 2 := ⟨_, rfl⟩
  have hv0 : 0 ≤ v := by rw [hv]; positivity
  rw [show (im - bkg) ^ 2 * w = t ^ 2 * v by rw [ht, hv]; field_simp]
  rw [← ht] at hi
  rw [← hv] at hwt
  have i2 : |I ^ 2 - t ^ 2| ≤ 8.02 * u * t ^ 2 := by
    have e1 : |I| ≤ (1 + 4 * u) * |t| := by
      have := abs_add_le (I - t) t
      rw [sub_add_cancel] at this
      linarith
    have e2 : |I + t| ≤ (2 + 4 * u) * |t| := by
      have := abs_add_le I t
      linarith
    rw [show I ^ 2 - t ^ 2 = (I - t) * (I + t) by ring, abs_mul]
    calc |I - t| * |I + t| ≤ 4 * u * |t| * ((2 + 4 * u) * |t|) :=
          mul_le_mul hi e2 (abs_nonneg _) (by positivity)
      _ = (8 + 16 * u) * u * (|t| * |t|) := by ring
      _ ≤ 8.02 * u * t ^ 2 := by
          rw [abs_mul_abs_self, ← sq]
          refine mul_le_mul_of_nonneg_right ?_ (sq_nonneg t)
          nlinarith
  have W1 : |W| ≤ (1 + 4 * u) * v := by
    have := abs_add_le (W - v) v
    rw [sub_add_cancel, abs_of_nonneg hv0] at this
    linarith
  rw [show I ^ 2 * W - t ^ 2 * v = (I ^ 2 - t ^ 2) * W + t ^ 2 * (W - v) by ring]
  refine (abs_add_le _ _).trans ?_
  rw [abs_mul, abs_mul, abs_of_nonneg (sq_nonneg t)]
  have f1 : |I ^ 2 - t ^ 2| * |W| ≤ 8.02 * u * t ^ 2 * ((1 + 4 * u) * v) :=
    mul_le_mul i2 W1 (abs_nonneg _) (by positivity)
  have f2 : t ^ 2 * |W - v| ≤ t ^ 2 * (4 * u * v) := mul_le_mul_of_nonneg_left hwt (sq_nonneg t)
  have f3 : 0 ≤ u * (t ^ 2 * v) := by positivity
  have f4 : 8.02 * u * t ^ 2 * ((1 + 4 * u) * v) ≤ 9 * (u * (t ^ 2 * v)) := by
    have : 8.02 * (1 + 4 * u) ≤ 9 := by linarith
    nlinarith
  linarith

/-- A `float32` image with a scale in double precision that is converted to `float32`. -/
example : ∃ rnd rd, Rounds 24 rnd ∧ Rounds 53 rd ∧
    |calImageD rnd rnd 103 3 (5 / 4) ^ 2 * calWeightD rnd rnd rd (1 / 7) (5 / 4) - 100 ^ 2 * (1 / 7)| ≤ 1 / 500 := by
  obtain ⟨rnd, h⟩ := exists_rounds 24 (by norm_num)
  obtain ⟨rd, hd⟩ := exists_rounds 53 (by norm_num)
  refine ⟨rnd, rd, h, hd, ?_⟩
  have e : rd (5 / 4 * (5 / 4)) = rnd (5 / 4 * (5 / 4)) := by
    rw [hd.exact ⟨25, -4, by norm_num, by norm_num⟩, h.exact ⟨25, -4, by norm_num, by norm_num⟩]
  have := C137_signal_to_noise (by norm_num) le_rfl h h h 103 3 (1 / 7) (5 / 4) (by norm_num) (by norm_num)
  rw [calWeightD, e, ← calWeightD.eq_def rnd rnd rnd, show (103 : ℚ) - 3 = 100 by norm_num] at *
  refine this.trans ?_
  norm_num

/-- `C137_image` and `C137_weight`: a pixel just above the background stays above it, a weight of 0 stays 0. -/
example : ∃ rnd rd, Rounds 24 rnd ∧ Rounds 53 rd ∧ 0 < calImageD rnd rd (103 / 10) (10299999 / 1000000) (5 / 4) ∧
    calWeightD rnd rd rd 0 (5 / 4) = 0 := by
  obtain ⟨rnd, h⟩ := exists_rounds 24 (by norm_num)
  obtain ⟨rd, hd⟩ := exists_rounds 53 (by norm_num)
  exact ⟨rnd, rd, h, hd, (C137_image (by norm_num) (by norm_num) h hd _ _ _ (by norm_num)).1.2 (by norm_num),
    (C137_weight (by norm_num) (by norm_num) h hd hd _ _ (by norm_num)).2.1.2 rfl⟩

/-- C137: a normalised PSF image adds up to 1 to rounding, and its pixels keep their signs and, to rounding, their
shares, provided that the sum is not lost by cancellation. -/
theorem C137_psf (hp : 1 ≤ p) (h : Rounds p rnd) (l l' : List ℚ) (hl : ∀ v ∈ l, IsFloat p v) (hpos : 0 < l.sum)
    (hcan : ((1 + 1 / 2 ^ p) ^ (l.length - 1) - 1) * (l.map abs).sum ≤ l.sum / 2) (hn : PsfRuns rnd l l') :
    |l'.sum - 1| ≤ 2 * ((1 + 1 / 2 ^ p) ^ l.length - 1) * ((l.map abs).sum / l.sum) ∧
    List.Forall₂ (fun v v' => IsFloat p v' ∧ (0 < v' ↔ 0 < v) ∧ (v' = 0 ↔ v = 0) ∧
      |v' - v / l.sum| ≤ 2 * ((1 + 1 / 2 ^ p) ^ l.length - 1) * ((l.map abs).sum / l.sum) * (|v| / l.sum)) l l' := by
  obtain ⟨s, hs, rfl⟩ := hn
  have hu : (1 : ℚ) / 2 ^ p = unitOf p := rfl
  rw [hu] at hcan ⊢
  have hu0 := unitOf_pos p
  obtain ⟨S, hS⟩ : ∃ S, S = l.sum := ⟨_, rfl⟩
  obtain ⟨A, hA⟩ : ∃ A, A = (l.map abs).sum := ⟨_, rfl⟩
  have nr := sumRuns_near h hp hs hl
  rw [← hS, ← hA] at nr hcan ⊢
  rw [← hS] at hpos
  obtain ⟨g, hg⟩ : ∃ g, g = (1 + unitOf p) ^ (l.length - 1) - 1 := ⟨_, rfl⟩
  have hg0 : 0 ≤ g := by
    have := one_le_pow₀ (n := l.length - 1) (show (1 : ℚ) ≤ 1 + unitOf p by linarith)
    linarith
  obtain ⟨n1, n2⟩ := nr
  rw [← hg] at n1 hcan
  have hlen : 0 < l.length := by
    rcases l with _ | ⟨a, l⟩
    · simp at hS; linarith
    · simp
  have hpow : (1 + unitOf p) ^ l.length - 1 = g + unitOf p * (1 + g) := by
    obtain ⟨k, hk⟩ : ∃ k, l.length = k + 1 := ⟨l.length - 1, by omega⟩
    rw [hg, hk, Nat.add_sub_cancel, pow_succ]
    ring
  have hSA : S ≤ A := (le_abs_self S).trans n2
  have hA0 : 0 < A := hpos.trans_le hSA
  obtain ⟨n3, n4⟩ := abs_le.1 n1
  have hs2 : S / 2 ≤ s := by linarith
  have hs0 : 0 < s := by linarith
  have key : ∀ x : ℚ, 0 ≤ x → x / s ≤ 2 * (x / S) := fun x hx => by
    rw [← mul_div_assoc, div_le_div_iff₀ hs0 hpos]
    nlinarith
  rw [hpow]
  constructor
  · have err : ∀ m : List ℚ, |(m.map fun v => rnd (v / s)).sum - m.sum / s| ≤ unitOf p * ((m.map abs).sum / s) := by
      intro m
      induction m with
      | nil => simp
      | cons v m ih =>
        simp only [List.map_cons, List.sum_cons]
        have e1 := h.err hp (v / s)
        rw [abs_div, abs_of_pos hs0] at e1
        have e2 := abs_add_le (rnd (v / s) - v / s) ((m.map fun v => rnd (v / s)).sum - m.sum / s)
        rw [show rnd (v / s) - v / s + ((m.map fun v => rnd (v / s)).sum - m.sum / s) =
          rnd (v / s) + (m.map fun v => rnd (v / s)).sum - (v + m.sum) / s by ring] at e2
        rw [show unitOf p * ((|v| + (m.map abs).sum) / s) = unitOf p * (|v| / s) + unitOf p * ((m.map abs).sum / s) by ring]
        linarith
    have e := err l
    rw [← hS, ← hA] at e
    have e2 : |S / s - 1| ≤ g * A / s := by
      rw [show S / s - 1 = (S - s) / s by field_simp, abs_div, abs_of_pos hs0, abs_sub_comm]
      exact div_le_div_of_nonneg_right n1 hs0.le
    have e3 := abs_add_le ((l.map fun v => rnd (v / s)).sum - S / s) (S / s - 1)
    rw [sub_add_sub_cancel] at e3
    have e4 : unitOf p * (A / s) + g * A / s ≤ (g + unitOf p) * (2 * (A / S)) := by
      have := mul_le_mul_of_nonneg_left (key A hA0.le) (show 0 ≤ g + unitOf p by linarith)
      rw [show unitOf p * (A / s) + g * A / s = (g + unitOf p) * (A / s) by ring]
      exact this
    have e5 : (g + unitOf p) * (2 * (A / S)) ≤ (g + unitOf p * (1 + g)) * (2 * (A / S)) := by
      refine mul_le_mul_of_nonneg_right ?_ (by positivity)
      nlinarith [mul_nonneg hu0.le hg0]
    linarith
  · rw [List.forall₂_map_right_iff, List.forall₂_same]
    intro v _
    obtain ⟨a1, a2, a3⟩ := h.sign hp (v / s)
    refine ⟨h.float _, ?_, ?_, ?_⟩
    · rw [a1, div_pos_iff_of_pos_right hs0]
    · rw [a3, div_eq_zero_iff, or_iff_left hs0.ne']
    · have e1 := h.err hp (v / s)
      rw [abs_div, abs_of_pos hs0] at e1
      have e2 : |v / s - v / S| ≤ g * A / S * (|v| / s) := by
        rw [show v / s - v / S = (S - s) / S * (v / s) by field_simp, abs_mul, abs_div, abs_div, abs_of_pos hpos,
          abs_of_pos hs0, abs_sub_comm]
        exact mul_le_mul_of_nonneg_right (div_le_div_of_nonneg_right n1 hpos.le) (by positivity)
      have e3 := abs_sub_le (rnd (v / s)) (v / s) (v / S)
      have e4 := key |v| (abs_nonneg v)
      have hAS : 1 ≤ A / S := by rw [le_div_iff₀ hpos]; linarith
      have hv : 0 ≤ |v| / s := by positivity
      have e5 : unitOf p * (|v| / s) + g * A / S * (|v| / s) ≤ (g + unitOf p * (1 + g)) * (A / S) * (|v| / s) := by
        rw [← add_mul]
        refine mul_le_mul_of_nonneg_right ?_ hv
        rw [mul_div_assoc]
        have i1 : 0 ≤ unitOf p * g * (A / S) := by positivity
        have i2 : unitOf p ≤ unitOf p * (A / S) := by nlinarith
        linarith [show (g + unitOf p * (1 + g)) * (A / S) = g * (A / S) + unitOf p * (A / S) + unitOf p * g * (A / S) by ring]
      have e6 : (g + unitOf p * (1 + g)) * (A / S) * (|v| / s) ≤ (g + unitOf p * (1 + g)) * (A / S) * (2 * (|v| / S)) :=
        mul_le_mul_of_nonneg_left e4 (by positivity)
      linarith

/-- A PSF image with negative pixels. -/
example : ∃ rnd, Rounds 24 rnd ∧ ∃ l', PsfRuns rnd [-1, 3, 7, 3, -1] l' ∧ |l'.sum - 1| ≤ 1 / 10 ^ 5 := by
  obtain ⟨rnd, h⟩ := exists_rounds 24 (by norm_num)
  obtain ⟨s, hs⟩ := exists_sumRuns rnd [-1, 3, 7, 3, -1]
  refine ⟨rnd, h, _, ⟨s, hs, rfl⟩, ?_⟩
  have := (C137_psf (by norm_num) h [-1, 3, 7, 3, -1] _ (by
    intro v hv
    simp only [List.mem_cons, List.not_mem_nil, or_false] at hv
    rcases hv with rfl | rfl | rfl | rfl | rfl
    exacts [⟨-1, 0, by norm_num, by norm_num⟩, ⟨3, 0, by norm_num, by norm_num⟩, ⟨7, 0, by norm_num, by norm_num⟩,
      ⟨3, 0, by norm_num, by norm_num⟩, ⟨-1, 0, by norm_num, by norm_num⟩]) (by norm_num) (by norm_num) ⟨s, hs, rfl⟩).1
  refine this.trans ?_
  norm_num

end

end Pizza
