import Verif.Lemmas.SincLip
import Verif.Props.DoublePixel

/-!
C140: how the resampled value changes with the position: a small error of a position makes a small error of the
pixel, also where the kernel moves on by a pixel.
-/

namespace Pizza

open scoped Classical

/-- The rate of change of the Lanczos kernel is at most this. -/
noncomputable def kernelRate (a : ℤ) : ℝ := Real.pi / 2 * (1 + 1 / a)

/-- The Lanczos sum of an image at a position. -/
noncomputable def trueLanczosAt (a : ℤ) (im : Img ℝ) (y x : ℝ) : ℝ :=
  ∑ r ∈ Finset.range im.nrow, ∑ c ∈ Finset.range im.ncol,
    (if InKernel a y r ∧ InKernel a x c then im.px r c * (trueLanczos a (x - c) * trueLanczos a (y - r)) else 0)

/-- The sum of the absolute values of the pixels in the kernel at one position or at the other one. -/
noncomputable def absEither (a : ℤ) (im : Img ℝ) (y x y' x' : ℝ) : ℝ :=
  ∑ r ∈ Finset.range im.nrow, ∑ c ∈ Finset.range im.ncol,
    (if (InKernel a y r ∧ InKernel a x c) ∨ (InKernel a y' r ∧ InKernel a x' c) then |im.px r c| else 0)

theorem abs_trueLanczos_sub_le (a : ℤ) (ha : 1 ≤ a) (d d' : ℝ) :
    |trueLanczos a d - trueLanczos a d'| ≤ kernelRate a * |d - d'| := by
  unfold trueLanczos kernelRate
  have haR : (0 : ℝ) < a := by exact_mod_cast (by omega : 0 < a)
  have h1 := abs_sinc_sub_le (Real.pi * d) (Real.pi * d')
  have h2 := abs_sinc_sub_le (Real.pi * (d / a)) (Real.pi * (d' / a))
  rw [← mul_sub, abs_mul, abs_of_pos Real.pi_pos] at h1
  rw [← mul_sub, abs_mul, abs_of_pos Real.pi_pos, ← sub_div, abs_div, abs_of_pos haR] at h2
  have b1 := Real.abs_sinc_le_one (Real.pi * (d / a))
  have b2 := Real.abs_sinc_le_one (Real.pi * d')
  set s := Real.sinc (Real.pi * d)
  set s' := Real.sinc (Real.pi * d')
  set t := Real.sinc (Real.pi * (d / a))
  set t' := Real.sinc (Real.pi * (d' / a))
  have e : s * t - s' * t' = (s - s') * t + s' * (t - t') := by ring
  rw [e]
  refine (abs_add_le _ _).trans ?_
  rw [abs_mul, abs_mul]
  have k1 : |s - s'| * |t| ≤ Real.pi * |d - d'| / 2 := by
    nlinarith [abs_nonneg (s - s'), abs_nonneg t]
  have k2 : |s'| * |t - t'| ≤ Real.pi * (|d - d'| / a) / 2 := by
    nlinarith [abs_nonneg (t - t'), abs_nonneg s']
  calc _ ≤ Real.pi * |d - d'| / 2 + Real.pi * (|d - d'| / a) / 2 := add_le_add k1 k2
    _ = _ := by ring

theorem trueLanczos_end (a : ℤ) (ha : 1 ≤ a) : trueLanczos a a = 0 ∧ trueLanczos a (-a) = 0 := by
  have haR : (a : ℝ) ≠ 0 := by exact_mod_cast (by omega : a ≠ 0)
  have hs : Real.sinc Real.pi = 0 := by rw [Real.sinc_of_ne_zero Real.pi_ne_zero]; simp
  unfold trueLanczos
  rw [neg_div, div_self haR]
  simp [hs]

/-- The kernel cut off at its ends. -/
noncomputable def cutKernel (a : ℤ) (p : ℝ) (k : ℕ) : ℝ := if InKernel a p k then trueLanczos a (p - k) else 0

theorem abs_cutKernel_le (a : ℤ) (p : ℝ) (k : ℕ) : |cutKernel a p k| ≤ 1 := by
  unfold cutKernel
  split_ifs
  · exact abs_trueLanczos_le a _
  · simp

theorem kernelRate_nonneg {a : ℤ} (ha : 1 ≤ a) : 0 ≤ kernelRate a := by
  have haR : (0 : ℝ) < a := by exact_mod_cast (by omega : 0 < a)
  unfold kernelRate
  have := Real.pi_pos
  positivity

theorem abs_cutKernel_sub_le (a : ℤ) (ha : 1 ≤ a) (p p' : ℝ) (k : ℕ) :
    |cutKernel a p k - cutKernel a p' k| ≤ kernelRate a * |p - p'| := by
  have hL := kernelRate_nonneg ha
  obtain ⟨z1, z2⟩ := trueLanczos_end a ha
  -- one position in, the other one out
  have half : ∀ p p' : ℝ, InKernel a p k → ¬ InKernel a p' k → |trueLanczos a (p - k)| ≤ kernelRate a * |p - p'| := by
    intro p p' ⟨h1, h2⟩ hn
    have hout : p' - a ≥ k ∨ (k : ℝ) > p' + a := by
      by_contra hc
      rw [not_or, not_le, not_lt] at hc
      exact hn ⟨hc.1, hc.2⟩
    rcases hout with ho | ho
    · have := abs_trueLanczos_sub_le a ha (p - k) a
      rw [z1, sub_zero] at this
      refine this.trans (mul_le_mul_of_nonneg_left ?_ hL)
      rw [abs_of_nonpos (by linarith), abs_of_nonpos (by linarith)]
      linarith
    · have := abs_trueLanczos_sub_le a ha (p - k) (-a)
      rw [z2, sub_zero] at this
      refine this.trans (mul_le_mul_of_nonneg_left ?_ hL)
      rw [abs_of_nonneg (by linarith), abs_of_nonneg (by linarith)]
      linarith
  unfold cutKernel
  split_ifs with h1 h2 h2
  · refine (abs_trueLanczos_sub_le a ha _ _).trans (le_of_eq ?_)
    congr 2
    ring
  · rw [sub_zero]
    exact half p p' h1 h2
  · rw [zero_sub, abs_neg, abs_sub_comm]
    exact half p' p h2 h1
  · rw [sub_zero, abs_zero]
    exact mul_nonneg hL (abs_nonneg _)

/-- The Lanczos sum is a Lipschitz function of the position. -/
theorem trueLanczosAt_move (a : ℤ) (ha : 1 ≤ a) (im : Img ℝ) (y x y' x' : ℝ) :
    |trueLanczosAt a im y x - trueLanczosAt a im y' x'| ≤ kernelRate a * (|y - y'| + |x - x'|) * absEither a im y x y' x' := by
  unfold trueLanczosAt absEither
  rw [← Finset.sum_sub_distrib, Finset.mul_sum]
  refine (Finset.abs_sum_le_sum_abs _ _).trans (Finset.sum_le_sum fun r _ => ?_)
  rw [← Finset.sum_sub_distrib, Finset.mul_sum]
  refine (Finset.abs_sum_le_sum_abs _ _).trans (Finset.sum_le_sum fun c _ => ?_)
  have key : ∀ y x : ℝ, (if InKernel a y r ∧ InKernel a x c then
      im.px r c * (trueLanczos a (x - c) * trueLanczos a (y - r)) else 0) =
      im.px r c * (cutKernel a x c * cutKernel a y r) := by
    intro y x
    unfold cutKernel
    by_cases h1 : InKernel a y r <;> by_cases h2 : InKernel a x c <;> simp [h1, h2]
  rw [key, key]
  by_cases hin : (InKernel a y r ∧ InKernel a x c) ∨ (InKernel a y' r ∧ InKernel a x' c)
  · rw [if_pos hin, ← mul_sub, abs_mul, mul_comm]
    refine mul_le_mul_of_nonneg_right ?_ (abs_nonneg _)
    have e : cutKernel a x c * cutKernel a y r - cutKernel a x' c * cutKernel a y' r =
        (cutKernel a x c - cutKernel a x' c) * cutKernel a y r + cutKernel a x' c * (cutKernel a y r - cutKernel a y' r) := by
      ring
    rw [e]
    refine (abs_add_le _ _).trans ?_
    rw [abs_mul, abs_mul]
    have b1 := abs_cutKernel_sub_le a ha x x' c
    have b2 := abs_cutKernel_sub_le a ha y y' r
    have b3 := abs_cutKernel_le a y r
    have b4 := abs_cutKernel_le a x' c
    nlinarith [abs_nonneg (cutKernel a x c - cutKernel a x' c), abs_nonneg (cutKernel a y r - cutKernel a y' r),
      abs_nonneg (cutKernel a y r), abs_nonneg (cutKernel a x' c)]
  · rw [if_neg hin, mul_zero]
    rw [not_or] at hin
    have z : ∀ y x : ℝ, ¬ (InKernel a y r ∧ InKernel a x c) → cutKernel a x c * cutKernel a y r = 0 := by
      intro y x hn
      unfold cutKernel
      by_cases h1 : InKernel a y r
      · have h2 : ¬ InKernel a x c := fun h2 => hn ⟨h1, h2⟩
        simp [h2]
      · simp [h1]
    rw [z y x hin.1, z y' x' hin.2]
    simp

theorem sum_le_absEither (a : ℤ) (im : Img ℝ) (y x y' x' : ℝ) :
    (∑ r ∈ Finset.range im.nrow, ∑ c ∈ Finset.range im.ncol,
      (if InKernel a y r ∧ InKernel a x c then |im.px r c| else 0)) ≤ absEither a im y x y' x' := by
  unfold absEither
  refine Finset.sum_le_sum fun r _ => Finset.sum_le_sum fun c _ => ?_
  split_ifs with h1 h2 h2
  · exact le_rfl
  · exact absurd (.inl h1) h2
  · exact abs_nonneg _
  · exact le_rfl

theorem absEither_comm (a : ℤ) (im : Img ℝ) (y x y' x' : ℝ) : absEither a im y x y' x' = absEither a im y' x' y x := by
  unfold absEither
  refine Finset.sum_congr rfl fun r _ => Finset.sum_congr rfl fun c _ => ?_
  simp only [or_comm]

/-- C140: the resampled value changes with the position at a limited rate, also where the kernel moves on by a pixel
and at the edges of the image: it has no jumps, up to the error of the approximation of the kernel. -/
theorem C140_no_jumps (im : Img ℝ) (a : ℤ) (ha : 1 ≤ a) (y x v y' x' v' : ℝ) (e e' : Bool)
    (h : Resampled im a y x v e) (h' : Resampled im a y' x' v' e') :
    |v - v'| ≤ (kernelRate a * (|y - y'| + |x - x'|) + 4.22e-6) * absEither a im y x y' x' := by
  have k1 := (C96_value im a ha y x v e h).trans
    (mul_le_mul_of_nonneg_left (sum_le_absEither a im y x y' x') (by norm_num : (0 : ℝ) ≤ 2.11e-6))
  have k2 := (C96_value im a ha y' x' v' e' h').trans
    (mul_le_mul_of_nonneg_left (sum_le_absEither a im y' x' y x) (by norm_num : (0 : ℝ) ≤ 2.11e-6))
  rw [absEither_comm] at k2
  have k3 := trueLanczosAt_move a ha im y x y' x'
  change |v - trueLanczosAt a im y x| ≤ _ at k1
  change |v' - trueLanczosAt a im y' x'| ≤ _ at k2
  have a1 := abs_le.1 k1
  have a2 := abs_le.1 k2
  have a3 := abs_le.1 k3
  rw [abs_le]
  constructor <;> nlinarith

/-! ### In floating point -/

/-- An image of rational numbers as one of real numbers. -/
def imgReal (im : Img ℚ) : Img ℝ := ⟨im.nrow, im.ncol, fun r c => (im.px r c : ℝ)⟩

theorem lanczosRuns_near {rnd : ℚ → ℚ} (hr : Rounds 53 rnd) (im : Img ℚ)
    (hf : ∀ r < im.nrow, ∀ c < im.ncol, IsFloat 53 (im.px r c)) (a : ℤ) (ha : 1 ≤ a) (ha3 : a ≤ 3) (y x v : ℚ) (e : Bool)
    (h : LanczosRuns rnd im a y x (.ok (v, e))) (y' x' : ℝ) :
    |(v : ℝ) - trueLanczosAt a (imgReal im) y x| ≤ 2.11e-6 * absEither a (imgReal im) y x y' x' := by
  obtain ⟨v', e', ho, hb⟩ := C132_value hr im hf a ha ha3 y x _ h
  cases ho
  refine le_trans (le_of_eq ?_) (hb.trans (mul_le_mul_of_nonneg_left (le_trans (le_of_eq ?_)
    (sum_le_absEither a (imgReal im) y x y' x')) (by norm_num)))
  · unfold trueLanczosAt
    simp only [inKernel_cast]
    rfl
  · simp only [inKernel_cast]
    rfl

/-- C140: so it is in double precision arithmetic, in any order of evaluation. -/
theorem C140_double {rnd : ℚ → ℚ} (hr : Rounds 53 rnd) (im : Img ℚ)
    (hf : ∀ r < im.nrow, ∀ c < im.ncol, IsFloat 53 (im.px r c)) (a : ℤ) (ha : 1 ≤ a) (ha3 : a ≤ 3)
    (y x v y' x' v' : ℚ) (e e' : Bool)
    (h : LanczosRuns rnd im a y x (.ok (v, e))) (h' : LanczosRuns rnd im a y' x' (.ok (v', e'))) :
    |(v : ℝ) - v'| ≤
      (kernelRate a * (|(y : ℝ) - y'| + |(x : ℝ) - x'|) + 4.22e-6) * absEither a (imgReal im) y x y' x' := by
  have k1 := lanczosRuns_near hr im hf a ha ha3 y x v e h y' x'
  have k2 := lanczosRuns_near hr im hf a ha ha3 y' x' v' e' h' y x
  rw [absEither_comm] at k2
  have k3 := trueLanczosAt_move a ha (imgReal im) y x y' x'
  have a1 := abs_le.1 k1
  have a2 := abs_le.1 k2
  have a3 := abs_le.1 k3
  rw [abs_le]
  constructor <;> nlinarith

theorem kernelRate_three : kernelRate 3 ≤ 2.0944 := by
  unfold kernelRate
  have := Real.pi_lt_d6
  norm_num
  linarith

theorem abs_trueLanczosAt_le (a : ℤ) (im : Img ℝ) (y x y' x' : ℝ) : |trueLanczosAt a im y x| ≤ absEither a im y x y' x' := by
  refine le_trans ?_ (sum_le_absEither a im y x y' x')
  unfold trueLanczosAt
  refine (Finset.abs_sum_le_sum_abs _ _).trans (Finset.sum_le_sum fun r _ => ?_)
  refine (Finset.abs_sum_le_sum_abs _ _).trans (Finset.sum_le_sum fun c _ => ?_)
  split_ifs
  · rw [abs_mul, abs_mul]
    have h1 := abs_trueLanczos_le a (x - c)
    have h2 := abs_trueLanczos_le a (y - r)
    have : |trueLanczos a (x - c)| * |trueLanczos a (y - r)| ≤ 1 := by
      nlinarith [abs_nonneg (trueLanczos a (x - c)), abs_nonneg (trueLanczos a (y - r))]
    exact mul_le_of_le_one_right (abs_nonneg _) this
  · simp

theorem absEither_nonneg (a : ℤ) (im : Img ℝ) (y x y' x' : ℝ) : 0 ≤ absEither a im y x y' x' :=
  (abs_nonneg _).trans (abs_trueLanczosAt_le a im y x y' x')

/-- One epoch of a pixel of the coadd with a position that is not exact: the image, the row and the column computed,
and the row and the column of the place itself. -/
abbrev EpochNear := Img ℚ × (ℚ × ℚ) × (ℝ × ℝ)

/-- The Lanczos sum of an epoch at the place itself. -/
noncomputable def nearLanczos (e : EpochNear) : ℝ := trueLanczosAt 3 (imgReal e.1) e.2.2.1 e.2.2.2

/-- The sum of the absolute values of the pixels of an epoch under the kernel at the position computed or at the place
itself. -/
noncomputable def nearAbs (e : EpochNear) : ℝ := absEither 3 (imgReal e.1) e.2.1.1 e.2.1.2 e.2.2.1 e.2.2.2

/-- C140: positions that are wrong by up to `δ` pixels along both axes make a pixel of the coadd of up to a hundred
epochs wrong by up to `8.1e-6 + 4.2 δ` times the weighted mean of the sums of the absolute values of the pixels used:
it is the weighted mean of the Lanczos sums of the epochs at the places themselves to that. -/
theorem C140_coadd {rnd rs : ℚ → ℚ} {ps : ℕ} (hr : Rounds 53 rnd) (hps : 24 ≤ ps) (hrs : Rounds ps rs) (δ : ℝ)
    (es : List EpochNear) (vs l l'' : List ℚ)
    (hv : List.Forall₂ (fun e v => EpochRuns rnd (e.1, e.2.1) v) es vs)
    (hδ : ∀ e ∈ es, |(e.2.1.1 : ℝ) - e.2.2.1| ≤ δ ∧ |(e.2.1.2 : ℝ) - e.2.2.2| ≤ δ) (hlen : es.length = l.length)
    (hne : es ≠ []) (h100 : es.length ≤ 100) (hl : ∀ w ∈ l, IsFloat 53 w ∧ 0 < w) (hn : WeightRuns rnd l l'') :
    |(coaddPixelD rnd rnd rs 0 (vs.zip l'') : ℝ) - epochMean nearLanczos es l| ≤
      (8.1e-6 + 4.2 * δ) * epochMean nearAbs es l := by
  have hδ0 : 0 ≤ δ := by
    obtain ⟨e, he⟩ := List.exists_mem_of_ne_nil es hne
    exact (abs_nonneg _).trans (hδ e he).1
  have hv' : List.Forall₂ (fun (e : EpochNear) (v : ℚ) => |(v : ℝ) - nearLanczos e| ≤ (2.11e-6 + 4.1888 * δ) * nearAbs e ∧
      |(v : ℝ)| ≤ (1 + (2.11e-6 + 4.1888 * δ)) * nearAbs e) es vs := by
    rw [List.forall₂_iff_get] at hv ⊢
    refine ⟨hv.1, fun i h1 h2 => ?_⟩
    obtain ⟨hf, flag, hrun⟩ := hv.2 i h1 h2
    obtain ⟨d1, d2⟩ := hδ _ (List.get_mem es ⟨i, h1⟩)
    generalize es.get ⟨i, h1⟩ = e at *
    generalize vs.get ⟨i, h2⟩ = v at *
    have k1 := lanczosRuns_near hr e.1 hf 3 (by norm_num) (by norm_num) _ _ v flag hrun e.2.2.1 e.2.2.2
    have k2 := trueLanczosAt_move 3 (by norm_num) (imgReal e.1) e.2.1.1 e.2.1.2 e.2.2.1 e.2.2.2
    have k3 := abs_trueLanczosAt_le 3 (imgReal e.1) e.2.2.1 e.2.2.2 e.2.1.1 e.2.1.2
    rw [absEither_comm] at k3
    change |nearLanczos e| ≤ nearAbs e at k3
    change _ ≤ 2.11e-6 * nearAbs e at k1
    change |_ - nearLanczos e| ≤ _ * nearAbs e at k2
    have hB : 0 ≤ nearAbs e := (abs_nonneg _).trans k3
    have hK : kernelRate 3 * (|(e.2.1.1 : ℝ) - e.2.2.1| + |(e.2.1.2 : ℝ) - e.2.2.2|) ≤ 4.1888 * δ := by
      calc _ ≤ 2.0944 * (δ + δ) := mul_le_mul kernelRate_three (add_le_add d1 d2) (by positivity) (by norm_num)
        _ = _ := by ring
    have k4 := k2.trans (mul_le_mul_of_nonneg_right hK hB)
    have hfin : |(v : ℝ) - nearLanczos e| ≤ (2.11e-6 + 4.1888 * δ) * nearAbs e :=
      (abs_sub_le _ (trueLanczosAt 3 (imgReal e.1) e.2.1.1 e.2.1.2) _).trans ((add_le_add k1 k4).trans (le_of_eq (by ring)))
    refine ⟨hfin, ?_⟩
    have := abs_sub_abs_le_abs_sub (v : ℝ) (nearLanczos e)
    linarith
  have hb := coadd_near hr (by omega) hrs hv' hlen hl hn
  refine hb.trans (mul_le_mul_of_nonneg_right ?_ (epochMean_nonneg (fun e => absEither_nonneg _ _ _ _ _ _) es
    fun w hw => (hl w hw).2))
  have h1 : ((sumError ps l.length : ℚ) : ℝ) ≤ ((5.97e-6 : ℚ) : ℝ) := by
    exact_mod_cast sumError_single (hlen ▸ h100) hps
  have h0 : (0 : ℝ) ≤ (sumError ps l.length : ℝ) := by exact_mod_cast sumError_nonneg ps l.length
  have h2 := mul_le_mul_of_nonneg_left h1 (by positivity : (0 : ℝ) ≤ 1 + (2.11e-6 + 4.1888 * δ))
  norm_num at h2 ⊢
  linarith

/-- `C140_double`: at 5.999 and at 6 the kernel covers different columns of the image, and the values are near. -/
example : ∃ rnd, Rounds 53 rnd ∧ ∃ v v', (∃ e, LanczosRuns rnd ⟨10, 10, fun _ _ => 7⟩ 3 4.5 5.999 (.ok (v, e))) ∧
    (∃ e, LanczosRuns rnd ⟨10, 10, fun _ _ => 7⟩ 3 4.5 6 (.ok (v', e))) ∧ |(v : ℝ) - v'| ≤ 2 := by
  obtain ⟨rnd, hr⟩ := exists_rounds 53 (by norm_num)
  obtain ⟨v, h1⟩ := exEpochRuns hr ⟨10, 10, fun _ _ => 7⟩ exFlatFloat 4.5 5.999
  obtain ⟨v', h2⟩ := exEpochRuns hr ⟨10, 10, fun _ _ => 7⟩ exFlatFloat 4.5 6
  obtain ⟨e, h1'⟩ := h1.2
  obtain ⟨e', h2'⟩ := h2.2
  refine ⟨rnd, hr, v, v', ⟨e, h1'⟩, ⟨e', h2'⟩, ?_⟩
  have hb := C140_double hr ⟨10, 10, fun _ _ => 7⟩ exFlatFloat 3 (by norm_num) (by norm_num) _ _ _ _ _ _ _ _ h1' h2'
  have hA : absEither 3 (imgReal ⟨10, 10, fun _ _ => 7⟩) ((4.5 : ℚ) : ℝ) ((5.999 : ℚ) : ℝ) ((4.5 : ℚ) : ℝ) ((6 : ℚ) : ℝ) ≤
      700 := by
    unfold absEither
    calc _ ≤ ∑ r ∈ Finset.range 10, ∑ c ∈ Finset.range 10, (7 : ℝ) := by
          refine Finset.sum_le_sum fun r _ => Finset.sum_le_sum fun c _ => ?_
          split_ifs
          · simp [imgReal]
          · norm_num
      _ = 700 := by norm_num
  have hK := kernelRate_three
  have hK0 := kernelRate_nonneg (a := 3) (by norm_num)
  have h0 := absEither_nonneg 3 (imgReal ⟨10, 10, fun _ _ => 7⟩) ((4.5 : ℚ) : ℝ) ((5.999 : ℚ) : ℝ) ((4.5 : ℚ) : ℝ) ((6 : ℚ) : ℝ)
  have e1 : (|((4.5 : ℚ) : ℝ) - ((4.5 : ℚ) : ℝ)| + |((5.999 : ℚ) : ℝ) - ((6 : ℚ) : ℝ)|) = 0.001 := by
    norm_num [abs_of_neg]
  rw [e1] at hb
  refine hb.trans ?_
  calc _ ≤ (2.0944 * 0.001 + 4.22e-6 : ℝ) * 700 := by
        refine mul_le_mul ?_ hA h0 (by norm_num)
        linarith
    _ ≤ 2 := by norm_num

/-- `C140_coadd`: two epochs with positions that are wrong by a thousandth of a pixel. -/
example : ∃ rnd, Rounds 53 rnd ∧ ∃ v1 v2 l'', WeightRuns rnd [1, 3] l'' ∧
    |(coaddPixelD rnd rnd rnd 0 ([v1, v2].zip l'') : ℝ) - epochMean nearLanczos
      [(⟨10, 10, fun _ _ => 7⟩, (4.5, 5.5), (4.501, 5.499)), (⟨10, 10, fun _ _ => 7⟩, (3.25, 4), (3.25, 3.999))] [1, 3]| ≤
      (8.1e-6 + 4.2 * 0.0011) * epochMean nearAbs
      [(⟨10, 10, fun _ _ => 7⟩, (4.5, 5.5), (4.501, 5.499)), (⟨10, 10, fun _ _ => 7⟩, (3.25, 4), (3.25, 3.999))] [1, 3] := by
  obtain ⟨rnd, hr⟩ := exists_rounds 53 (by norm_num)
  obtain ⟨l'', hn⟩ := exists_weightRuns rnd [1, 3]
  obtain ⟨v1, h1⟩ := exEpochRuns hr ⟨10, 10, fun _ _ => 7⟩ exFlatFloat 4.5 5.5
  obtain ⟨v2, h2⟩ := exEpochRuns hr ⟨10, 10, fun _ _ => 7⟩ exFlatFloat 3.25 4
  refine ⟨rnd, hr, v1, v2, l'', hn, ?_⟩
  refine C140_coadd hr (by norm_num) hr 0.0011 _ [v1, v2] [1, 3] l'' (.cons h1 (.cons h2 .nil)) (by
    intro e he
    simp only [List.mem_cons, List.not_mem_nil, or_false] at he
    rcases he with rfl | rfl <;> constructor <;> rw [abs_le] <;> norm_num) rfl (by simp) (by simp) exWeights13 hn

/-- `C140_no_jumps`: the two positions are a hundredth of a pixel apart, on the two sides of the centre of a column. -/
example : ∃ v e v' e', Resampled (⟨4, 4, fun r c => (r : ℝ) - c⟩ : Img ℝ) 2 0.25 1.995 v e ∧
    Resampled (⟨4, 4, fun r c => (r : ℝ) - c⟩ : Img ℝ) 2 0.25 2.005 v' e' := by
  obtain ⟨e, h⟩ := C89_value sincVal sincPade_eq (⟨4, 4, fun r c => (r : ℝ) - c⟩ : Img ℝ) 2 (by norm_num) 0.25 1.995
  obtain ⟨e', h'⟩ := C89_value sincVal sincPade_eq (⟨4, 4, fun r c => (r : ℝ) - c⟩ : Img ℝ) 2 (by norm_num) 0.25 2.005
  exact ⟨_, e, _, e', h, h'⟩

end Pizza
