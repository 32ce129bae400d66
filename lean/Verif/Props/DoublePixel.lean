import Verif.Props.DoubleCoadd
import Verif.Props.DoubleLanczos
import Verif.Props.DoubleStore

/-!
C138: a pixel of the coadd in floating point, from the pixels of the epochs to the value stored: the resampling of
`_lanczos.py` (C132) followed by the weighted sum of `_coadd_slices.py` (C131).
-/

namespace Pizza

open scoped Classical

/-- The part of one epoch in a pixel of the coadd: the image of the epoch, and the row and the column in it of the
place on the sky of the pixel of the coadd. -/
abbrev EpochAt := Img ℚ × ℚ × ℚ

/-- `v` is what resampling (kernel size 3) may give for an epoch, in double precision and in any order of
evaluation. -/
def EpochRuns (rnd : ℚ → ℚ) (e : EpochAt) (v : ℚ) : Prop :=
  (∀ r < e.1.nrow, ∀ c < e.1.ncol, IsFloat 53 (e.1.px r c)) ∧ ∃ flag, LanczosRuns rnd e.1 3 e.2.1 e.2.2 (.ok (v, flag))

/-- The Lanczos sum of an epoch, with the sinc function itself and without rounding. -/
noncomputable def epochLanczos (e : EpochAt) : ℝ :=
  ∑ r ∈ Finset.range e.1.nrow, ∑ c ∈ Finset.range e.1.ncol,
    (if InKernel 3 e.2.1 r ∧ InKernel 3 e.2.2 c then
      (e.1.px r c : ℝ) * (trueLanczos 3 (e.2.2 - c) * trueLanczos 3 (e.2.1 - r)) else 0)

/-- The sum of the absolute values of the pixels of an epoch under the kernel. -/
noncomputable def epochAbs (e : EpochAt) : ℝ :=
  ∑ r ∈ Finset.range e.1.nrow, ∑ c ∈ Finset.range e.1.ncol,
    (if InKernel 3 e.2.1 r ∧ InKernel 3 e.2.2 c then |(e.1.px r c : ℝ)| else 0)

/-- The mean of `f` over the epochs with the weights `l`, not yet normalised. -/
noncomputable def epochMean {α : Type} (f : α → ℝ) (es : List α) (l : List ℚ) : ℝ :=
  (List.zipWith (fun e (w : ℚ) => f e * (w : ℝ)) es l).sum / (l.sum : ℚ)

/-- The relative error of the weighted sum of `n` epochs: double precision weights, products and sums, and values
stored with `ps` bits. -/
def sumError (ps n : ℕ) : ℚ :=
  ((1 + unitOf 53) * (1 + unitOf ps)) ^ n * (1 + unitOf 53) * (highOf (unitOf 53) n ^ 2 / lowOf (unitOf 53) n) - 1

theorem abs_trueLanczos_le (a : ℤ) (d : ℝ) : |trueLanczos a d| ≤ 1 := by
  unfold trueLanczos
  rw [abs_mul]
  have h1 := Real.abs_sinc_le_one (Real.pi * d)
  have h2 := Real.abs_sinc_le_one (Real.pi * (d / a))
  nlinarith [abs_nonneg (Real.sinc (Real.pi * d)), abs_nonneg (Real.sinc (Real.pi * (d / a)))]

theorem abs_epochLanczos_le (e : EpochAt) : |epochLanczos e| ≤ epochAbs e := by
  unfold epochLanczos epochAbs
  refine (Finset.abs_sum_le_sum_abs _ _).trans (Finset.sum_le_sum fun r _ => ?_)
  refine (Finset.abs_sum_le_sum_abs _ _).trans (Finset.sum_le_sum fun c _ => ?_)
  split_ifs
  · rw [abs_mul, abs_mul]
    have h1 := abs_trueLanczos_le 3 (e.2.2 - c)
    have h2 := abs_trueLanczos_le 3 (e.2.1 - r)
    have h0 := abs_nonneg (trueLanczos 3 ((e.2.2 : ℝ) - c))
    have : |trueLanczos 3 ((e.2.2 : ℝ) - c)| * |trueLanczos 3 ((e.2.1 : ℝ) - r)| ≤ 1 := by
      nlinarith [abs_nonneg (trueLanczos 3 ((e.2.1 : ℝ) - r))]
    exact mul_le_of_le_one_right (abs_nonneg _) this
  · simp

theorem epochAbs_nonneg (e : EpochAt) : 0 ≤ epochAbs e := (abs_nonneg _).trans (abs_epochLanczos_le e)

theorem sumError_nonneg (ps n : ℕ) : 0 ≤ sumError ps n := by
  unfold sumError
  have u1 := unitOf_pos 53
  have u2 := unitOf_pos ps
  have hu : unitOf 53 ≤ 1 / 2 := unitOf_le (by norm_num)
  have hB : 1 ≤ ((1 + unitOf 53) * (1 + unitOf ps)) ^ n := one_le_pow₀ (by nlinarith)
  have hlo := lowOf_pos (p := 53) (by norm_num) n
  have hhi := highOf_pos (p := 53) (by norm_num) n
  have hl1 : lowOf (unitOf 53) n ≤ 1 := by
    unfold lowOf
    rw [div_le_one (by positivity)]
    exact (by linarith : 1 - unitOf 53 ≤ 1).trans (one_le_pow₀ (by linarith))
  have hh1 : 1 ≤ highOf (unitOf 53) n := by
    unfold highOf
    rw [one_le_div (pow_pos (by linarith) _)]
    exact (pow_le_one₀ (by linarith) (by linarith)).trans (by linarith)
  have hK : 1 ≤ highOf (unitOf 53) n ^ 2 / lowOf (unitOf 53) n := by
    rw [one_le_div hlo]
    exact hl1.trans (one_le_pow₀ hh1)
  have : 1 ≤ ((1 + unitOf 53) * (1 + unitOf ps)) ^ n * (1 + unitOf 53) := by nlinarith
  nlinarith

theorem sumError_mono (ps : ℕ) {m n : ℕ} (h : m ≤ n) : sumError ps m ≤ sumError ps n := by
  unfold sumError
  have u1 := unitOf_pos 53
  have u2 := unitOf_pos ps
  have hu : unitOf 53 ≤ 1 / 2 := unitOf_le (by norm_num)
  have hB : ((1 + unitOf 53) * (1 + unitOf ps)) ^ m ≤ ((1 + unitOf 53) * (1 + unitOf ps)) ^ n :=
    pow_le_pow_right₀ (by nlinarith) h
  have hlo := lowOf_pos (p := 53) (by norm_num) n
  have hhi := highOf_pos (p := 53) (by norm_num) m
  have hl : lowOf (unitOf 53) n ≤ lowOf (unitOf 53) m := by
    unfold lowOf
    refine div_le_div_of_nonneg_left (by linarith) (by positivity) ?_
    exact pow_le_pow_right₀ (by linarith) (by omega)
  have hh : highOf (unitOf 53) m ≤ highOf (unitOf 53) n := by
    unfold highOf
    refine div_le_div_of_nonneg_left (by linarith) (pow_pos (by linarith) _) ?_
    exact pow_le_pow_of_le_one (by linarith) (by linarith) (by omega)
  have hK : highOf (unitOf 53) m ^ 2 / lowOf (unitOf 53) m ≤ highOf (unitOf 53) n ^ 2 / lowOf (unitOf 53) n := by
    refine div_le_div₀ (by positivity) (pow_le_pow_left₀ hhi.le hh 2) hlo hl
  have hK0 : 0 ≤ highOf (unitOf 53) m ^ 2 / lowOf (unitOf 53) m :=
    div_nonneg (by positivity) (hlo.le.trans hl)
  have hB' : ((1 + unitOf 53) * (1 + unitOf ps)) ^ m * (1 + unitOf 53) ≤
      ((1 + unitOf 53) * (1 + unitOf ps)) ^ n * (1 + unitOf 53) := mul_le_mul_of_nonneg_right hB (by linarith)
  have := mul_le_mul hB' hK hK0 (by positivity)
  linarith

/-- From values that are near their targets to the weighted sum. -/
theorem epochMean_close {α : Type} {es : List α} {vs l : List ℚ} {T B : α → ℝ} {ε : ℝ}
    (hv : List.Forall₂ (fun e (v : ℚ) => |(v : ℝ) - T e| ≤ ε * B e ∧ |(v : ℝ)| ≤ (1 + ε) * B e) es vs)
    (hlen : es.length = l.length) (hw : ∀ w ∈ l, 0 < w) :
    |(((List.zipWith (fun x w => x * w) vs l).sum : ℚ) : ℝ) - (List.zipWith (fun e (w : ℚ) => T e * (w : ℝ)) es l).sum| ≤
      ε * (List.zipWith (fun e (w : ℚ) => B e * (w : ℝ)) es l).sum ∧
    (((List.zipWith (fun x w => |x| * w) vs l).sum : ℚ) : ℝ) ≤
      (1 + ε) * (List.zipWith (fun e (w : ℚ) => B e * (w : ℝ)) es l).sum := by
  induction hv generalizing l with
  | nil => simp
  | @cons e v es vs h hv ih =>
    cases l with
    | nil => simp at hlen
    | cons w l =>
      obtain ⟨i1, i2⟩ := ih (by simpa using hlen) fun x hx => hw x (List.mem_cons_of_mem _ hx)
      have hw0 : (0 : ℝ) < (w : ℝ) := by exact_mod_cast hw w List.mem_cons_self
      simp only [List.zipWith_cons_cons, List.sum_cons, Rat.cast_add, Rat.cast_mul, Rat.cast_abs]
      refine ⟨?_, ?_⟩
      · have e1 := abs_le.1 i1
        have h1 : |((v : ℝ) - T e) * w| ≤ ε * B e * w := by
          rw [abs_mul, abs_of_pos hw0]
          exact mul_le_mul_of_nonneg_right h.1 hw0.le
        have e2 := abs_le.1 h1
        rw [abs_le]
        constructor <;> nlinarith
      · have := mul_le_mul_of_nonneg_right h.2 hw0.le
        nlinarith

/-- The weighted sum in floating point of values that are near their targets. -/
theorem coadd_near {rnd rs : ℚ → ℚ} {ps : ℕ} (hr : Rounds 53 rnd) (h4 : 1 ≤ ps) (hrs : Rounds ps rs)
    {α : Type} {es : List α} {vs l l'' : List ℚ} {T B : α → ℝ} {ε : ℝ}
    (hv : List.Forall₂ (fun e (v : ℚ) => |(v : ℝ) - T e| ≤ ε * B e ∧ |(v : ℝ)| ≤ (1 + ε) * B e) es vs)
    (hlen : es.length = l.length) (hl : ∀ w ∈ l, IsFloat 53 w ∧ 0 < w) (hn : WeightRuns rnd l l'') :
    |(coaddPixelD rnd rnd rs 0 (vs.zip l'') : ℝ) - epochMean T es l| ≤
      (ε + (1 + ε) * (sumError ps l.length : ℝ)) * epochMean B es l := by
  have hm := C131_mean 53 53 53 ps (by norm_num) (by norm_num) (by norm_num) h4 rnd rnd rnd rs hr hr hr hrs vs l l''
    hl (hv.length_eq.symm.trans hlen) hn
  change _ ≤ sumError ps l.length * _ at hm
  have h0 := sumError_nonneg ps l.length
  obtain ⟨c1, c2⟩ := epochMean_close hv hlen fun w hw => (hl w hw).2
  have hs : (0 : ℚ) ≤ l.sum := List.sum_nonneg fun w hw => (hl w hw).2.le
  have hsR : (0 : ℝ) ≤ ((l.sum : ℚ) : ℝ) := by exact_mod_cast hs
  have hmR : |(coaddPixelD rnd rnd rs 0 (vs.zip l'') : ℝ) -
      (((List.zipWith (fun x w => x * w) vs l).sum : ℚ) : ℝ) / ((l.sum : ℚ) : ℝ)| ≤
      (sumError ps l.length : ℝ) * ((((List.zipWith (fun x w => |x| * w) vs l).sum : ℚ) : ℝ) / ((l.sum : ℚ) : ℝ)) := by
    exact_mod_cast hm
  have h0R : (0 : ℝ) ≤ (sumError ps l.length : ℝ) := by exact_mod_cast h0
  unfold epochMean
  set S := ((l.sum : ℚ) : ℝ)
  set X := (((List.zipWith (fun x w => x * w) vs l).sum : ℚ) : ℝ)
  set A := (((List.zipWith (fun x w => |x| * w) vs l).sum : ℚ) : ℝ)
  set T' := (List.zipWith (fun e (w : ℚ) => T e * (w : ℝ)) es l).sum
  set B' := (List.zipWith (fun e (w : ℚ) => B e * (w : ℝ)) es l).sum
  have k1 : |X / S - T' / S| ≤ ε * (B' / S) := by
    rw [← sub_div, abs_div, abs_of_nonneg hsR, ← mul_div_assoc]
    exact div_le_div_of_nonneg_right c1 hsR
  have k2 : A / S ≤ (1 + ε) * (B' / S) := by
    rw [← mul_div_assoc]
    exact div_le_div_of_nonneg_right c2 hsR
  calc _ ≤ |(coaddPixelD rnd rnd rs 0 (vs.zip l'') : ℝ) - X / S| + |X / S - T' / S| := abs_sub_le _ _ _
    _ ≤ (sumError ps l.length : ℝ) * ((1 + ε) * (B' / S)) + ε * (B' / S) :=
      add_le_add (hmR.trans (mul_le_mul_of_nonneg_left k2 h0R)) k1
    _ = _ := by ring

/-- C138: from the pixels of the epochs to the value stored, a pixel of the coadd differs from the weighted mean of
the Lanczos sums of the epochs by at most 2.11e-6, and the error of the weighted sum, times the weighted mean of the
sums of the absolute values of the pixels used. -/
theorem C138_pixel {rnd rs : ℚ → ℚ} {ps : ℕ} (hr : Rounds 53 rnd) (h4 : 1 ≤ ps) (hrs : Rounds ps rs)
    (es : List EpochAt) (vs l l'' : List ℚ) (hv : List.Forall₂ (EpochRuns rnd) es vs) (hlen : es.length = l.length)
    (hl : ∀ w ∈ l, IsFloat 53 w ∧ 0 < w) (hn : WeightRuns rnd l l'') :
    |(coaddPixelD rnd rnd rs 0 (vs.zip l'') : ℝ) - epochMean epochLanczos es l| ≤
      (2.11e-6 + (1 + 2.11e-6) * (sumError ps l.length : ℝ)) * epochMean epochAbs es l := by
  refine coadd_near hr h4 hrs (hv.imp fun e v h => ?_) hlen hl hn
  obtain ⟨hf, flag, hrun⟩ := h
  obtain ⟨v', e', ho, hb⟩ := C132_value hr e.1 hf 3 (by norm_num) (by norm_num) _ _ _ hrun
  cases ho
  change |(v : ℝ) - epochLanczos e| ≤ 2.11e-6 * epochAbs e at hb
  refine ⟨hb, ?_⟩
  have h1 := abs_epochLanczos_le e
  have h2 := abs_sub_abs_le_abs_sub (v : ℝ) (epochLanczos e)
  linarith

theorem sumError_anti {ps qs : ℕ} (h : ps ≤ qs) (n : ℕ) : sumError qs n ≤ sumError ps n := by
  unfold sumError
  have u1 := unitOf_pos 53
  have u2 := unitOf_pos qs
  have hu := unitOf_anti h
  have hlo := lowOf_pos (p := 53) (by norm_num) n
  have hhi := highOf_pos (p := 53) (by norm_num) n
  have hK : 0 ≤ highOf (unitOf 53) n ^ 2 / lowOf (unitOf 53) n := by positivity
  have hB : ((1 + unitOf 53) * (1 + unitOf qs)) ^ n ≤ ((1 + unitOf 53) * (1 + unitOf ps)) ^ n :=
    pow_le_pow_left₀ (by positivity) (by nlinarith) n
  have := mul_le_mul_of_nonneg_right (mul_le_mul_of_nonneg_right hB (by linarith : 0 ≤ 1 + unitOf 53)) hK
  linarith

/-- The weighted sum of up to 250 epochs, stored in double precision, is right to 2e-13 ... -/
theorem sumError_double {n : ℕ} (h : n ≤ 250) : sumError 53 n ≤ 2e-13 := by
  refine (sumError_mono 53 h).trans ?_
  norm_num [sumError, unitOf, highOf, lowOf]

/-- ... and that of up to a hundred epochs, stored in single precision, to 6e-6. -/
theorem sumError_single {n ps : ℕ} (h : n ≤ 100) (hps : 24 ≤ ps) : sumError ps n ≤ 5.97e-6 := by
  refine ((sumError_anti hps n).trans (sumError_mono 24 h)).trans ?_
  norm_num [sumError, unitOf, highOf, lowOf]

theorem epochMean_nonneg {α : Type} {f : α → ℝ} (hf : ∀ e, 0 ≤ f e) (es : List α) {l : List ℚ} (hl : ∀ w ∈ l, 0 < w) :
    0 ≤ epochMean f es l := by
  refine div_nonneg (List.sum_nonneg fun x hx => ?_) (by exact_mod_cast List.sum_nonneg fun w hw => (hl w hw).le)
  obtain ⟨i, hi, rfl⟩ := List.mem_iff_getElem.1 hx
  rw [List.getElem_zipWith]
  exact mul_nonneg (hf _) (by exact_mod_cast (hl _ (List.getElem_mem _)).le)

/-- C138: with up to 250 epochs and images in double precision rounding adds nothing that matters to the error of the
kernel: a pixel of the coadd is the weighted mean of the Lanczos sums to 2.12e-6 of the weighted mean of the sums of
the absolute values of the pixels used. -/
theorem C138_double {rnd rs : ℚ → ℚ} (hr : Rounds 53 rnd) (hrs : Rounds 53 rs)
    (es : List EpochAt) (vs l l'' : List ℚ) (hv : List.Forall₂ (EpochRuns rnd) es vs) (hlen : es.length = l.length)
    (h250 : es.length ≤ 250) (hl : ∀ w ∈ l, IsFloat 53 w ∧ 0 < w) (hn : WeightRuns rnd l l'') :
    |(coaddPixelD rnd rnd rs 0 (vs.zip l'') : ℝ) - epochMean epochLanczos es l| ≤ 2.12e-6 * epochMean epochAbs es l := by
  refine (C138_pixel hr (by norm_num) hrs es vs l l'' hv hlen hl hn).trans ?_
  refine mul_le_mul_of_nonneg_right ?_ (epochMean_nonneg epochAbs_nonneg es fun w hw => (hl w hw).2)
  have : ((sumError 53 l.length : ℚ) : ℝ) ≤ ((2e-13 : ℚ) : ℝ) := by exact_mod_cast sumError_double (hlen ▸ h250)
  norm_num at this ⊢
  linarith

/-- C138: with up to 100 epochs and images in single precision it is so to 8.1e-6. -/
theorem C138_single {rnd rs : ℚ → ℚ} {ps : ℕ} (hr : Rounds 53 rnd) (hps : 24 ≤ ps) (hrs : Rounds ps rs)
    (es : List EpochAt) (vs l l'' : List ℚ) (hv : List.Forall₂ (EpochRuns rnd) es vs) (hlen : es.length = l.length)
    (h100 : es.length ≤ 100) (hl : ∀ w ∈ l, IsFloat 53 w ∧ 0 < w) (hn : WeightRuns rnd l l'') :
    |(coaddPixelD rnd rnd rs 0 (vs.zip l'') : ℝ) - epochMean epochLanczos es l| ≤ 8.1e-6 * epochMean epochAbs es l := by
  refine (C138_pixel hr (by omega) hrs es vs l l'' hv hlen hl hn).trans ?_
  refine mul_le_mul_of_nonneg_right ?_ (epochMean_nonneg epochAbs_nonneg es fun w hw => (hl w hw).2)
  have : ((sumError ps l.length : ℚ) : ℝ) ≤ ((5.97e-6 : ℚ) : ℝ) := by
    exact_mod_cast sumError_single (hlen ▸ h100) hps
  norm_num at this ⊢
  linarith

theorem epochMean_const (c : ℝ) {es : List EpochAt} {l : List ℚ} (hlen : es.length = l.length) (hne : es ≠ [])
    (hl : ∀ w ∈ l, 0 < w) : epochMean (fun _ => c) es l = c := by
  have key : ∀ (es : List EpochAt) (l : List ℚ), es.length = l.length →
      (List.zipWith (fun (_ : EpochAt) (w : ℚ) => c * (w : ℝ)) es l).sum = c * ((l.sum : ℚ) : ℝ) := by
    intro es
    induction es with
    | nil => intro l h; cases l with
      | nil => simp
      | cons _ _ => simp at h
    | cons e es ih => intro l h; cases l with
      | nil => simp at h
      | cons w l =>
        simp only [List.zipWith_cons_cons, List.sum_cons, ih l (by simpa using h)]
        push_cast
        ring
  have hs : 0 < l.sum := by
    cases l with
    | nil => exact absurd (List.length_eq_zero_iff.1 hlen) hne
    | cons w l =>
      rw [List.sum_cons]
      have := hl w List.mem_cons_self
      have := List.sum_nonneg fun w hw => (hl w (List.mem_cons_of_mem _ hw)).le
      linarith
  have hsR : (0 : ℝ) < ((l.sum : ℚ) : ℝ) := by exact_mod_cast hs
  unfold epochMean
  rw [key es l hlen]
  field_simp

/-- C138: where every epoch has the value `c` all over the kernel, well inside its image, the coadd has the value `c`
to 1.18 per cent, with whatever weights and positions: coadding neither creates nor removes flux on flat images. -/
theorem C138_flat {rnd rs : ℚ → ℚ} {ps : ℕ} (hr : Rounds 53 rnd) (hps : 24 ≤ ps) (hrs : Rounds ps rs) (c : ℚ)
    (es : List EpochAt) (vs l l'' : List ℚ) (hv : List.Forall₂ (EpochRuns rnd) es vs) (hlen : es.length = l.length)
    (hne : es ≠ []) (h100 : es.length ≤ 100) (hl : ∀ w ∈ l, IsFloat 53 w ∧ 0 < w) (hn : WeightRuns rnd l l'')
    (hin : ∀ e ∈ es, 2 ≤ e.2.1 ∧ e.2.1 + 3 < e.1.nrow ∧ 2 ≤ e.2.2 ∧ e.2.2 + 3 < e.1.ncol)
    (hc : ∀ e ∈ es, ∀ r k, InKernel 3 e.2.1 r → InKernel 3 e.2.2 k → e.1.px r k = c) :
    |coaddPixelD rnd rnd rs 0 (vs.zip l'') - c| ≤ 0.0118 * |c| := by
  have hv' : List.Forall₂ (fun (_ : EpochAt) (v : ℚ) =>
      |(v : ℝ) - (c : ℝ)| ≤ 0.0117 * |(c : ℝ)| ∧ |(v : ℝ)| ≤ (1 + 0.0117) * |(c : ℝ)|) es vs := by
    rw [List.forall₂_iff_get] at hv ⊢
    refine ⟨hv.1, fun i h1 h2 => ?_⟩
    obtain ⟨hf, flag, hrun⟩ := hv.2 i h1 h2
    have hm : es.get ⟨i, h1⟩ ∈ es := List.get_mem _ _
    generalize es.get ⟨i, h1⟩ = e at *
    generalize vs.get ⟨i, h2⟩ = v at *
    obtain ⟨i1, i2, i3, i4⟩ := hin e hm
    have := (C132_constant hr e.1 hf c _ _ v flag i1 i2 i3 i4 (hc e hm) hrun).2
    have hR : |(v : ℝ) - (c : ℝ)| ≤ 0.0117 * |(c : ℝ)| := by
      have : ((|v - c| : ℚ) : ℝ) ≤ ((0.0117 * |c| : ℚ) : ℝ) := by exact_mod_cast this
      push_cast at this
      exact this
    refine ⟨hR, ?_⟩
    have h2 := abs_sub_abs_le_abs_sub (v : ℝ) (c : ℝ)
    linarith
  have hw : ∀ w ∈ l, 0 < w := fun w hw => (hl w hw).2
  have hb := coadd_near (T := fun _ => (c : ℝ)) (B := fun _ => |(c : ℝ)|) hr (by omega) hrs hv' hlen hl hn
  rw [epochMean_const _ hlen hne hw, epochMean_const _ hlen hne hw] at hb
  have h1 : ((sumError ps l.length : ℚ) : ℝ) ≤ ((5.97e-6 : ℚ) : ℝ) := by
    exact_mod_cast sumError_single (hlen ▸ h100) hps
  have hfin : |(coaddPixelD rnd rnd rs 0 (vs.zip l'') : ℝ) - c| ≤ 0.0118 * |(c : ℝ)| := by
    refine hb.trans (mul_le_mul_of_nonneg_right ?_ (abs_nonneg _))
    norm_num at h1 ⊢
    linarith
  have : ((|coaddPixelD rnd rnd rs 0 (vs.zip l'') - c| : ℚ) : ℝ) ≤ ((0.0118 * |c| : ℚ) : ℝ) := by
    push_cast
    exact hfin
  exact_mod_cast this

/-- C138: where the places in the epochs are centres of their pixels the coadd is the weighted mean of those pixels to
5e-12 and the error of the weighted sum, whatever the pixels around them. -/
theorem C138_aligned {rnd rs : ℚ → ℚ} {ps : ℕ} (hr : Rounds 53 rnd) (h4 : 1 ≤ ps) (hrs : Rounds ps rs)
    (es : List (Img ℚ × ℕ × ℕ)) (vs l l'' : List ℚ)
    (hv : List.Forall₂ (fun e v => EpochRuns rnd (e.1, (e.2.1 : ℚ), (e.2.2 : ℚ)) v) es vs)
    (hin : ∀ e ∈ es, e.2.1 < e.1.nrow ∧ e.2.2 < e.1.ncol)
    (hlen : es.length = l.length) (hl : ∀ w ∈ l, IsFloat 53 w ∧ 0 < w) (hn : WeightRuns rnd l l'') :
    |coaddPixelD rnd rnd rs 0 (vs.zip l'') - (List.zipWith (fun e w => e.1.px e.2.1 e.2.2 * w) es l).sum / l.sum| ≤
      (5e-12 + (1 + 5e-12) * sumError ps l.length) *
        ((List.zipWith (fun e w => |e.1.px e.2.1 e.2.2| * w) es l).sum / l.sum) := by
  have hv' : List.Forall₂ (fun (e : Img ℚ × ℕ × ℕ) (v : ℚ) => |v - e.1.px e.2.1 e.2.2| ≤ 5e-12 * |e.1.px e.2.1 e.2.2|)
      es vs := by
    rw [List.forall₂_iff_get] at hv ⊢
    refine ⟨hv.1, fun i h1 h2 => ?_⟩
    obtain ⟨hf, flag, hrun⟩ := hv.2 i h1 h2
    obtain ⟨i1, i2⟩ := hin _ (List.get_mem es ⟨i, h1⟩)
    exact C132_integer hr _ hf 3 (by norm_num) _ _ i1 i2 _ flag hrun
  have hm := C131_mean 53 53 53 ps (by norm_num) (by norm_num) (by norm_num) h4 rnd rnd rnd rs hr hr hr hrs vs l l''
    hl (hv.length_eq.symm.trans hlen) hn
  change _ ≤ sumError ps l.length * _ at hm
  have h0 := sumError_nonneg ps l.length
  have hs : (0 : ℚ) ≤ l.sum := List.sum_nonneg fun w hw => (hl w hw).2.le
  have key : ∀ {es : List (Img ℚ × ℕ × ℕ)} {vs l : List ℚ},
      List.Forall₂ (fun (e : Img ℚ × ℕ × ℕ) (v : ℚ) => |v - e.1.px e.2.1 e.2.2| ≤ 5e-12 * |e.1.px e.2.1 e.2.2|) es vs →
      (∀ w ∈ l, 0 < w) →
      |(List.zipWith (fun x w => x * w) vs l).sum - (List.zipWith (fun e w => e.1.px e.2.1 e.2.2 * w) es l).sum| ≤
        5e-12 * (List.zipWith (fun e w => |e.1.px e.2.1 e.2.2| * w) es l).sum ∧
      (List.zipWith (fun x w => |x| * w) vs l).sum ≤
        (1 + 5e-12) * (List.zipWith (fun e w => |e.1.px e.2.1 e.2.2| * w) es l).sum := by
    intro es vs l h hl
    induction h generalizing l with
    | nil => simp
    | @cons e v es vs h hv ih =>
      cases l with
      | nil => simp
      | cons w l =>
        obtain ⟨i1, i2⟩ := ih fun x hx => hl x (List.mem_cons_of_mem _ hx)
        have hw0 := hl w List.mem_cons_self
        simp only [List.zipWith_cons_cons, List.sum_cons]
        generalize (List.zipWith (fun x w => x * w) vs l).sum = X at *
        generalize (List.zipWith (fun x w => |x| * w) vs l).sum = A at *
        generalize (List.zipWith (fun (e : Img ℚ × ℕ × ℕ) w => e.1.px e.2.1 e.2.2 * w) es l).sum = T at *
        generalize (List.zipWith (fun (e : Img ℚ × ℕ × ℕ) w => |e.1.px e.2.1 e.2.2| * w) es l).sum = B at *
        generalize e.1.px e.2.1 e.2.2 = q at *
        have h1 : |(v - q) * w| ≤ 5e-12 * |q| * w := by
          rw [abs_mul, abs_of_pos hw0]
          exact mul_le_mul_of_nonneg_right h hw0.le
        have h3 : |v| ≤ (1 + 5e-12) * |q| := by
          have := abs_sub_abs_le_abs_sub v q
          linarith
        refine ⟨?_, ?_⟩
        · have e1 := abs_le.1 i1
          have e2 := abs_le.1 h1
          rw [abs_le]
          constructor <;> nlinarith
        · have := mul_le_mul_of_nonneg_right h3 hw0.le
          nlinarith
  obtain ⟨c1, c2⟩ := key hv' fun w hw => (hl w hw).2
  generalize (List.zipWith (fun x w => x * w) vs l).sum = X at *
  generalize (List.zipWith (fun x w => |x| * w) vs l).sum = A at *
  generalize (List.zipWith (fun (e : Img ℚ × ℕ × ℕ) w => e.1.px e.2.1 e.2.2 * w) es l).sum = T at *
  generalize (List.zipWith (fun (e : Img ℚ × ℕ × ℕ) w => |e.1.px e.2.1 e.2.2| * w) es l).sum = B at *
  generalize l.sum = S at *
  have k1 : |X / S - T / S| ≤ 5e-12 * (B / S) := by
    rw [← sub_div, abs_div, abs_of_nonneg hs, ← mul_div_assoc]
    exact div_le_div_of_nonneg_right c1 hs
  have k2 : A / S ≤ (1 + 5e-12) * (B / S) := by
    rw [← mul_div_assoc]
    exact div_le_div_of_nonneg_right c2 hs
  calc _ ≤ |coaddPixelD rnd rnd rs 0 (vs.zip l'') - X / S| + |X / S - T / S| := abs_sub_le _ _ _
    _ ≤ sumError ps l.length * ((1 + 5e-12) * (B / S)) + 5e-12 * (B / S) :=
      add_le_add (hm.trans (mul_le_mul_of_nonneg_left k2 h0)) k1
    _ = _ := by ring

/-! ### Two epochs -/

theorem exEpochRuns {rnd : ℚ → ℚ} (hr : Rounds 53 rnd) (im : Img ℚ)
    (hf : ∀ r < im.nrow, ∀ c < im.ncol, IsFloat 53 (im.px r c)) (y x : ℚ) : ∃ v, EpochRuns rnd (im, y, x) v := by
  have h := C132_source_order hr im 3 (by norm_num) y x
  obtain ⟨v, e, hv, -⟩ := C132_value hr im hf 3 (by norm_num) (by norm_num) _ _ _ h
  rw [hv] at h
  exact ⟨v, hf, e, h⟩

theorem exWeights13 : ∀ w ∈ ([1, 3] : List ℚ), IsFloat 53 w ∧ 0 < w := by
  intro w hw
  rcases List.mem_cons.1 hw with rfl | hw
  · exact ⟨⟨1, 0, by norm_num, by norm_num⟩, by norm_num⟩
  · rw [List.mem_singleton] at hw
    subst hw
    exact ⟨⟨3, 0, by norm_num, by norm_num⟩, by norm_num⟩

theorem exFlatFloat : ∀ r < (10 : ℕ), ∀ c < (10 : ℕ), IsFloat 53 (7 : ℚ) := fun _ _ _ _ => by
  exact_mod_cast isFloat_int (p := 53) (n := 7) (by norm_num)

/-- `C138_flat`, `C138_pixel`, `C138_double`, `C138_single`: two epochs that are 7 everywhere, at different places and
with weights 1 and 3, stored in single precision. -/
example : ∃ rnd rs, Rounds 53 rnd ∧ Rounds 24 rs ∧ ∃ v1 v2 l'', WeightRuns rnd [1, 3] l'' ∧
    List.Forall₂ (EpochRuns rnd) [(⟨10, 10, fun _ _ => 7⟩, 4.5, 5.5), (⟨10, 10, fun _ _ => 7⟩, 3.25, 4)] [v1, v2] ∧
    |coaddPixelD rnd rnd rs 0 ([v1, v2].zip l'') - 7| ≤ 0.0118 * 7 := by
  obtain ⟨rnd, hr⟩ := exists_rounds 53 (by norm_num)
  obtain ⟨rs, hrs⟩ := exists_rounds 24 (by norm_num)
  obtain ⟨l'', hn⟩ := exists_weightRuns rnd [1, 3]
  obtain ⟨v1, h1⟩ := exEpochRuns hr ⟨10, 10, fun _ _ => 7⟩ exFlatFloat 4.5 5.5
  obtain ⟨v2, h2⟩ := exEpochRuns hr ⟨10, 10, fun _ _ => 7⟩ exFlatFloat 3.25 4
  have hv : List.Forall₂ (EpochRuns rnd) [(⟨10, 10, fun _ _ => 7⟩, 4.5, 5.5), (⟨10, 10, fun _ _ => 7⟩, 3.25, 4)]
    [v1, v2] := .cons h1 (.cons h2 .nil)
  refine ⟨rnd, rs, hr, hrs, v1, v2, l'', hn, hv, ?_⟩
  have := C138_flat hr (le_refl 24) hrs 7 _ _ [1, 3] l'' hv rfl (by simp) (by simp) exWeights13 hn (by
    intro e he
    simp only [List.mem_cons, List.not_mem_nil, or_false] at he
    rcases he with rfl | rfl <;> norm_num) (by
    intro e he r k _ _
    simp only [List.mem_cons, List.not_mem_nil, or_false] at he
    rcases he with rfl | rfl <;> rfl)
  rwa [abs_of_pos (by norm_num : (0 : ℚ) < 7)] at this

/-- `C138_aligned`: two epochs with the pixels -1 and 2 at the places asked for, and other values around them. -/
example : ∃ rnd, Rounds 53 rnd ∧ ∃ v1 v2 l'', WeightRuns rnd [1, 3] l'' ∧
    EpochRuns rnd (⟨4, 4, fun r c => (r : ℚ) - c⟩, (1 : ℕ), (2 : ℕ)) v1 ∧
    EpochRuns rnd (⟨4, 4, fun r c => (r : ℚ) - c⟩, (3 : ℕ), (1 : ℕ)) v2 ∧
    |coaddPixelD rnd rnd rnd 0 ([v1, v2].zip l'') - 5 / 4| ≤ 1 / 10 ^ 11 := by
  obtain ⟨rnd, hr⟩ := exists_rounds 53 (by norm_num)
  obtain ⟨l'', hn⟩ := exists_weightRuns rnd [1, 3]
  have hf : ∀ r < (4 : ℕ), ∀ c < (4 : ℕ), IsFloat 53 ((r : ℚ) - c) := fun r h c h' => by
    have : ((r : ℚ) - c) = (((r : ℤ) - c : ℤ) : ℚ) := by push_cast; rfl
    rw [this]
    exact isFloat_int (by rw [abs_le]; omega)
  obtain ⟨v1, h1⟩ := exEpochRuns hr ⟨4, 4, fun r c => (r : ℚ) - c⟩ hf (1 : ℕ) (2 : ℕ)
  obtain ⟨v2, h2⟩ := exEpochRuns hr ⟨4, 4, fun r c => (r : ℚ) - c⟩ hf (3 : ℕ) (1 : ℕ)
  refine ⟨rnd, hr, v1, v2, l'', hn, h1, h2, ?_⟩
  have := C138_aligned hr (by norm_num) hr
    [(⟨4, 4, fun r c => (r : ℚ) - c⟩, 1, 2), (⟨4, 4, fun r c => (r : ℚ) - c⟩, 3, 1)] [v1, v2] [1, 3] l''
    (.cons h1 (.cons h2 .nil)) (by
      intro e he
      simp only [List.mem_cons, List.not_mem_nil, or_false] at he
      rcases he with rfl | rfl <;> norm_num) rfl exWeights13 hn
  norm_num [sumError, unitOf, highOf, lowOf] at this
  refine (le_of_eq ?_).trans (this.trans (by norm_num))
  norm_num

end Pizza
