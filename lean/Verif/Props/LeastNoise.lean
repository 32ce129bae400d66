import Mathlib.Probability.Moments.Variance
import Verif.Props.PointSource
import Verif.Props.NoiseFill

/-!
C152: among all weighted means the coadd is the one with the least noise.
-/

namespace Pizza

open MeasureTheory ProbabilityTheory

variable {A σ S Ω : Type}

theorem RawWeight.unique {x : Ext A σ} {c : BuildCfg A} {e : Epoch} {v v' : ℚ} (h : RawWeight x c e v) (h' : RawWeight x c e v') :
    v = v' := by
  obtain ⟨w, psf, top, a1, a2, ⟨r, hr, j, hj, a3⟩, a4, a5⟩ := h
  obtain ⟨w', psf', top', b1, b2, ⟨r', hr', j', hj', b3⟩, b4, b5⟩ := h'
  cases a1.symm.trans b1
  cases a2.symm.trans b2
  have ht : top = top' := le_antisymm (a3 ▸ b4 r hr j hj) (b3 ▸ a4 r' hr' j' hj')
  subst ht
  rcases a5 with ⟨a6, rfl⟩ | ⟨a6, f, a7, rfl⟩ <;> rcases b5 with ⟨b6, rfl⟩ | ⟨b6, f', b7, rfl⟩
  · rfl
  · rw [a6] at b6; cases b6
  · rw [a6] at b6; cases b6
  · cases a7.symm.trans b7; rfl

/-- The variance of a weighted sum of uncorrelated variables. -/
theorem variance_weighted [MeasurableSpace Ω] (P : Measure Ω) [IsProbabilityMeasure P] (n : Nat) (N : Nat → Ω → ℝ)
    (hN : ∀ k < n, MemLp (N k) 2 P) (hc : ∀ k < n, ∀ l < n, k ≠ l → cov[N k, N l; P] = 0) (ν : Nat → ℝ) :
    Var[fun ω => ∑ k ∈ Finset.range n, ν k * N k ω; P] = ∑ k ∈ Finset.range n, ν k ^ 2 * Var[N k; P] := by
  rw [variance_fun_sum' (X := fun k ω => ν k * N k ω) fun k hk => (hN k (Finset.mem_range.1 hk)).const_mul _]
  refine Finset.sum_congr rfl fun k hk => ?_
  rw [Finset.sum_eq_single_of_mem k hk]
  · rw [covariance_const_mul_left, covariance_const_mul_right, covariance_self (hN k (Finset.mem_range.1 hk)).1.aemeasurable]
    ring
  · intro l hl hne
    rw [covariance_const_mul_left, covariance_const_mul_right, hc k (Finset.mem_range.1 hk) l (Finset.mem_range.1 hl) hne.symm]
    ring

/-- Weights proportional to the inverse variances have the least variance. -/
theorem least_variance (n : Nat) (W V ν : Nat → ℝ) (κ : ℝ) (hκ : 0 ≤ κ) (hW : ∀ k < n, 0 < W k) (hV : ∀ k < n, V k = κ / W k)
    (hn : 0 < n) (hν : ∑ k ∈ Finset.range n, ν k = 1) :
    ∑ k ∈ Finset.range n, (W k / ∑ l ∈ Finset.range n, W l) ^ 2 * V k = κ / ∑ l ∈ Finset.range n, W l ∧
    κ / ∑ l ∈ Finset.range n, W l ≤ ∑ k ∈ Finset.range n, ν k ^ 2 * V k := by
  set T := ∑ l ∈ Finset.range n, W l with hT
  have hT0 : 0 < T := Finset.sum_pos (fun k hk => hW k (Finset.mem_range.1 hk)) ⟨0, Finset.mem_range.2 hn⟩
  constructor
  · calc _ = ∑ k ∈ Finset.range n, W k * (κ / T ^ 2) := by
          refine Finset.sum_congr rfl fun k hk => ?_
          have := hW k (Finset.mem_range.1 hk)
          rw [hV k (Finset.mem_range.1 hk)]
          field_simp
      _ = κ / T := by
          rw [← Finset.sum_mul, ← hT]
          field_simp
  · have h0 : 0 ≤ ∑ k ∈ Finset.range n, κ / W k * (ν k - W k / T) ^ 2 :=
      Finset.sum_nonneg fun k hk => mul_nonneg (div_nonneg hκ (hW k (Finset.mem_range.1 hk)).le) (sq_nonneg _)
    have h1 : ∑ k ∈ Finset.range n, κ / W k * (ν k - W k / T) ^ 2 =
        (∑ k ∈ Finset.range n, ν k ^ 2 * V k) - 2 * (κ / T) * (∑ k ∈ Finset.range n, ν k) +
          (κ / T ^ 2) * ∑ k ∈ Finset.range n, W k := by
      rw [Finset.mul_sum, Finset.mul_sum, ← Finset.sum_sub_distrib, ← Finset.sum_add_distrib]
      refine Finset.sum_congr rfl fun k hk => ?_
      have := hW k (Finset.mem_range.1 hk)
      rw [hV k (Finset.mem_range.1 hk)]
      field_simp
      ring
    rw [h1, hν, ← hT, show κ / T ^ 2 * T = κ / T by field_simp] at h0
    linarith

theorem sum_getD_range (l : List ℚ) : ∑ k ∈ Finset.range l.length, l.getD k 0 = l.sum := by
  induction l with
  | nil => simp
  | cons a l ih =>
    rw [List.length_cons, Finset.sum_range_succ']
    simp only [List.getD_cons_succ, List.getD_cons_zero, List.sum_cons, ih]
    ring

/-- C152: let the noises of the used epochs in a pixel be uncorrelated, with variances in inverse proportion to the raw weights (the
largest weights of the slices, over the fourth powers of the PSF widths for `noise-fwhm`).  Then the noise of their mean with the
weights of the coadd has the variance that belongs to the sum of the raw weights, and no other normalised weights give less. -/
theorem C152_least_noise (v : SliceEnv A σ S) (box psfBox : Nat) (hv : SoundEnv v box psfBox) (i seed : Nat)
    (r : SliceRes Flt EpochRow) (h : coaddSingleSlice v i seed = .ok r) :
    ∃ row lay gaia cfg inp, v.objects[i]? = some row ∧
      coaddPsfLayout v.fwd v.inv row.ra row.dec row.psfBoxSize v.offset = .ok lay ∧
      StarMask v row gaia ∧ SliceCfg v row gaia cfg ∧
      buildSliceInputs v.ext cfg (v.sources row.ra row.dec lay.raPsf lay.decPsf)
        (v.seeded seed) = .ok inp ∧
      (inp.slices ≠ [] → ∀ raw : List ℚ, List.Forall₂ (RawWeight v.ext cfg) inp.slices raw →
        (∀ w ∈ raw, 0 < w) ∧ r.weights.length = raw.length ∧
        ∀ [MeasurableSpace Ω] (P : Measure Ω) [IsProbabilityMeasure P] (N : Nat → Ω → ℝ) (κ : ℝ), 0 ≤ κ →
          (∀ k < raw.length, MemLp (N k) 2 P) →
          (∀ k < raw.length, ∀ l < raw.length, k ≠ l → cov[N k, N l; P] = 0) →
          (∀ (k : Nat) (w : ℚ), raw[k]? = some w → Var[N k; P] = κ / w) →
          Var[fun ω => ∑ k ∈ Finset.range raw.length, ((r.weights.getD k 0 : ℚ) : ℝ) * N k ω; P] = κ / (raw.sum : ℚ) ∧
          ∀ ν : Nat → ℝ, ∑ k ∈ Finset.range raw.length, ν k = 1 →
            Var[fun ω => ∑ k ∈ Finset.range raw.length, ((r.weights.getD k 0 : ℚ) : ℝ) * N k ω; P] ≤
              Var[fun ω => ∑ k ∈ Finset.range raw.length, ν k * N k ω; P]) := by
  obtain ⟨_, row, lay, gaia, cfg, inp, h1, h2, h3, h4, h5, h6, _, _, h8⟩ :=
    C93_slice v box psfBox hv i seed r h
  have hr := List.mem_of_getElem? h1
  have hx := hv.sane hr gaia row.ra row.dec lay.raPsf lay.decPsf
  rw [← h4.eq] at hx
  refine ⟨row, lay, gaia, cfg, inp, h1, h2, h3, h4, h5, fun hne raw hraw => ?_⟩
  obtain ⟨hw, w2, -⟩ := h8 hne
  obtain ⟨raw', g1, g2, g3⟩ := C49_values v.ext _ _ _ inp hx h5
  have heq : raw' = raw := by
    have l1 := g1.length_eq
    have l2 := hraw.length_eq
    refine List.ext_getElem (by omega) fun k k1 k2 => ?_
    exact ((List.forall₂_iff_get.1 g1).2 k (by omega) k1).unique ((List.forall₂_iff_get.1 hraw).2 k (by omega) k2)
  subst heq
  have hpos := g3 fun _ => hv.fwhm
  have hlen : 0 < raw'.length := by
    rw [← hraw.length_eq]
    exact List.length_pos_iff.2 hne
  refine ⟨hpos, by rw [h6, g2, List.length_map], ?_⟩
  intro _ P _ N κ hκ hN hc hV
  have hwk : ∀ k < raw'.length, ((r.weights.getD k 0 : ℚ) : ℝ) =
      ((raw'.getD k 0 : ℚ) : ℝ) / ∑ l ∈ Finset.range raw'.length, ((raw'.getD l 0 : ℚ) : ℝ) := by
    intro k hk
    rw [h6, g2, ← Rat.cast_sum, sum_getD_range, ← Rat.cast_div]
    congr 1
    simp [List.getD_eq_getElem?_getD, hk]
  have hW : ∀ k < raw'.length, (0 : ℝ) < ((raw'.getD k 0 : ℚ) : ℝ) := by
    intro k hk
    rw [List.getD_eq_getElem?_getD, List.getElem?_eq_getElem hk, Option.getD_some]
    exact_mod_cast hpos _ (List.getElem_mem hk)
  have hV' : ∀ k < raw'.length, Var[N k; P] = κ / ((raw'.getD k 0 : ℚ) : ℝ) := by
    intro k hk
    rw [List.getD_eq_getElem?_getD, List.getElem?_eq_getElem hk, Option.getD_some]
    exact hV k _ (List.getElem?_eq_getElem hk)
  have e1 : Var[fun ω => ∑ k ∈ Finset.range raw'.length, ((r.weights.getD k 0 : ℚ) : ℝ) * N k ω; P] = κ / (raw'.sum : ℚ) := by
    rw [variance_weighted P _ N hN hc, Finset.sum_congr rfl fun k hk => by rw [hwk k (Finset.mem_range.1 hk)]]
    have := (least_variance raw'.length (fun k => ((raw'.getD k 0 : ℚ) : ℝ)) (fun k => Var[N k; P])
      (fun k => if k = 0 then 1 else 0) κ hκ hW hV' hlen (by
        rw [Finset.sum_ite_eq' (Finset.range raw'.length) 0 fun _ => (1 : ℝ), if_pos (Finset.mem_range.2 hlen)])).1
    rw [this, ← Rat.cast_sum, sum_getD_range]
  refine ⟨e1, fun ν hν => ?_⟩
  rw [e1, variance_weighted P _ N hN hc]
  have := (least_variance raw'.length (fun k => ((raw'.getD k 0 : ℚ) : ℝ)) (fun k => Var[N k; P]) ν κ hκ hW hV' hlen hν).2
  rw [← Rat.cast_sum, sum_getD_range] at this
  exact this

end Pizza
