import Mathlib.Probability.Moments.Covariance
import Verif.Props.Linear

/-!
C147: the noise images of a slice have the covariances of the noise in its image.
-/

namespace Pizza

open MeasureTheory ProbabilityTheory

variable {A σ S Ω : Type}

/-- The pixel `(r, c)` of the SE image with the given id is one of those that the slice is made from (specification). -/
def SEPixel (v : SliceEnv A σ S) (i : Nat) (q : ℤ × Nat × Nat) : Prop :=
  ∃ l, SourcesOf v i l ∧ ∃ s ∈ l, q.1 = s.imageId ∧ q.2.1 < s.nrow ∧ q.2.2 < s.ncol

/-- `X none` holds the calibrated pixels of the images, and `X (some k)` the pixels of the noise fields of number `k`
(specification). -/
def SEPlanes (v : SliceEnv A σ S) (i : Nat) (X : Option Nat → ℤ × Nat × Nat → ℚ) : Prop :=
  ∀ l, SourcesOf v i l → ImagePlanes l (fun id r c => X none (id, r, c)) ∧
    ∀ k < v.nExtra + 1, NoisePlanes k l (fun id r c => X (some k) (id, r, c))

/-- `Z none` holds the pixels of the image of the slice, and `Z (some k)` those of its noise image of number `k`
(specification). -/
def SlicePlanes (box n : Nat) (p : SlicePix Flt) (Z : Option Nat → Nat → Nat → ℚ) : Prop :=
  HoldsPlane box p.image (Z none) ∧ ∀ k < n, ∃ q, p.noises[k]? = some q ∧ HoldsPlane box q (Z (some k))

/-- The planes that there are: the image and `n` noise fields (specification). -/
def IsPlane (n : Nat) (a : Option Nat) : Prop := ∀ k, a = some k → k < n

/-- The pixels of a slice are sums over the pixels of the SE images with coefficients that do not depend on the pixels and are
the same for the image and the noise images. -/
theorem slice_coefficients {v : SliceEnv A σ S} {box psfBox : Nat} (hv : SoundEnv v box psfBox)
    (hro : v.cfg.rejectOutliers = false)
    (hm : ∀ ra dec raPsf decPsf, ∀ s ∈ v.sources ra dec raPsf decPsf, ∀ bm, s.reads.bmask = .ok bm →
      Unflagged v.cfg.noiseFlags bm)
    (hid : ∀ ra dec raPsf decPsf, ((v.sources ra dec raPsf decPsf).map (·.imageId)).Nodup) (hl : v.ext.LinearInterp) (i : Nat)
    (ids : List ℤ) :
    ∃ (D : Finset (ℤ × Nat × Nat)) (K : Nat → Nat → ℤ × Nat × Nat → ℚ), (∀ q ∈ D, SEPixel v i q) ∧
      ∀ other : ℚ → ℚ → ℚ → ℚ → List Src, (∀ ra dec raPsf decPsf, List.Forall₂ OtherPixels (v.sources ra dec raPsf decPsf)
        (other ra dec raPsf decPsf)) → SoundEnv { v with sources := other } box psfBox →
      ∀ seed r p, coaddSingleSlice { v with sources := other } i seed = .ok r → r.pix = some p →
        (usedWeights r).map Prod.fst = ids → ∀ X Z, SEPlanes { v with sources := other } i X →
        SlicePlanes box (v.nExtra + 1) p Z → ∀ a, IsPlane (v.nExtra + 1) a → ∀ y < box, ∀ x < box,
          Z a y x = ∑ q ∈ D, K y x q * X a q := by
  classical
  obtain ⟨F, W, hF, -, hrun⟩ := C126_map hv hro hm hid i
  have lin := hF hl ids
  by_cases hs : ∃ l, SourcesOf v i l
  · obtain ⟨l0, h0⟩ := hs
    let D : Finset (ℤ × Nat × Nat) := (l0.flatMap fun s => (List.range s.nrow).flatMap fun r =>
      (List.range s.ncol).map fun c => (s.imageId, r, c)).toFinset
    have hD : ∀ q, q ∈ D ↔ ∃ s ∈ l0, q.1 = s.imageId ∧ q.2.1 < s.nrow ∧ q.2.2 < s.ncol := by
      rintro ⟨id, r, c⟩
      simp only [D, List.mem_toFinset, List.mem_flatMap, List.mem_map, List.mem_range, Prod.mk.injEq]
      constructor
      · rintro ⟨s, hs, r', hr, c', hc, rfl, rfl, rfl⟩
        exact ⟨s, hs, rfl, hr, hc⟩
      · rintro ⟨s, hs, rfl, hr, hc⟩
        exact ⟨s, hs, r, hr, c, hc, rfl, rfl, rfl⟩
    let one : ℤ × Nat × Nat → ℤ → Nat → Nat → ℚ := fun q id r c => if q = (id, r, c) then 1 else 0
    refine ⟨D, fun y x q => F ids (one q) y x, fun q hq => ⟨l0, h0, (hD q).1 hq⟩, ?_⟩
    intro other ho hv' seed r p h hp hu X Z hX hZ a ha y hy x hx
    obtain ⟨-, l, hsl, him, hns⟩ := hrun other ho hv' seed r p h hp
    rw [hu] at him hns
    have hfl : List.Forall₂ OtherPixels l0 l := by
      obtain ⟨row, lay, a1, a2, rfl⟩ := h0
      obtain ⟨row', lay', b1, b2, rfl⟩ := hsl
      cases a1.symm.trans b1
      cases a2.symm.trans b2
      exact ho _ _ _ _
    have hin : ∀ s ∈ l, ∀ r < s.nrow, ∀ c < s.ncol, (s.imageId, r, c) ∈ D := by
      intro s hs r hr c hc
      obtain ⟨n, hn, rfl⟩ := List.getElem_of_mem hs
      have hn0 : n < l0.length := by rw [hfl.length_eq]; exact hn
      have h1 := (List.forall₂_iff_get.1 hfl).2 n hn0 hn
      simp only [List.get_eq_getElem] at h1
      obtain ⟨d1, d2, d3⟩ := h1.dim
      rw [hD]
      exact ⟨l0[n], List.getElem_mem _, d3, by rw [← d1]; exact hr, by rw [← d2]; exact hc⟩
    have hsum : ∀ f : ℤ × Nat × Nat → ℚ,
        F ids (fun id r c => ∑ q ∈ D, f q * one q id r c) y x = ∑ q ∈ D, F ids (one q) y x * f q := by
      intro f
      have e1 : (fun id r c => ∑ q ∈ D, f q * one q id r c) = ∑ q ∈ D, f q • one q := by
        funext id r c
        simp only [Finset.sum_apply, Pi.smul_apply, smul_eq_mul]
      rw [e1]
      have e2 : F ids (∑ q ∈ D, f q • one q) = ∑ q ∈ D, f q • F ids (one q) := by
        have := map_sum (IsLinearMap.mk' (F ids) lin) (fun q => f q • one q) D
        simp only [map_smul] at this
        exact this
      rw [e2]
      simp only [Finset.sum_apply, Pi.smul_apply, smul_eq_mul]
      exact Finset.sum_congr rfl fun q _ => mul_comm _ _
    have hpick : ∀ f : ℤ × Nat × Nat → ℚ, ∀ s ∈ l, ∀ r < s.nrow, ∀ c < s.ncol,
        ∑ q ∈ D, f q * one q s.imageId r c = f (s.imageId, r, c) := by
      intro f s hs r hr c hc
      simp only [one, mul_ite, mul_one, mul_zero]
      rw [Finset.sum_ite_eq' D, if_pos (hin s hs r hr c hc)]
    obtain ⟨hXi, hXn⟩ := hX l hsl
    rcases a with _ | k
    · rw [← hsum]
      have := him (fun id r c => ∑ q ∈ D, X none q * one q id r c)
        (fun s hs im bkg h1 h2 r hr c hc => (hpick _ s hs r hr c hc).trans (hXi s hs im bkg h1 h2 r hr c hc))
      have e := (this.2 y hy x hx).symm.trans (hZ.1.2 y hy x hx)
      exact (Flt.fin.inj (Option.some.inj e)).symm
    · rw [← hsum]
      have hk := ha k rfl
      obtain ⟨q, q1, q2⟩ := hns k hk
      obtain ⟨q', q1', q2'⟩ := hZ.2 k hk
      cases q1.symm.trans q1'
      have := q2 (fun id r c => ∑ q ∈ D, X (some k) q * one q id r c)
        (fun s hs ns b h1 h2 r hr c hc => (hpick _ s hs r hr c hc).trans (hXn k hk s hs ns b h1 h2 r hr c hc))
      have e := (this.2 y hy x hx).symm.trans (q2'.2 y hy x hx)
      exact (Flt.fin.inj (Option.some.inj e)).symm
  · refine ⟨∅, fun _ _ _ => 0, by simp, ?_⟩
    intro other ho hv' seed r p h hp
    obtain ⟨-, l, hsl, -⟩ := hrun other ho hv' seed r p h hp
    obtain ⟨row, lay, b1, b2, -⟩ := hsl
    exact absurd ⟨_, row, lay, b1, b2, rfl⟩ hs

/-- The slice made from SE images whose pixels are random, with the masks, weight maps, PSFs and WCSs given: `X` are the
pixels of the SE images and `Z` those of the slice, which uses the same SE images throughout (specification). -/
structure RandomSlice (v : SliceEnv A σ S) (box psfBox i : Nat) (ids : List ℤ) (X : Option Nat → ℤ × Nat × Nat → Ω → ℚ)
    (Z : Option Nat → Nat → Nat → Ω → ℚ) : Prop where
  run : ∀ ω, ∃ other seed r p, (∀ ra dec raPsf decPsf, List.Forall₂ OtherPixels (v.sources ra dec raPsf decPsf)
      (other ra dec raPsf decPsf)) ∧ SoundEnv { v with sources := other } box psfBox ∧
    coaddSingleSlice { v with sources := other } i seed = .ok r ∧ r.pix = some p ∧ (usedWeights r).map Prod.fst = ids ∧
    SEPlanes { v with sources := other } i (fun a q => X a q ω) ∧
    SlicePlanes box (v.nExtra + 1) p (fun a y x => Z a y x ω)

/-- **C147** Covariances: if the pixels of two planes of the SE images (images or noise fields) have the covariances of the
pixels of two others, so do the pixels of the slice.  With the noise fields drawn as the noise in the images, the
covariance of any two pixels of a noise image is that of the two pixels of the image, and if noise fields are uncorrelated with the
images and with one another, so are the noise images. -/
theorem C147_covariance {v : SliceEnv A σ S} {box psfBox : Nat} (hv : SoundEnv v box psfBox)
    (hro : v.cfg.rejectOutliers = false)
    (hm : ∀ ra dec raPsf decPsf, ∀ s ∈ v.sources ra dec raPsf decPsf, ∀ bm, s.reads.bmask = .ok bm →
      Unflagged v.cfg.noiseFlags bm)
    (hid : ∀ ra dec raPsf decPsf, ((v.sources ra dec raPsf decPsf).map (·.imageId)).Nodup) (hl : v.ext.LinearInterp)
    {i : Nat} {ids : List ℤ} {X : Option Nat → ℤ × Nat × Nat → Ω → ℚ} {Z : Option Nat → Nat → Nat → Ω → ℚ}
    (h : RandomSlice v box psfBox i ids X Z) [MeasurableSpace Ω] (P : Measure Ω) [IsProbabilityMeasure P]
    (hX : ∀ a, IsPlane (v.nExtra + 1) a → ∀ q, SEPixel v i q → MemLp (fun ω => (X a q ω : ℝ)) 2 P)
    {a b a' b' : Option Nat} (ha : IsPlane (v.nExtra + 1) a) (hb : IsPlane (v.nExtra + 1) b)
    (ha' : IsPlane (v.nExtra + 1) a') (hb' : IsPlane (v.nExtra + 1) b')
    (hc : ∀ q q', SEPixel v i q → SEPixel v i q' →
      cov[fun ω => (X a q ω : ℝ), fun ω => (X b q' ω : ℝ); P] = cov[fun ω => (X a' q ω : ℝ), fun ω => (X b' q' ω : ℝ); P]) :
    ∀ y < box, ∀ x < box, ∀ y' < box, ∀ x' < box,
      cov[fun ω => (Z a y x ω : ℝ), fun ω => (Z b y' x' ω : ℝ); P] =
        cov[fun ω => (Z a' y x ω : ℝ), fun ω => (Z b' y' x' ω : ℝ); P] := by
  obtain ⟨D, K, hD, hK⟩ := slice_coefficients hv hro hm hid hl i ids
  have hZ : ∀ a, IsPlane (v.nExtra + 1) a → ∀ y < box, ∀ x < box,
      (fun ω => (Z a y x ω : ℝ)) = fun ω => ∑ q ∈ D, (K y x q : ℝ) * (X a q ω : ℝ) := by
    intro a ha y hy x hx
    funext ω
    obtain ⟨other, seed, r, p, h1, h2, h3, h4, h5, h6, h7⟩ := h.run ω
    have := hK other h1 h2 seed r p h3 h4 h5 _ _ h6 h7 a ha y hy x hx
    rw [this]
    push_cast
    rfl
  have hcov : ∀ a b, IsPlane (v.nExtra + 1) a → IsPlane (v.nExtra + 1) b → ∀ y < box, ∀ x < box, ∀ y' < box, ∀ x' < box,
      cov[fun ω => (Z a y x ω : ℝ), fun ω => (Z b y' x' ω : ℝ); P] = ∑ q ∈ D, ∑ q' ∈ D, (K y x q : ℝ) * ((K y' x' q' : ℝ) *
        cov[fun ω => (X a q ω : ℝ), fun ω => (X b q' ω : ℝ); P]) := by
    intro a b ha hb y hy x hx y' hy' x' hx'
    rw [hZ a ha y hy x hx, hZ b hb y' hy' x' hx', covariance_fun_sum_fun_sum'
      (fun q hq => (hX a ha q (hD q hq)).const_mul _) (fun q hq => (hX b hb q (hD q hq)).const_mul _)]
    refine Finset.sum_congr rfl fun q _ => Finset.sum_congr rfl fun q' _ => ?_
    rw [covariance_const_mul_left, covariance_const_mul_right]
  intro y hy x hx y' hy' x' hx'
  rw [hcov a b ha hb y hy x hx y' hy' x' hx', hcov a' b' ha' hb' y hy x hx y' hy' x' hx']
  exact Finset.sum_congr rfl fun q hq => Finset.sum_congr rfl fun q' hq' => by rw [hc q q' (hD q hq) (hD q' hq')]

/-- **C147** Uncorrelated planes of the SE images give uncorrelated planes of the slice. -/
theorem C147_uncorrelated {v : SliceEnv A σ S} {box psfBox : Nat} (hv : SoundEnv v box psfBox)
    (hro : v.cfg.rejectOutliers = false)
    (hm : ∀ ra dec raPsf decPsf, ∀ s ∈ v.sources ra dec raPsf decPsf, ∀ bm, s.reads.bmask = .ok bm →
      Unflagged v.cfg.noiseFlags bm)
    (hid : ∀ ra dec raPsf decPsf, ((v.sources ra dec raPsf decPsf).map (·.imageId)).Nodup) (hl : v.ext.LinearInterp)
    {i : Nat} {ids : List ℤ} {X : Option Nat → ℤ × Nat × Nat → Ω → ℚ} {Z : Option Nat → Nat → Nat → Ω → ℚ}
    (h : RandomSlice v box psfBox i ids X Z) [MeasurableSpace Ω] (P : Measure Ω) [IsProbabilityMeasure P]
    (hX : ∀ a, IsPlane (v.nExtra + 1) a → ∀ q, SEPixel v i q → MemLp (fun ω => (X a q ω : ℝ)) 2 P)
    {a b : Option Nat} (ha : IsPlane (v.nExtra + 1) a) (hb : IsPlane (v.nExtra + 1) b)
    (hc : ∀ q q', SEPixel v i q → SEPixel v i q' → cov[fun ω => (X a q ω : ℝ), fun ω => (X b q' ω : ℝ); P] = 0) :
    ∀ y < box, ∀ x < box, ∀ y' < box, ∀ x' < box,
      cov[fun ω => (Z a y x ω : ℝ), fun ω => (Z b y' x' ω : ℝ); P] = 0 := by
  obtain ⟨D, K, hD, hK⟩ := slice_coefficients hv hro hm hid hl i ids
  have hZ : ∀ a, IsPlane (v.nExtra + 1) a → ∀ y < box, ∀ x < box,
      (fun ω => (Z a y x ω : ℝ)) = fun ω => ∑ q ∈ D, (K y x q : ℝ) * (X a q ω : ℝ) := by
    intro a ha y hy x hx
    funext ω
    obtain ⟨other, seed, r, p, h1, h2, h3, h4, h5, h6, h7⟩ := h.run ω
    have := hK other h1 h2 seed r p h3 h4 h5 _ _ h6 h7 a ha y hy x hx
    rw [this]
    push_cast
    rfl
  intro y hy x hx y' hy' x' hx'
  rw [hZ a ha y hy x hx, hZ b hb y' hy' x' hx', covariance_fun_sum_fun_sum'
    (fun q hq => (hX a ha q (hD q hq)).const_mul _) (fun q hq => (hX b hb q (hD q hq)).const_mul _)]
  refine Finset.sum_eq_zero fun q hq => Finset.sum_eq_zero fun q' hq' => ?_
  rw [covariance_const_mul_left, covariance_const_mul_right, hc q q' (hD q hq) (hD q' hq'), mul_zero, mul_zero]

/-- **C147** Means: noise fields of mean zero give noise images of mean zero, and planes of the SE images with the same means
give planes of the slice with the same means. -/
theorem C147_mean {v : SliceEnv A σ S} {box psfBox : Nat} (hv : SoundEnv v box psfBox)
    (hro : v.cfg.rejectOutliers = false)
    (hm : ∀ ra dec raPsf decPsf, ∀ s ∈ v.sources ra dec raPsf decPsf, ∀ bm, s.reads.bmask = .ok bm →
      Unflagged v.cfg.noiseFlags bm)
    (hid : ∀ ra dec raPsf decPsf, ((v.sources ra dec raPsf decPsf).map (·.imageId)).Nodup) (hl : v.ext.LinearInterp)
    {i : Nat} {ids : List ℤ} {X : Option Nat → ℤ × Nat × Nat → Ω → ℚ} {Z : Option Nat → Nat → Nat → Ω → ℚ}
    (h : RandomSlice v box psfBox i ids X Z) [MeasurableSpace Ω] (P : Measure Ω) [IsProbabilityMeasure P]
    {a a' : Option Nat} (ha : IsPlane (v.nExtra + 1) a) (ha' : IsPlane (v.nExtra + 1) a')
    (hX : ∀ q, SEPixel v i q → Integrable (fun ω => (X a q ω : ℝ)) P)
    (hX' : ∀ q, SEPixel v i q → Integrable (fun ω => (X a' q ω : ℝ)) P) :
    ((∀ q, SEPixel v i q → ∫ ω, (X a q ω : ℝ) ∂P = 0) → ∀ y < box, ∀ x < box, ∫ ω, (Z a y x ω : ℝ) ∂P = 0) ∧
    ((∀ q, SEPixel v i q → ∫ ω, (X a q ω : ℝ) ∂P = ∫ ω, (X a' q ω : ℝ) ∂P) →
      ∀ y < box, ∀ x < box, ∫ ω, (Z a y x ω : ℝ) ∂P = ∫ ω, (Z a' y x ω : ℝ) ∂P) := by
  obtain ⟨D, K, hD, hK⟩ := slice_coefficients hv hro hm hid hl i ids
  have hZ : ∀ a, IsPlane (v.nExtra + 1) a → (∀ q, SEPixel v i q → Integrable (fun ω => (X a q ω : ℝ)) P) →
      ∀ y < box, ∀ x < box, ∫ ω, (Z a y x ω : ℝ) ∂P = ∑ q ∈ D, (K y x q : ℝ) * ∫ ω, (X a q ω : ℝ) ∂P := by
    intro a ha hX y hy x hx
    have : (fun ω => (Z a y x ω : ℝ)) = fun ω => ∑ q ∈ D, (K y x q : ℝ) * (X a q ω : ℝ) := by
      funext ω
      obtain ⟨other, seed, r, p, h1, h2, h3, h4, h5, h6, h7⟩ := h.run ω
      have := hK other h1 h2 seed r p h3 h4 h5 _ _ h6 h7 a ha y hy x hx
      rw [this]
      push_cast
      rfl
    rw [this, integral_finsetSum _ fun q hq => (hX q (hD q hq)).const_mul _]
    exact Finset.sum_congr rfl fun q _ => integral_const_mul _ _
  refine ⟨fun h0 y hy x hx => ?_, fun h0 y hy x hx => ?_⟩
  · rw [hZ a ha hX y hy x hx]
    exact Finset.sum_eq_zero fun q hq => by rw [h0 q (hD q hq), mul_zero]
  · rw [hZ a ha hX y hy x hx, hZ a' ha' hX' y hy x hx]
    exact Finset.sum_congr rfl fun q hq => by rw [h0 q (hD q hq)]

end Pizza
