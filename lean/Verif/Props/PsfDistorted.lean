import Verif.Props.ResampleDistorted

/-!
C145: resampling of the PSF between WCSs that are not affine.
-/

namespace Pizza

open scoped Classical

/-- The sum of the absolute values of the pixels at most `ty` rows and `tx` columns from a position (specification). -/
noncomputable def absWithin (ty tx : ℝ) (im : Img ℝ) (y x : ℝ) : ℝ :=
  ∑ r ∈ Finset.range im.nrow, ∑ c ∈ Finset.range im.ncol, (if |y - r| ≤ ty ∧ |x - c| ≤ tx then |im.px r c| else 0)

theorem absEither_le_within {im : Img ℝ} {Y X y x dy dx : ℝ} (hy : |Y - y| ≤ dy) (hx : |X - x| ≤ dx) :
    absEither 3 im Y X y x ≤ absWithin (3 + dy) (3 + dx) im y x := by
  unfold absEither absWithin
  refine Finset.sum_le_sum fun r _ => Finset.sum_le_sum fun c _ => ?_
  split_ifs with h1 h2 h2
  · exact le_rfl
  · refine absurd ?_ h2
    rw [abs_le] at hy hx
    simp only [InKernel] at h1
    push_cast at h1
    rw [abs_le, abs_le]
    rcases h1 with ⟨⟨a1, a2⟩, b1, b2⟩ | ⟨⟨a1, a2⟩, b1, b2⟩ <;>
      refine ⟨⟨?_, ?_⟩, ⟨?_, ?_⟩⟩ <;> linarith [hy.1, hy.2, hx.1, hx.2]
  · exact abs_nonneg _
  · exact le_rfl

/-- A share of a total when every part has an error. -/
theorem share_near {ι : Type} (s : Finset ι) (n T E : ι → ℝ) (B : ℝ) (hB : ∀ i ∈ s, |n i - T i| ≤ B * E i)
    (hlt : B * ∑ i ∈ s, E i < |∑ i ∈ s, T i|) :
    (∑ i ∈ s, n i) ≠ 0 ∧ ∀ i ∈ s, |n i / (∑ i ∈ s, n i) - T i / ∑ i ∈ s, T i| ≤
      B * (E i + |T i / ∑ i ∈ s, T i| * ∑ i ∈ s, E i) / (|∑ i ∈ s, T i| - B * ∑ i ∈ s, E i) := by
  set S := ∑ i ∈ s, T i with hS
  set S' := ∑ i ∈ s, n i with hS'
  set F := ∑ i ∈ s, E i with hF
  have hd : |S' - S| ≤ B * F := by
    rw [hS', hS, ← Finset.sum_sub_distrib, hF, Finset.mul_sum]
    exact (Finset.abs_sum_le_sum_abs _ _).trans (Finset.sum_le_sum hB)
  have hF0 : 0 ≤ B * F := (abs_nonneg _).trans hd
  have hpos : 0 < |S| - B * F := by linarith
  have hlow : |S| - B * F ≤ |S'| := by
    have := abs_sub_abs_le_abs_sub S S'
    rw [abs_sub_comm] at this
    linarith
  have hS'0 : S' ≠ 0 := abs_pos.1 (hpos.trans_le hlow)
  have hS0 : S ≠ 0 := abs_pos.1 (hF0.trans_lt hlt)
  refine ⟨hS'0, fun i hi => ?_⟩
  have e : n i / S' - T i / S = ((n i - T i) + T i / S * (S - S')) / S' := by
    field_simp
    ring
  rw [e, abs_div, div_le_div_iff₀ (abs_pos.2 hS'0) hpos]
  have num : |(n i - T i) + T i / S * (S - S')| ≤ B * (E i + |T i / S| * F) := by
    refine (abs_add_le _ _).trans ?_
    rw [abs_mul, abs_sub_comm S S']
    have := mul_le_mul_of_nonneg_left hd (abs_nonneg (T i / S))
    linarith [hB i hi]
  exact mul_le_mul num hlow hpos.le ((abs_nonneg _).trans num)

/-- C145: the PSF resampled between WCSs that are not affine.  When every pixel of the destination stamp is on the SE
image, by twice the departure of the map from an affine one, the resampled PSF sums to one and is the Lanczos sum of the PSF
image at the true SE positions, as a share of the total, to the departure from an affine map, to the variation of the pixel
areas and to the error of the kernel.  The pixel areas themselves drop out. -/
theorem C145_psf (fit : Fit) (spl : Spline) (hf : FitSpec fit) (lam : ℚ) (hlam : 0 ≤ lam)
    (hss : SplineStable spl lam) (w : ResampleWcs) (seDelta coDelta : Nat)
    (hst : FitStable fit lam (NodesOf (coaddPos w.coaddInv w.coaddOff w.se) w.seRow w.seCol seDelta)) (hsd : 0 < seDelta)
    (hcd : 0 < coDelta) (L : Lookups) (hL : buildLookups fit spl w seDelta coDelta = .ok L)
    (rx ry tx ty : ℕ) (hrx : IsReach w.seCol seDelta rx) (hry : IsReach w.seRow seDelta ry)
    (htx : IsReach w.coaddCol coDelta tx) (hty : IsReach w.coaddRow coDelta ty) (a b c d e f ε δx δy : ℚ)
    (hw : MapNearAffine w.coaddInv w.coaddOff w.se rx ry a b c d e f ε) (hs : InSePixels a b c d ε δx δy)
    (As Ac κ : ℚ) (hAs : 0 < As) (hAc : 0 < Ac) (hκ0 : 0 ≤ κ) (hκ : lam * κ < 1)
    (haS : AreaNear w.seCelestial w.se.fwd0 w.cosd 0 rx ry As κ)
    (haC : AreaNear w.coaddCelestial w.coaddFwd w.cosd w.coaddOff tx ty Ac κ)
    (o : SEObj) (px py : ℚ) (pb : Nat) (dx dy : ℚ) (out psf : Img ℚ) (sx sy : ℤ) (n : Nat)
    (h : o.resamplePsf L px py pb dx dy = .ok out) (hpsf : o.psf = some psf)
    (hx : o.psfXStart = some sx) (hy : o.psfYStart = some sy) (hn : o.psfBoxSize = some n) (hn0 : 0 < n)
    (X Y : ℕ → ℕ → ℚ)
    (hxy : ∀ r < pb, ∀ cl < pb, coaddPos w.coaddInv w.coaddOff w.se (X r cl) (Y r cl) = (cl + px, r + py) ∧
      (-(1/2) + 2 * δx ≤ X r cl ∧ X r cl ≤ (rx : ℚ) - 1/2 - 2 * δx) ∧
      (-(1/2) + 2 * δy ≤ Y r cl ∧ Y r cl ≤ (ry : ℚ) - 1/2 - 2 * δy))
    (T E : ℕ → ℕ → ℝ) (B : ℝ)
    (hT : ∀ r c, T r c = trueLanczosAt 3 (imgReal psf) ((Y r c - sy + dy : ℚ) : ℝ) ((X r c - sx + dx : ℚ) : ℝ))
    (hE : ∀ r c, E r c = absWithin (3 + (((1 + lam) * δy : ℚ) : ℝ)) (3 + (((1 + lam) * δx : ℚ) : ℝ)) (imgReal psf)
      ((Y r c - sy + dy : ℚ) : ℝ) ((X r c - sx + dx : ℚ) : ℝ))
    (hB : B = 2.11e-6 * (1 + ((2 * (lam * κ) / (1 - lam * κ) : ℚ) : ℝ)) + ((2 * (lam * κ) / (1 - lam * κ) : ℚ) : ℝ) +
      2.1 * (((1 + lam) * (δx + δy) : ℚ) : ℝ))
    (hlt : B * (∑ p ∈ Finset.range pb ×ˢ Finset.range pb, E p.1 p.2) <
      |∑ p ∈ Finset.range pb ×ˢ Finset.range pb, T p.1 p.2|) :
    (∑ r ∈ Finset.range pb, ∑ c ∈ Finset.range pb, out.px r c) = 1 ∧
    ∀ r < pb, ∀ cl < pb,
      |(out.px r cl : ℝ) - T r cl / ∑ p ∈ Finset.range pb ×ˢ Finset.range pb, T p.1 p.2| ≤
        B * (E r cl + |T r cl / ∑ p ∈ Finset.range pb ×ˢ Finset.range pb, T p.1 p.2| *
          ∑ p ∈ Finset.range pb ×ˢ Finset.range pb, E p.1 p.2) /
        (|∑ p ∈ Finset.range pb ×ˢ Finset.range pb, T p.1 p.2| -
          B * ∑ p ∈ Finset.range pb ×ˢ Finset.range pb, E p.1 p.2) := by
  unfold buildLookups at hL
  simp only [bind_eq_ok, pure_eq_ok] at hL
  obtain ⟨⟨toSe, toCo⟩, hinv, aSe, haSe, aCo, haCo, rfl⟩ := hL
  obtain ⟨psf', sx', sy', n', p1, p2, p3, p4, s1, s2, -⟩ := resamplePsf_ok h
  cases hpsf.symm.trans p1; cases hx.symm.trans p2; cases hy.symm.trans p3; cases hn.symm.trans p4
  obtain ⟨-, -, raw, hraw, hnorm⟩ := C44_psf_normalised o _ px py pb dx dy out psf sx sy n h hpsf hx hy hn hn0
  set ρ : ℝ := ((Ac / As : ℚ) : ℝ) with hρ
  have ρ0 : 0 < ρ := by rw [hρ]; exact_mod_cast div_pos hAc hAs
  have hr : ∀ r < pb, ∀ cl < pb, |(raw r cl : ℝ) / ρ - T r cl| ≤ B * E r cl := by
    intro r hr cl hc
    obtain ⟨hp, hinx, hiny⟩ := hxy r hr cl hc
    obtain ⟨x', y', hcall, hx', hy'⟩ := C143_inside fit hf lam hlam w.coaddInv w.coaddOff w.se w.seRow w.seCol seDelta hst hsd
      toSe toCo hinv rx ry hrx hry a b c d e f ε δx δy hw hs _ _ hinx hiny _ _ hp
    have hres := ((hraw r hr cl hc).2 x' y' (by simp only [hcall, pairUp])).1 _ _ ((resampled_iff _ _ _ _ _ _).2 ⟨le_rfl, rfl, rfl⟩)
    have key := pixel_near psf n ⟨s1, s2⟩ (fun r c => aSe ((c : ℚ) + sx) ((r : ℚ) + sy)) (aCo ((cl : ℚ) + px) ((r : ℚ) + py))
      As Ac (lam * κ) hAs hAc (mul_nonneg hlam hκ0) hκ
        (fun r c => (area_near hss hsd haSe hrx hry haS _ _).trans (le_of_eq (by ring)))
        ((area_near hss hcd haCo htx hty haC _ _).trans (le_of_eq (by ring))) (y' - sy + dy) (x' - sx + dx)
        ((Y r cl - sy + dy : ℚ) : ℝ) ((X r cl - sx + dx : ℚ) : ℝ)
    have hraw' : raw r cl = (lanczosAt (perArea psf (fun r c => aSe ((c : ℚ) + sx) ((r : ℚ) + sy)) n)
        (some (y' - sy + dy, x' - sx + dx))).1 * aCo ((cl : ℚ) + px) ((r : ℚ) + py) := hres
    rw [← hraw', ← hT, ← hρ] at key
    have m1 : |((y' - sy + dy : ℚ) : ℝ) - ((Y r cl - sy + dy : ℚ) : ℝ)| ≤ (((1 + lam) * δy : ℚ) : ℝ) := by
      rw [← Rat.cast_sub, add_sub_add_right_eq_sub, sub_sub_sub_cancel_right]
      exact_mod_cast hy'
    have m2 : |((x' - sx + dx : ℚ) : ℝ) - ((X r cl - sx + dx : ℚ) : ℝ)| ≤ (((1 + lam) * δx : ℚ) : ℝ) := by
      rw [← Rat.cast_sub, add_sub_add_right_eq_sub, sub_sub_sub_cancel_right]
      exact_mod_cast hx'
    have hk : kernelRate 3 ≤ 2.1 := by
      unfold kernelRate
      have := Real.pi_lt_d2
      push_cast
      norm_num at this ⊢
      linarith
    have hpos : kernelRate 3 * (|((y' - sy + dy : ℚ) : ℝ) - ((Y r cl - sy + dy : ℚ) : ℝ)| +
        |((x' - sx + dx : ℚ) : ℝ) - ((X r cl - sx + dx : ℚ) : ℝ)|) ≤ 2.1 * (((1 + lam) * (δx + δy) : ℚ) : ℝ) := by
      calc _ ≤ kernelRate 3 * ((((1 + lam) * δy : ℚ) : ℝ) + (((1 + lam) * δx : ℚ) : ℝ)) :=
            mul_le_mul_of_nonneg_left (add_le_add m1 m2) (kernelRate_nonneg (by norm_num))
        _ ≤ 2.1 * ((((1 + lam) * δy : ℚ) : ℝ) + (((1 + lam) * δx : ℚ) : ℝ)) :=
            mul_le_mul_of_nonneg_right hk (le_trans (add_nonneg (abs_nonneg _) (abs_nonneg _)) (add_le_add m1 m2))
        _ = _ := by push_cast; ring
    have hη : (0 : ℝ) ≤ ((2 * (lam * κ) / (1 - lam * κ) : ℚ) : ℝ) := by
      exact_mod_cast div_nonneg (by positivity) (by linarith)
    have hE0 : absEither 3 (imgReal psf) ((y' - sy + dy : ℚ) : ℝ) ((x' - sx + dx : ℚ) : ℝ) ((Y r cl - sy + dy : ℚ) : ℝ)
        ((X r cl - sx + dx : ℚ) : ℝ) ≤ E r cl := by
      rw [hE]
      exact absEither_le_within m1 m2
    have hE1 : 0 ≤ absEither 3 (imgReal psf) ((y' - sy + dy : ℚ) : ℝ) ((x' - sx + dx : ℚ) : ℝ) ((Y r cl - sy + dy : ℚ) : ℝ)
        ((X r cl - sx + dx : ℚ) : ℝ) := Finset.sum_nonneg fun _ _ => Finset.sum_nonneg fun _ _ => by
      split_ifs
      · exact abs_nonneg _
      · exact le_rfl
    have e1 : (raw r cl : ℝ) / ρ - T r cl = (raw r cl - ρ * T r cl) / ρ := by field_simp
    rw [e1, abs_div, abs_of_pos ρ0, div_le_iff₀ ρ0]
    refine key.trans ?_
    have hBB : 2.11e-6 * (1 + ((2 * (lam * κ) / (1 - lam * κ) : ℚ) : ℝ)) + ((2 * (lam * κ) / (1 - lam * κ) : ℚ) : ℝ) +
        kernelRate 3 * (|((y' - sy + dy : ℚ) : ℝ) - ((Y r cl - sy + dy : ℚ) : ℝ)| +
        |((x' - sx + dx : ℚ) : ℝ) - ((X r cl - sx + dx : ℚ) : ℝ)|) ≤ B := by
      rw [hB]
      linarith
    have hB0 : 0 ≤ B := by
      refine le_trans ?_ hBB
      have := kernelRate_nonneg (a := 3) (by norm_num)
      positivity
    calc _ ≤ ρ * B * E r cl := mul_le_mul (mul_le_mul_of_nonneg_left hBB ρ0.le) hE0 hE1 (by positivity)
      _ = _ := by ring
  obtain ⟨k1, k2⟩ := share_near (Finset.range pb ×ˢ Finset.range pb) (fun p => (raw p.1 p.2 : ℝ) / ρ) (fun p => T p.1 p.2)
    (fun p => E p.1 p.2) B (by
      intro p hp
      rw [Finset.mem_product, Finset.mem_range, Finset.mem_range] at hp
      exact hr _ hp.1 _ hp.2) hlt
  rw [← Finset.sum_div] at k1 k2
  have hsum : (∑ p ∈ Finset.range pb ×ˢ Finset.range pb, (raw p.1 p.2 : ℝ)) =
      ((∑ r ∈ Finset.range pb, ∑ c ∈ Finset.range pb, raw r c : ℚ) : ℝ) := by
    rw [Finset.sum_product]
    push_cast
    rfl
  rw [hsum] at k1 k2
  have hne : (∑ r ∈ Finset.range pb, ∑ c ∈ Finset.range pb, raw r c) ≠ 0 := by
    intro h0
    rw [h0] at k1
    simp at k1
  obtain ⟨m1, m2⟩ := hnorm hne
  refine ⟨m1, fun r hr' cl hc' => ?_⟩
  have hh := k2 (r, cl) (by rw [Finset.mem_product, Finset.mem_range, Finset.mem_range]; exact ⟨hr', hc'⟩)
  have hneR : ((∑ r ∈ Finset.range pb, ∑ c ∈ Finset.range pb, raw r c : ℚ) : ℝ) ≠ 0 := by exact_mod_cast hne
  have e2 : (out.px r cl : ℝ) = (raw r cl : ℝ) / ρ / (((∑ r ∈ Finset.range pb, ∑ c ∈ Finset.range pb, raw r c : ℚ) : ℝ) / ρ) := by
    rw [div_div_div_cancel_right₀ ρ0.ne', eq_div_iff hneR]
    exact_mod_cast m2 r hr' cl hc'
  rw [e2]
  exact hh

/-! ### An example -/

/-- An SE image of 24 by 24 pixels and a coadd WCS that displaces columns by a flat parabola. -/
def exFlatBent : ResampleWcs where
  se := exPlain
  seCelestial := false
  seRow := 24
  seCol := 24
  coaddFwd := fun x y => (x, y - x * x / 100000)
  coaddInv := fun u v => (u, v + u * u / 100000)
  coaddCelestial := false
  coaddOff := 1
  coaddRow := 24
  coaddCol := 24
  cosd := fun _ => 1

/-- `C145_psf`: a PSF image of one pixel, at pixel (11, 21), on a stamp of 2 by 2 pixels. -/
example : ∃ L, buildLookups meanFit exactSpline exFlatBent 8 8 = .ok L ∧
    ∀ (o : SEObj) (out : Img ℚ), o.psf = some ⟨1, 1, fun _ _ => 1⟩ → o.psfXStart = some 11 → o.psfYStart = some 21 →
      o.psfBoxSize = some 1 → o.resamplePsf L 11 (21 + 144/100000) 2 0 0 = .ok out →
      |(out.px 0 0 : ℝ) - 1| ≤ 0.16 ∧ |(out.px 0 1 : ℝ)| ≤ 0.04 ∧ |(out.px 1 0 : ℝ)| ≤ 0.04 ∧ |(out.px 1 1 : ℝ)| ≤ 0.04 := by
  have reach : IsReach 24 8 24 := ⟨⟨3, rfl⟩, by norm_num, by norm_num⟩
  have hpos : ∀ x y, coaddPos exFlatBent.coaddInv 1 exPlain x y = (x, y + (x + 1) * (x + 1) / 100000) := by
    intro x y
    simp only [coaddPos, exFlatBent, exPlain, Prod.mk.injEq]
    constructor <;> ring
  have hnear : MapNearAffine exFlatBent.coaddInv 1 exPlain 24 24 1 0 0 1 0 0.003 0.0031 := by
    intro x y h1 h2 h3 h4
    push_cast at h2
    rw [hpos]
    refine ⟨by norm_num, ?_⟩
    dsimp only
    rw [abs_le]
    constructor <;> nlinarith
  have hpix : InSePixels 1 0 0 1 0.0031 0.0031 0.0031 := by
    unfold InSePixels
    norm_num
  obtain ⟨toSe, toCo, hinv⟩ := C143_exists meanFit meanFit_spec exFlatBent.coaddInv 1 exPlain 24 24 8 (by norm_num) (by norm_num)
    (by norm_num) 24 24 reach reach 1 0 0 1 0 0.003 0.0031 0.0031 0.0031 hnear hpix (by norm_num) (by norm_num)
  obtain ⟨aSe, hse⟩ := (C99_too_coarse exactSpline exactSpline_spec false exPlain.fwd0 (fun _ => 1) 24 24 8 0
    (by norm_num)).1 (by norm_num)
  obtain ⟨aCo, hco⟩ := (C99_too_coarse exactSpline exactSpline_spec false exFlatBent.coaddFwd (fun _ => 1) 24 24 8 1
    (by norm_num)).1 (by norm_num)
  have hL : buildLookups meanFit exactSpline exFlatBent 8 8 = .ok ⟨fun x y => pairUp (toSe.call x y), aSe, aCo⟩ := by
    unfold buildLookups
    show (getWcsInverse meanFit exFlatBent.coaddInv 1 exPlain 24 24 8 >>= _) = _
    rw [hinv]
    show (getWcsAreaInterp exactSpline false exPlain.fwd0 (fun _ => 1) 24 24 8 0 >>= _) = _
    rw [hse]
    show (getWcsAreaInterp exactSpline false exFlatBent.coaddFwd (fun _ => 1) 24 24 8 1 >>= _) = _
    rw [hco]
    rfl
  refine ⟨_, hL, fun o out hpsf hx hy hn h => ?_⟩
  set X : ℕ → ℕ → ℚ := fun _ c => c + 11 with hX
  set Y : ℕ → ℕ → ℚ := fun r c => r + (21 + 144/100000) - (c + 12) * (c + 12) / 100000 with hY
  set T : ℕ → ℕ → ℝ := fun r c => trueLanczosAt 3 (imgReal ⟨1, 1, fun _ _ => 1⟩) ((Y r c - (21 : ℤ) + 0 : ℚ) : ℝ)
    ((X r c - (11 : ℤ) + 0 : ℚ) : ℝ) with hT
  set E : ℕ → ℕ → ℝ := fun r c => absWithin (3 + (((1 + 1) * 0.0031 : ℚ) : ℝ)) (3 + (((1 + 1) * 0.0031 : ℚ) : ℝ))
    (imgReal ⟨1, 1, fun _ _ => 1⟩) ((Y r c - (21 : ℤ) + 0 : ℚ) : ℝ) ((X r c - (11 : ℤ) + 0 : ℚ) : ℝ) with hE
  set B : ℝ := 2.11e-6 * (1 + ((2 * (1 * 0) / (1 - 1 * 0) : ℚ) : ℝ)) + ((2 * (1 * 0) / (1 - 1 * 0) : ℚ) : ℝ) +
      2.1 * (((1 + 1) * (0.0031 + 0.0031) : ℚ) : ℝ) with hB
  have hBv : B ≤ 0.0261 ∧ 0 ≤ B := by rw [hB]; push_cast; norm_num
  have hEv : ∀ r c, 0 ≤ E r c ∧ E r c ≤ 1 := by
    intro r c
    simp only [hE, absWithin, imgReal, Finset.sum_range_one]
    split_ifs <;> norm_num
  have hTv : T 0 0 = 1 ∧ T 0 1 = 0 ∧ T 1 0 = 0 ∧ T 1 1 = 0 := by
    have s1 : Real.sinc (Real.pi * 1) = 0 := by rw [mul_one, Real.sinc_of_ne_zero Real.pi_ne_zero, Real.sin_pi, zero_div]
    simp only [hT, trueLanczosAt, imgReal, Finset.sum_range_one, hX, hY]
    rw [mul_one] at s1
    norm_num [InKernel, trueLanczos, s1]
  have hsT : ∑ p ∈ Finset.range 2 ×ˢ Finset.range 2, T p.1 p.2 = 1 := by
    rw [Finset.sum_product]
    simp only [Finset.sum_range_succ, Finset.sum_range_zero, hTv]
    norm_num
  have hsE : 0 ≤ ∑ p ∈ Finset.range 2 ×ˢ Finset.range 2, E p.1 p.2 ∧
      ∑ p ∈ Finset.range 2 ×ˢ Finset.range 2, E p.1 p.2 ≤ 4 := by
    rw [Finset.sum_product]
    simp only [Finset.sum_range_succ, Finset.sum_range_zero]
    have a1 := hEv 0 0
    have a2 := hEv 0 1
    have a3 := hEv 1 0
    have a4 := hEv 1 1
    constructor <;> linarith [a1.1, a1.2, a2.1, a2.2, a3.1, a3.2, a4.1, a4.2]
  have hBE : B * (∑ p ∈ Finset.range 2 ×ˢ Finset.range 2, E p.1 p.2) ≤ 0.1044 := by nlinarith [hBv.1, hBv.2, hsE.1, hsE.2]
  obtain ⟨-, hmain⟩ := C145_psf meanFit exactSpline meanFit_spec 1 (by norm_num)
    exactSpline_stable exFlatBent 8 8 (meanFit_stable _) (by norm_num) (by norm_num) _ hL 24 24 24 24 reach reach reach reach
    1 0 0 1 0 0.003 0.0031 0.0031 0.0031 hnear hpix 1 1 0 (by norm_num) (by norm_num) le_rfl (by norm_num)
    (by
      intro x y _ _ _ _
      simp only [computeWcsArea, exFlatBent, exPlain, SEWcs.fwd0, Bool.false_eq_true, if_false]
      ring_nf
      norm_num)
    (by
      intro x y _ _ _ _
      simp only [computeWcsArea, exFlatBent, Bool.false_eq_true, if_false]
      ring_nf
      norm_num)
    o 11 (21 + 144/100000) 2 0 0 out _ 11 21 1 h hpsf hx hy hn (by norm_num) X Y
    (by
      intro r hr c hc
      refine ⟨?_, ?_, ?_⟩
      · show coaddPos exFlatBent.coaddInv 1 exPlain _ _ = _
        rw [hpos]
        simp only [hX, hY, Prod.mk.injEq, true_and]
        ring
      · interval_cases c <;> norm_num [hX]
      · interval_cases c <;> interval_cases r <;> norm_num [hY])
    T E B (fun _ _ => rfl) (fun _ _ => rfl) hB (by rw [hsT, abs_one]; exact hBE.trans_lt (by norm_num))
  rw [hsT, abs_one] at hmain
  have bound : ∀ r < 2, ∀ c < 2, ∀ t : ℝ, T r c = t → 0 ≤ t → t ≤ 1 → |(out.px r c : ℝ) - t| ≤ 0.03 + 0.13 * t := by
    intro r hr c hc t ht h0 h1
    have := hmain r hr c hc
    rw [ht, div_one, abs_of_nonneg h0] at this
    refine this.trans ?_
    have e := hEv r c
    clear_value T E B
    clear hmain this
    set F := ∑ p ∈ Finset.range 2 ×ˢ Finset.range 2, E p.1 p.2
    rw [div_le_iff₀ (sub_pos.2 (hBE.trans_lt (by norm_num)))]
    have q1 : B * E r c ≤ 0.0261 := by nlinarith [hBv.1, hBv.2, e.1, e.2]
    have q2 : t * (B * F) ≤ t * 0.1044 := mul_le_mul_of_nonneg_left hBE h0
    have q3 : (0.03 + 0.13 * t) * (1 - 0.1044) ≤ (0.03 + 0.13 * t) * (1 - B * F) :=
      mul_le_mul_of_nonneg_left (by linarith) (by positivity)
    refine le_trans ?_ q3
    have q4 : B * (E r c + t * F) = B * E r c + t * (B * F) := by ring
    rw [q4]
    linarith
  refine ⟨?_, ?_, ?_, ?_⟩
  · exact (bound 0 (by norm_num) 0 (by norm_num) 1 hTv.1 (by norm_num) le_rfl).trans (by norm_num)
  · simpa using (bound 0 (by norm_num) 1 (by norm_num) 0 hTv.2.1 le_rfl (by norm_num)).trans (by norm_num : (0.03 + 0.13 * 0 : ℝ) ≤ 0.04)
  · simpa using (bound 1 (by norm_num) 0 (by norm_num) 0 hTv.2.2.1 le_rfl (by norm_num)).trans (by norm_num : (0.03 + 0.13 * 0 : ℝ) ≤ 0.04)
  · simpa using (bound 1 (by norm_num) 1 (by norm_num) 0 hTv.2.2.2 le_rfl (by norm_num)).trans (by norm_num : (0.03 + 0.13 * 0 : ℝ) ≤ 0.04)

end Pizza
