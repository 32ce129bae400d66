import Verif.Props.WcsCover

/-!
C144: resampling between WCSs that are not affine.
-/

namespace Pizza

open scoped Classical

/-- Assumption on `RectBivariateSpline`, for nodes `delta` apart: of values within `ε` of a constant it makes a function
within `lam * ε` of it. -/
def SplineStable (spl : Spline) (lam : ℚ) : Prop :=
  ∀ (delta k l : ℕ) a f, 0 < delta →
    spl ((List.range k).map fun (n : ℕ) => (n : ℚ) * delta) ((List.range l).map fun (n : ℕ) => (n : ℚ) * delta) a = .ok f →
    ∀ m ε : ℚ, (∀ i < k, ∀ j < l, |a.px i j - m| ≤ ε) → ∀ x y, |f x y - m| ≤ lam * ε

/-- The pixel area, as computed, is within the fraction `κ` of `m` at every position up to the last node
(specification; C108 says what the pixel area is). -/
def AreaNear (cel : Bool) (i2s : ℚ → ℚ → ℚ × ℚ) (cosd : ℚ → ℚ) (off : ℚ) (rx ry : ℕ) (m κ : ℚ) : Prop :=
  ∀ x y : ℚ, -(1/2) ≤ x → x ≤ (rx : ℚ) - 1/2 → -(1/2) ≤ y → y ≤ (ry : ℚ) - 1/2 →
    |computeWcsArea cel i2s cosd (x + off) (y + off) 1 - m| ≤ κ * m

theorem area_near {spl : Spline} {lam : ℚ} (hs : SplineStable spl lam) {cel : Bool} {i2s : ℚ → ℚ → ℚ × ℚ} {cosd : ℚ → ℚ}
    {nrow ncol delta : ℕ} {off : ℚ} (hd : 0 < delta) {A : ℚ → ℚ → ℚ}
    (h : getWcsAreaInterp spl cel i2s cosd nrow ncol delta off = .ok A)
    {rx ry : ℕ} (hrx : IsReach ncol delta rx) (hry : IsReach nrow delta ry) {m κ : ℚ}
    (ha : AreaNear cel i2s cosd off rx ry m κ) (x y : ℚ) : |A x y - m| ≤ lam * (κ * m) := by
  obtain ⟨k, l, im, hk, hl, h1, h2, h3, h4⟩ := area_ok (spl := spl) (cel := cel) (i2s := i2s)
    (cosd := cosd) (nrow := nrow) (ncol := ncol) (off := off) hd
  cases hrx.unique hl
  cases hry.unique hk
  rw [h3] at h
  refine hs delta (l + 1) (k + 1) im A hd ?_ m (κ * m) (fun i hi j hj => ?_) x y
  · rw [← h]
    congr 1 <;> simp
  have hdq : (0 : ℚ) ≤ delta := by positivity
  have g1 : ((i : ℚ)) * delta ≤ l * delta := mul_le_mul_of_nonneg_right (by exact_mod_cast (by omega : i ≤ l)) hdq
  have g2 : ((j : ℚ)) * delta ≤ k * delta := mul_le_mul_of_nonneg_right (by exact_mod_cast (by omega : j ≤ k)) hdq
  have g3 : (0 : ℚ) ≤ (i : ℚ) * delta := by positivity
  have g4 : (0 : ℚ) ≤ (j : ℚ) * delta := by positivity
  rw [h4 i j (by omega) (by omega)]
  exact ha _ _ (by linarith) (by push_cast; linarith) (by linarith) (by push_cast; linarith)

/-- The ratio of two areas that are nearly `Ac` and `As`. -/
theorem ratio_near {g ac As Ac q : ℚ} (hAs : 0 < As) (hAc : 0 < Ac) (h0 : 0 ≤ q) (h1 : q < 1)
    (hg : |g - As| ≤ q * As) (ha : |ac - Ac| ≤ q * Ac) : |ac / g - Ac / As| ≤ Ac / As * (2 * q / (1 - q)) := by
  rw [abs_le] at hg ha
  have gpos : 0 < g := by nlinarith [hg.1]
  have q1 : 0 < 1 - q := by linarith
  have e : ac / g - Ac / As = (ac * As - Ac * g) / (g * As) := by field_simp
  rw [e, abs_div, abs_of_pos (mul_pos gpos hAs), div_le_iff₀ (mul_pos gpos hAs)]
  have e2 : Ac / As * (2 * q / (1 - q)) * (g * As) = 2 * q * Ac * (g / (1 - q)) := by field_simp
  rw [e2]
  have b : As ≤ g / (1 - q) := by
    rw [le_div_iff₀ q1]
    linarith [hg.1]
  have b2 : |ac * As - Ac * g| ≤ 2 * q * Ac * As := by
    have : ac * As - Ac * g = (ac - Ac) * As - Ac * (g - As) := by ring
    rw [this, abs_le]
    constructor <;> nlinarith [hg.1, hg.2, ha.1, ha.2]
  refine b2.trans (mul_le_mul_of_nonneg_left b (by positivity))

/-- The resampled value of an image of rational numbers is that of the same image of real numbers. -/
theorem resampled_real {im : Img ℚ} {a : ℤ} {y x v : ℚ} {e : Bool} (h : Resampled im a y x v e) :
    ∃ e', Resampled (imgReal im) a (y : ℝ) (x : ℝ) (v : ℝ) e' := by
  have ha : a ≤ 3 := ((resampled_iff _ _ _ _ _ _).1 h).1
  obtain ⟨e1, h1⟩ := C89_value sincVal sincPade_eq im a ha y x
  obtain ⟨e2, h2⟩ := C89_value sincVal sincPade_eq (imgReal im) a ha (y : ℝ) (x : ℝ)
  have hv := Except.ok.inj (h.symm.trans h1)
  simp only [List.cons.injEq, Prod.mk.injEq, and_true] at hv
  refine ⟨e2, ?_⟩
  rw [hv.1]
  convert h2 using 1
  push_cast
  refine Finset.sum_congr rfl fun r _ => Finset.sum_congr rfl fun c _ => ?_
  simp only [inKernel_cast]
  split_ifs
  · simp only [imgReal]
    push_cast [sincVal_cast]
    rfl
  · exact Rat.cast_zero

/-- The value of one pixel: an image divided by nearly constant areas, resampled near a position and multiplied by an
area. -/
theorem pixel_near (src : Img ℚ) (n : ℕ) (hn : src.nrow = n ∧ src.ncol = n) (g : ℕ → ℕ → ℚ) (ac As Ac q : ℚ) (hAs : 0 < As)
    (hAc : 0 < Ac) (h0 : 0 ≤ q) (h1 : q < 1) (hg : ∀ r c, |g r c - As| ≤ q * As) (ha : |ac - Ac| ≤ q * Ac) (Y X : ℚ) (y x : ℝ) :
    |(((lanczosAt (perArea src g n) (some (Y, X))).1 * ac : ℚ) : ℝ) - ((Ac / As : ℚ) : ℝ) * trueLanczosAt 3 (imgReal src) y x| ≤
      ((Ac / As : ℚ) : ℝ) * (2.11e-6 * (1 + ((2 * q / (1 - q) : ℚ) : ℝ)) + ((2 * q / (1 - q) : ℚ) : ℝ) +
        kernelRate 3 * (|(Y : ℝ) - y| + |(X : ℝ) - x|)) * absEither 3 (imgReal src) Y X y x := by
  obtain ⟨n1, n2⟩ := hn
  have hres : Resampled (perArea src g n) 3 Y X (lanczosSum (perArea src g n) 3 Y X) _ :=
    (resampled_iff _ _ _ _ _ _).2 ⟨le_rfl, rfl, rfl⟩
  obtain ⟨e', hreal⟩ := resampled_real hres
  have k1 := C96_value _ 3 (by norm_num) _ _ _ _ hreal
  set v : ℝ := ((lanczosSum (perArea src g n) 3 Y X : ℚ) : ℝ) with hv
  set ρ : ℝ := ((Ac / As : ℚ) : ℝ) with hρ
  set η : ℝ := ((2 * q / (1 - q) : ℚ) : ℝ) with hη
  have ρ0 : 0 < ρ := by rw [hρ]; exact_mod_cast div_pos hAc hAs
  have η0 : 0 ≤ η := by rw [hη]; exact_mod_cast div_nonneg (by linarith) (by linarith)
  have acpos : 0 < ac := by
    rw [abs_le] at ha
    nlinarith [ha.1]
  have acR : (0 : ℝ) < ac := by exact_mod_cast acpos
  set E := absEither 3 (imgReal src) (Y : ℝ) X y x with hE
  have rat : ∀ r c, |(ac : ℝ) / g r c - ρ| ≤ ρ * η := by
    intro r c
    have := ratio_near hAs hAc h0 h1 (hg r c) ha
    rw [hρ, hη]
    exact_mod_cast this
  have E1 := sum_le_absEither 3 (imgReal src) (Y : ℝ) X y x
  rw [← hE] at E1
  -- the kernel approximated
  set M := ∑ r ∈ Finset.range n, ∑ c ∈ Finset.range n, (if InKernel 3 (Y : ℝ) r ∧ InKernel 3 (X : ℝ) c then
      (src.px r c : ℝ) * ((ac : ℝ) / g r c) * (trueLanczos 3 (X - c) * trueLanczos 3 (Y - r)) else 0) with hM
  have A1 : |v * ac - M| ≤ 2.11e-6 * (ρ * (1 + η)) * E := by
    have s1 : M = (∑ r ∈ Finset.range n, ∑ c ∈ Finset.range n, (if InKernel 3 (Y : ℝ) r ∧ InKernel 3 (X : ℝ) c then
      ((imgReal (perArea src g n)).px r c) * (trueLanczos 3 (X - c) * trueLanczos 3 (Y - r)) else 0)) * ac := by
      rw [hM, Finset.sum_mul]
      refine Finset.sum_congr rfl fun r _ => ?_
      rw [Finset.sum_mul]
      refine Finset.sum_congr rfl fun c _ => ?_
      split_ifs
      · simp only [imgReal, perArea]
        push_cast
        ring
      · rw [zero_mul]
    rw [s1, ← sub_mul, abs_mul, abs_of_pos acR]
    refine (mul_le_mul_of_nonneg_right k1 acR.le).trans ?_
    rw [mul_assoc, mul_assoc]
    refine mul_le_mul_of_nonneg_left ?_ (by norm_num)
    refine le_trans ?_ (mul_le_mul_of_nonneg_left E1 (by positivity))
    rw [Finset.sum_mul, Finset.mul_sum]
    have d1 : (imgReal (perArea src g n)).nrow = (imgReal src).nrow := n1.symm
    have d2 : (imgReal (perArea src g n)).ncol = (imgReal src).ncol := n2.symm
    rw [d1, d2]
    refine Finset.sum_le_sum fun r _ => ?_
    rw [Finset.sum_mul, Finset.mul_sum]
    refine Finset.sum_le_sum fun c _ => ?_
    split_ifs
    · have hr := rat r c
      have e : |(imgReal (perArea src g n)).px r c| * ac = |(src.px r c : ℝ)| * |(ac : ℝ) / g r c| := by
        simp only [imgReal, perArea]
        push_cast
        rw [abs_div, abs_div, abs_of_pos acR]
        ring
      rw [e, mul_comm]
      refine mul_le_mul_of_nonneg_right ?_ (abs_nonneg _)
      calc |(ac : ℝ) / g r c| = |(ac / g r c - ρ) + ρ| := by rw [sub_add_cancel]
        _ ≤ |(ac : ℝ) / g r c - ρ| + |ρ| := abs_add_le _ _
        _ ≤ ρ * η + ρ := by rw [abs_of_pos ρ0]; linarith
        _ = ρ * (1 + η) := by ring
    · simp
  -- the areas
  have A2 : |M - ρ * trueLanczosAt 3 (imgReal src) (Y : ℝ) X| ≤ ρ * η * E := by
    refine le_trans ?_ (mul_le_mul_of_nonneg_left E1 (by positivity))
    unfold trueLanczosAt
    have d1 : (imgReal src).nrow = n := n1
    have d2 : (imgReal src).ncol = n := n2
    rw [hM, d1, d2, Finset.mul_sum, Finset.mul_sum, ← Finset.sum_sub_distrib]
    refine (Finset.abs_sum_le_sum_abs _ _).trans (Finset.sum_le_sum fun r _ => ?_)
    rw [Finset.mul_sum, Finset.mul_sum, ← Finset.sum_sub_distrib]
    refine (Finset.abs_sum_le_sum_abs _ _).trans (Finset.sum_le_sum fun c _ => ?_)
    split_ifs
    · have hr := rat r c
      have e : (src.px r c : ℝ) * ((ac : ℝ) / g r c) * (trueLanczos 3 (X - c) * trueLanczos 3 (Y - r)) -
          ρ * ((imgReal src).px r c * (trueLanczos 3 (X - c) * trueLanczos 3 (Y - r))) =
          ((ac : ℝ) / g r c - ρ) * (src.px r c) * (trueLanczos 3 (X - c) * trueLanczos 3 (Y - r)) := by
        simp only [imgReal]
        ring
      rw [e, abs_mul, abs_mul]
      have t : |trueLanczos 3 (X - c) * trueLanczos 3 (Y - r)| ≤ 1 := by
        rw [abs_mul]
        exact mul_le_one₀ (trueLanczos_le _ _) (abs_nonneg _) (trueLanczos_le _ _)
      calc _ ≤ |(ac : ℝ) / g r c - ρ| * |(src.px r c : ℝ)| * 1 := mul_le_mul_of_nonneg_left t (by positivity)
        _ ≤ ρ * η * |(src.px r c : ℝ)| := by
          rw [mul_one]
          exact mul_le_mul_of_nonneg_right hr (abs_nonneg _)
    · simp
  -- the position
  have A3 := trueLanczosAt_move 3 (by norm_num) (imgReal src) (Y : ℝ) X y x
  rw [← hE] at A3
  have hcast : (((lanczosAt (perArea src g n) (some (Y, X))).1 * ac : ℚ) : ℝ) = v * ac := by
    rw [hv]
    push_cast
    rfl
  rw [hcast]
  have split : v * ac - ρ * trueLanczosAt 3 (imgReal src) y x = (v * ac - M) +
      (M - ρ * trueLanczosAt 3 (imgReal src) (Y : ℝ) X) +
      ρ * (trueLanczosAt 3 (imgReal src) (Y : ℝ) X - trueLanczosAt 3 (imgReal src) y x) := by ring
  rw [split]
  refine (abs_add_le _ _).trans ?_
  refine (add_le_add_left (abs_add_le _ _) _).trans ?_
  have A4 : |ρ * (trueLanczosAt 3 (imgReal src) (Y : ℝ) X - trueLanczosAt 3 (imgReal src) y x)| ≤
      ρ * (kernelRate 3 * (|(Y : ℝ) - y| + |(X : ℝ) - x|) * E) := by
    rw [abs_mul, abs_of_pos ρ0]
    exact mul_le_mul_of_nonneg_left A3 ρ0.le
  calc _ ≤ 2.11e-6 * (ρ * (1 + η)) * E + ρ * η * E + ρ * (kernelRate 3 * (|(Y : ℝ) - y| + |(X : ℝ) - x|) * E) := by
        linarith
    _ = _ := by ring

/-- C144: resampling between WCSs that are not affine.  At a destination pixel that is on the SE image, by twice the
departure of the map from an affine one: the resampled image, noises, interp-only image and interp fraction are the ratio
of the pixel areas times the Lanczos sum at the true SE position, to the departure from an affine map, to the variation of
the pixel areas and to the error of the kernel; and on the slice the masks are those of an SE pixel that is half a pixel
and the departure away at most. -/
theorem C144_resample (fit : Fit) (spl : Spline) (hf : FitSpec fit) (lam : ℚ) (hlam : 0 ≤ lam)
    (hss : SplineStable spl lam) (w : ResampleWcs) (seDelta coDelta : Nat)
    (hst : FitStable fit lam (NodesOf (coaddPos w.coaddInv w.coaddOff w.se) w.seRow w.seCol seDelta)) (hsd : 0 < seDelta) (hcd : 0 < coDelta)
    (L : Lookups) (hL : buildLookups fit spl w seDelta coDelta = .ok L)
    (rx ry tx ty : ℕ) (hrx : IsReach w.seCol seDelta rx) (hry : IsReach w.seRow seDelta ry)
    (htx : IsReach w.coaddCol coDelta tx) (hty : IsReach w.coaddRow coDelta ty) (a b c d e f ε δx δy : ℚ)
    (hw : MapNearAffine w.coaddInv w.coaddOff w.se rx ry a b c d e f ε) (hs : InSePixels a b c d ε δx δy)
    (As Ac κ : ℚ) (hAs : 0 < As) (hAc : 0 < Ac) (hκ0 : 0 ≤ κ) (hκ : lam * κ < 1)
    (haS : AreaNear w.seCelestial w.se.fwd0 w.cosd 0 rx ry As κ)
    (haC : AreaNear w.coaddCelestial w.coaddFwd w.cosd w.coaddOff tx ty Ac κ)
    (o : SEObj) (xs ys : ℚ) (box : Nat) (px py : ℚ) (pb : Nat) (out : Resampling)
    (h : o.resample L xs ys box px py pb = .ok out) (image iom frac : Img ℚ) (noises : List (Img ℚ))
    (bm pm : Img (BitVec 32)) (sx sy sb : ℤ) (him : o.image = some image) (hiom : o.interpOnlyImage = some iom)
    (hfrac : o.interpFrac = some frac) (hno : o.noises = some noises) (hbm : o.bmask = some bm) (hpm : o.pmask = some pm)
    (hx : o.xStart = some sx) (hy : o.yStart = some sy) (hb : o.boxSize = some sb)
    (r cl : Nat) (hr : r < box) (hc : cl < box) (x y : ℚ)
    (hxy : coaddPos w.coaddInv w.coaddOff w.se x y = (cl + xs, r + ys))
    (hinx : -(1/2) + 2 * δx ≤ x ∧ x ≤ (rx : ℚ) - 1/2 - 2 * δx) (hiny : -(1/2) + 2 * δy ≤ y ∧ y ≤ (ry : ℚ) - 1/2 - 2 * δy) :
    ∃ x' y' : ℚ, |x' - x| ≤ (1 + lam) * δx ∧ |y' - y| ≤ (1 + lam) * δy ∧
      (∀ src dst : Img ℚ,
        (src = image ∧ dst = out.image ∨ src = iom ∧ dst = out.interpOnlyImage ∨
          src = frac ∧ dst = out.interpFrac ∨ ∃ k : Nat, noises[k]? = some src ∧ out.noises[k]? = some dst) →
        |(dst.px r cl : ℝ) - ((Ac / As : ℚ) : ℝ) * trueLanczosAt 3 (imgReal src) ((y - sy : ℚ) : ℝ) ((x - sx : ℚ) : ℝ)| ≤
          ((Ac / As : ℚ) : ℝ) * (2.11e-6 * (1 + ((2 * (lam * κ) / (1 - lam * κ) : ℚ) : ℝ)) +
            ((2 * (lam * κ) / (1 - lam * κ) : ℚ) : ℝ) + 2.1 * (((1 + lam) * (δx + δy) : ℚ) : ℝ)) *
          absEither 3 (imgReal src) ((y' - sy : ℚ) : ℝ) ((x' - sx : ℚ) : ℝ) ((y - sy : ℚ) : ℝ) ((x - sx : ℚ) : ℝ)) ∧
      (-(1/2) + (1 + lam) * δx ≤ x - sx → x - sx < bm.ncol - 1/2 - (1 + lam) * δx →
        -(1/2) + (1 + lam) * δy ≤ y - sy → y - sy < bm.nrow - 1/2 - (1 + lam) * δy → 0 < sb → bm.nrow = sb.toNat →
        bm.ncol = sb.toNat →
        ∃ i < bm.nrow, ∃ j < bm.ncol, |(y - sy) - i| ≤ 1/2 + (1 + lam) * δy ∧ |(x - sx) - j| ≤ 1/2 + (1 + lam) * δx ∧
          out.bmask.px r cl = bm.px i j ∧ out.pmask.px r cl = pm.px i j) := by
  unfold buildLookups at hL
  simp only [bind_eq_ok, pure_eq_ok] at hL
  obtain ⟨⟨toSe, toCo⟩, hinv, aSe, haSe, aCo, haCo, rfl⟩ := hL
  obtain ⟨x', y', hcall, hx', hy'⟩ := C143_inside fit hf lam hlam w.coaddInv w.coaddOff w.se w.seRow w.seCol seDelta hst hsd
    toSe toCo hinv rx ry hrx hry a b c d e f ε δx δy hw hs x y hinx hiny _ _ hxy
  refine ⟨x', y', hx', hy', ?_, ?_⟩
  · obtain ⟨sb', sx', sy', image', iom', frac', noises', bm', pm', F⟩ := resample_facts h
    cases hx.symm.trans F.hx; cases hy.symm.trans F.hy; cases him.symm.trans F.himage
    cases hiom.symm.trans F.hiom; cases hfrac.symm.trans F.hfrac; cases hno.symm.trans F.hnoises
    obtain ⟨e1, e2, e3, e4, e5, e6, -⟩ := F.px r hr cl hc
    have hp : localPos ⟨fun x y => pairUp (toSe.call x y), aSe, aCo⟩ xs ys sx sy r cl = some (y' - sy, x' - sx) := by
      simp only [localPos, hcall, pairUp, Option.map_some]
    rw [hp] at e1 e3 e4
    have key : ∀ src : Img ℚ, src.nrow = sb'.toNat ∧ src.ncol = sb'.toNat →
        |(((lanczosAt (perArea src (fun r c => aSe ((c : ℚ) + sx) ((r : ℚ) + sy)) sb'.toNat)
          (some (y' - sy, x' - sx))).1 * aCo ((cl : ℚ) + xs) ((r : ℚ) + ys) : ℚ) : ℝ) -
          ((Ac / As : ℚ) : ℝ) * trueLanczosAt 3 (imgReal src) ((y - sy : ℚ) : ℝ) ((x - sx : ℚ) : ℝ)| ≤
          ((Ac / As : ℚ) : ℝ) * (2.11e-6 * (1 + ((2 * (lam * κ) / (1 - lam * κ) : ℚ) : ℝ)) +
            ((2 * (lam * κ) / (1 - lam * κ) : ℚ) : ℝ) + 2.1 * (((1 + lam) * (δx + δy) : ℚ) : ℝ)) *
          absEither 3 (imgReal src) ((y' - sy : ℚ) : ℝ) ((x' - sx : ℚ) : ℝ) ((y - sy : ℚ) : ℝ) ((x - sx : ℚ) : ℝ) := by
      intro src hsrc
      refine (pixel_near src _ hsrc _ _ As Ac (lam * κ) hAs hAc (mul_nonneg hlam hκ0) hκ
        (fun r c => (area_near hss hsd haSe hrx hry haS _ _).trans (le_of_eq (by ring)))
        ((area_near hss hcd haCo htx hty haC _ _).trans (le_of_eq (by ring))) (y' - sy) (x' - sx) _ _).trans ?_
      refine mul_le_mul_of_nonneg_right ?_ (Finset.sum_nonneg fun _ _ => Finset.sum_nonneg fun _ _ => by
        split_ifs
        · exact abs_nonneg _
        · exact le_rfl)
      refine mul_le_mul_of_nonneg_left ?_ (by exact_mod_cast (div_pos hAc hAs).le)
      refine add_le_add_right ?_ _
      have hk : kernelRate 3 ≤ 2.1 := by
        unfold kernelRate
        have := Real.pi_lt_d2
        push_cast
        norm_num at this ⊢
        linarith
      have m1 : |((y' - sy : ℚ) : ℝ) - ((y - sy : ℚ) : ℝ)| ≤ (((1 + lam) * δy : ℚ) : ℝ) := by
        rw [← Rat.cast_sub, sub_sub_sub_cancel_right]
        exact_mod_cast hy'
      have m2 : |((x' - sx : ℚ) : ℝ) - ((x - sx : ℚ) : ℝ)| ≤ (((1 + lam) * δx : ℚ) : ℝ) := by
        rw [← Rat.cast_sub, sub_sub_sub_cancel_right]
        exact_mod_cast hx'
      calc _ ≤ kernelRate 3 * ((((1 + lam) * δy : ℚ) : ℝ) + (((1 + lam) * δx : ℚ) : ℝ)) :=
            mul_le_mul_of_nonneg_left (add_le_add m1 m2) (kernelRate_nonneg (by norm_num))
        _ ≤ 2.1 * ((((1 + lam) * δy : ℚ) : ℝ) + (((1 + lam) * δx : ℚ) : ℝ)) :=
            mul_le_mul_of_nonneg_right hk (le_trans (add_nonneg (abs_nonneg _) (abs_nonneg _)) (add_le_add m1 m2))
        _ = _ := by push_cast; ring
    intro src dst hsd'
    rcases hsd' with ⟨rfl, rfl⟩ | ⟨rfl, rfl⟩ | ⟨rfl, rfl⟩ | ⟨i, hi, hi'⟩
    · rw [e1]; exact key _ F.shape
    · rw [e3]; exact key _ F.shapeIom
    · rw [e4]; exact key _ F.shapeFrac
    · obtain ⟨s1, s2, -, -, hn⟩ := F.noisePx i src dst hi hi'
      rw [hn r hr cl hc, hp]
      exact key _ ⟨s1, s2⟩
  · intro b1 b2 b3 b4 hsb d1 d2
    obtain ⟨-, -, -, -, hpx⟩ := C41_masks_partial o _ xs ys box px py pb out h bm pm sx sy sb hbm hpm hx hy hb hsb
    rw [abs_le] at hx' hy'
    have near : ∀ (p : ℚ) (n : ℕ), -(1/2) ≤ p → p < (n : ℚ) - 1/2 → ∃ k < n, NearestTo p (k : ℕ) ∧ |p - k| ≤ 1/2 := by
      intro p n h1 h2
      have hfl : 0 ≤ ⌊p + 1/2⌋ := Int.floor_nonneg.2 (by linarith)
      obtain ⟨k, hk⟩ := Int.eq_ofNat_of_zero_le hfl
      have f1 := Int.floor_le (p + 1/2)
      have f2 := Int.lt_floor_add_one (p + 1/2)
      rw [hk] at f1 f2
      push_cast at f1 f2
      refine ⟨k, ?_, ⟨by push_cast; linarith, by push_cast; linarith⟩, by rw [abs_le]; constructor <;> linarith⟩
      have : (k : ℚ) < n := by linarith
      exact_mod_cast this
    obtain ⟨i, hi, ni, ci⟩ := near (y' - sy) bm.nrow (by linarith [hy'.1]) (by linarith [hy'.2])
    obtain ⟨j, hj, nj, cj⟩ := near (x' - sx) bm.ncol (by linarith [hx'.1]) (by linarith [hx'.2])
    obtain ⟨v, u, m1, m2, m3, m4, m5⟩ := (hpx r hr cl hc).2 x' y' (by simp only [hcall, pairUp])
      (.inr (by linarith [hx'.1])) (.inr (by linarith [hy'.1]))
    obtain ⟨rfl, rfl, -, -⟩ := m1 i hi j hj ni nj
    rw [abs_le] at ci cj
    refine ⟨i, hi, j, hj, ?_, ?_, m3, m5 ⟨i, d1 ▸ hi, j, d2 ▸ hj, ?_, ?_⟩⟩
    · rw [abs_le]; constructor <;> linarith [hy'.1, hy'.2]
    · rw [abs_le]; constructor <;> linarith [hx'.1, hx'.2]
    · unfold InKernel; push_cast; constructor <;> linarith
    · unfold InKernel; push_cast; constructor <;> linarith

/-! ### An example -/

/-- A bilinear function between nodes is a mean of its values at the corners. -/
theorem bilinear_between {p q r s x0 x1 y0 y1 x y m ε : ℚ} (hx0 : x0 ≤ x) (hx1 : x ≤ x1) (hy0 : y0 ≤ y) (hy1 : y ≤ y1)
    (h : ∀ u ∈ [x0, x1], ∀ v ∈ [y0, y1], |p + q * u + r * v + s * u * v - m| ≤ ε) :
    |p + q * x + r * y + s * x * y - m| ≤ ε := by
  have lin : ∀ a b t t0 t1 : ℚ, t0 ≤ t → t ≤ t1 → |a + b * t0| ≤ ε → |a + b * t1| ≤ ε → |a + b * t| ≤ ε := by
    intro a b t t0 t1 h0 h1 k0 k1
    rw [abs_le] at *
    rcases le_total 0 b with hb | hb <;> constructor <;> nlinarith
  have row : ∀ v ∈ [y0, y1], |p + q * x + r * v + s * x * v - m| ≤ ε := by
    intro v hv
    have e : ∀ u, p + q * u + r * v + s * u * v - m = (p + r * v - m) + (q + s * v) * u := fun u => by ring
    rw [e]
    exact lin _ _ _ _ _ hx0 hx1 (by rw [← e]; exact h _ (by simp) _ hv) (by rw [← e]; exact h _ (by simp) _ hv)
  have e : ∀ v, p + q * x + r * v + s * x * v - m = (p + q * x - m) + (r + s * x) * v := fun v => by ring
  rw [e]
  exact lin _ _ _ _ _ hy0 hy1 (by rw [← e]; exact row _ (by simp)) (by rw [← e]; exact row _ (by simp))

theorem exactSpline_stable : SplineStable exactSpline 1 := by
  intro delta k l a f hd h m ε hv x y
  set xs := (List.range k).map fun (n : ℕ) => (n : ℚ) * delta with hxs
  set ys := (List.range l).map fun (n : ℕ) => (n : ℚ) * delta with hys
  replace hv : ∀ i < xs.length, ∀ j < ys.length, |a.px i j - m| ≤ ε := by
    intro i hi j hj
    rw [hxs, List.length_map, List.length_range] at hi
    rw [hys, List.length_map, List.length_range] at hj
    exact hv i hi j hj
  clear_value xs ys
  unfold exactSpline at h
  split at h
  case isFalse => cases h
  rename_i hc
  obtain ⟨h1, h2, -, -⟩ := hc
  have := (Except.ok.inj h).symm
  subst this
  have hbet : ∀ (zs : List ℚ) (z : ℚ), 4 ≤ zs.length → Between zs (if Between zs z then z else zs.headD 0) := by
    intro zs z h
    split
    · assumption
    · match zs, h with
      | t :: l, _ => exact ⟨t, by simp, t, by simp, le_rfl, le_rfl⟩
  have bx := hbet xs x h1
  have by' := hbet ys y h2
  dsimp only
  set X := if Between xs x then x else xs.headD 0
  set Y := if Between ys y then y else ys.headD 0
  rw [one_mul]
  unfold splineVal
  split
  · rename_i hex
    have hs := hex.choose_spec.choose_spec
    exact hv _ (List.getElem?_eq_some_iff.1 hs.1).1 _ (List.getElem?_eq_some_iff.1 hs.2).1
  · split
    · rename_i hex
      have hk := hex.choose_spec
      obtain ⟨x0, m0, x1, m1, hx0, hx1⟩ := bx
      obtain ⟨y0, n0, y1, n1, hy0, hy1⟩ := by'
      refine bilinear_between hx0 hx1 hy0 hy1 fun u hu v hv' => ?_
      have hu' : u ∈ xs := by
        simp only [List.mem_cons, List.not_mem_nil, or_false] at hu
        rcases hu with rfl | rfl <;> assumption
      have hv'' : v ∈ ys := by
        simp only [List.mem_cons, List.not_mem_nil, or_false] at hv'
        rcases hv' with rfl | rfl <;> assumption
      obtain ⟨i, hi⟩ := List.getElem?_of_mem hu'
      obtain ⟨j, hj⟩ := List.getElem?_of_mem hv''
      rw [← hk i j u v hi hj]
      exact hv _ (List.getElem?_eq_some_iff.1 hi).1 _ (List.getElem?_eq_some_iff.1 hj).1
    · exact hv 0 (by omega) 0 (by omega)

/-- An SE image of 24 by 24 pixels and a coadd WCS that displaces columns by a parabola. -/
def exBent : ResampleWcs where
  se := exPlain
  seCelestial := false
  seRow := 24
  seCol := 24
  coaddFwd := fun x y => (x, y - x * x / 1000)
  coaddInv := exParabola
  coaddCelestial := false
  coaddOff := 1
  coaddRow := 24
  coaddCol := 24
  cosd := fun _ => 1

/-- `C144_resample`: the resampling happens, and the pixel is where it is claimed to be. -/
example : ∃ L out, buildLookups meanFit exactSpline exBent 8 8 = .ok L ∧
    stripObj.resample L 11 (21 + 144/1000) 1 11 21 1 = .ok out ∧ out.bmask.px 0 0 = 1 ∧
    ∃ x' y' : ℚ, |x' - 11| ≤ 0.62 ∧ |y' - 21| ≤ 0.62 ∧
      |(out.image.px 0 0 : ℝ) - ((1 / 1 : ℚ) : ℝ) * trueLanczosAt 3 (imgReal ⟨3, 3, fun _ _ => 1⟩) ((21 - (20 : ℤ) : ℚ) : ℝ)
        ((11 - (10 : ℤ) : ℚ) : ℝ)| ≤
        ((1 / 1 : ℚ) : ℝ) * (2.11e-6 * (1 + ((2 * (1 * 0) / (1 - 1 * 0) : ℚ) : ℝ)) +
            ((2 * (1 * 0) / (1 - 1 * 0) : ℚ) : ℝ) + 2.1 * (((1 + 1) * (0.31 + 0.31) : ℚ) : ℝ)) *
          absEither 3 (imgReal ⟨3, 3, fun _ _ => 1⟩) ((y' - (20 : ℤ) : ℚ) : ℝ) ((x' - (10 : ℤ) : ℚ) : ℝ)
            ((21 - (20 : ℤ) : ℚ) : ℝ) ((11 - (10 : ℤ) : ℚ) : ℝ) := by
  have reach : IsReach 24 8 24 := ⟨⟨3, rfl⟩, by norm_num, by norm_num⟩
  have hnear : MapNearAffine exParabola 1 exPlain 24 24 1 0 0 1 0 0.3 0.31 := by
    intro x y h1 h2 h3 h4
    push_cast at h2
    rw [exParabola_pos]
    refine ⟨by norm_num, ?_⟩
    dsimp only
    rw [abs_le]
    constructor <;> nlinarith
  have hpix : InSePixels 1 0 0 1 0.31 0.31 0.31 := by
    unfold InSePixels
    norm_num
  obtain ⟨toSe, toCo, hinv⟩ := C143_exists meanFit meanFit_spec exParabola 1 exPlain 24 24 8 (by norm_num) (by norm_num)
    (by norm_num) 24 24 reach reach 1 0 0 1 0 0.3 0.31 0.31 0.31 hnear hpix (by norm_num) (by norm_num)
  obtain ⟨aSe, hse⟩ := (C99_too_coarse exactSpline exactSpline_spec false exPlain.fwd0 (fun _ => 1) 24 24 8 0
    (by norm_num)).1 (by norm_num)
  obtain ⟨aCo, hco⟩ := (C99_too_coarse exactSpline exactSpline_spec false exBent.coaddFwd (fun _ => 1) 24 24 8 1
    (by norm_num)).1 (by norm_num)
  have hL : buildLookups meanFit exactSpline exBent 8 8 = .ok ⟨fun x y => pairUp (toSe.call x y), aSe, aCo⟩ := by
    unfold buildLookups
    show (getWcsInverse meanFit exParabola 1 exPlain 24 24 8 >>= _) = _
    rw [hinv]
    show (getWcsAreaInterp exactSpline false exPlain.fwd0 (fun _ => 1) 24 24 8 0 >>= _) = _
    rw [hse]
    show (getWcsAreaInterp exactSpline false exBent.coaddFwd (fun _ => 1) 24 24 8 1 >>= _) = _
    rw [hco]
    rfl
  obtain ⟨out, hout⟩ := stripObj_returns ⟨fun x y => pairUp (toSe.call x y), aSe, aCo⟩ 11 (21 + 144/1000) 1 11 21 1
  obtain ⟨x', y', h1, h2, h3, h4⟩ := C144_resample meanFit exactSpline meanFit_spec 1 (by norm_num)
    exactSpline_stable exBent 8 8 (meanFit_stable _) (by norm_num) (by norm_num) _ hL 24 24 24 24 reach reach reach reach
    1 0 0 1 0 0.3 0.31 0.31 0.31 hnear hpix 1 1 0 (by norm_num) (by norm_num) le_rfl (by norm_num)
    (by
      intro x y _ _ _ _
      simp only [computeWcsArea, exBent, exPlain, SEWcs.fwd0, Bool.false_eq_true, if_false]
      ring_nf
      norm_num)
    (by
      intro x y _ _ _ _
      simp only [computeWcsArea, exBent, Bool.false_eq_true, if_false]
      ring_nf
      norm_num)
    stripObj 11 (21 + 144/1000) 1 11 21 1 out hout _ _ _ _ _ _ 10 20 3 rfl rfl rfl rfl rfl rfl rfl rfl rfl 0 0 (by norm_num)
    (by norm_num) 11 21 (by
      show coaddPos exParabola 1 exPlain 11 21 = _
      rw [exParabola_pos]
      norm_num) (by norm_num) (by norm_num)
  refine ⟨_, out, hL, hout, ?_, x', y', h1.trans (by norm_num), h2.trans (by norm_num), ?_⟩
  · obtain ⟨i, -, j, -, -, -, h5, -⟩ := h4 (by norm_num) (by norm_num) (by norm_num) (by norm_num) (by norm_num) rfl rfl
    exact h5
  · exact h3 _ _ (.inl ⟨rfl, rfl⟩)

end Pizza
