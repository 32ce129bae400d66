import Verif.Props.SEObject
import Mathlib.Tactic.FieldSimp

/-! Properties C41, C43, C44: resampling an SE slice to another grid. -/

namespace Pizza

/-! ### C41 -/

theorem truncInt64_near {v : ℚ} (h : v ≤ -(3/2) ∨ -(1/2) ≤ v) (n : Nat) :
    (0 ≤ truncInt64 (some v) ∧ truncInt64 (some v) < n ↔ ∃ i < n, NearestTo v (i : ℕ)) ∧
    ∀ i : Nat, NearestTo v i → truncInt64 (some v) = i := by
  have key : ∀ i : Nat, NearestTo v i → truncInt64 (some v) = i := by
    rintro i ⟨h1, h2⟩
    push_cast at h1 h2
    have h0 : (0 : ℚ) ≤ i := Nat.cast_nonneg i
    simp only [truncInt64, truncQ]
    rw [if_pos (by linarith), Int.floor_eq_iff]
    push_cast
    constructor <;> linarith
  refine ⟨⟨?_, ?_⟩, key⟩
  · rintro ⟨h1, h2⟩
    rcases h with h | h
    · exfalso
      simp only [truncInt64, truncQ] at h1
      rw [if_neg (by linarith)] at h1
      have : (0 : ℤ) ≤ ⌈v + 1 / 2⌉ := h1
      have h3 : ⌈v + 1 / 2⌉ ≤ -1 := by
        rw [Int.ceil_le]; push_cast; linarith
      omega
    · obtain ⟨i, hi⟩ := Int.eq_ofNat_of_zero_le h1
      refine ⟨i, by omega, ?_⟩
      simp only [truncInt64, truncQ] at hi
      rw [if_pos (by linarith), Int.floor_eq_iff] at hi
      obtain ⟨a, b⟩ := hi
      constructor <;> linarith
  · rintro ⟨i, hi, hn⟩
    rw [key i hn]; omega

theorem truncInt64_strip {v : ℚ} (h1 : -(3/2) < v) (h2 : v < -(1/2)) : truncInt64 (some v) = 0 := by
  simp only [truncInt64, truncQ]
  rw [if_neg (by linarith), Int.ceil_eq_iff]
  push_cast
  constructor <;> linarith

theorem nearestTo_unique {v : ℚ} {i j : ℤ} (hi : NearestTo v i) (hj : NearestTo v j) : i = j :=
  (C40_nearest_unique v).unique hi hj

/-- `nearVal` through the specification of the nearest pixel. -/
theorem nearVal_spec (a : Img (BitVec 32)) {y x : ℚ} (hy : y ≤ -(3/2) ∨ -(1/2) ≤ y)
    (hx : x ≤ -(3/2) ∨ -(1/2) ≤ x) (nrow ncol : Nat) :
    (∀ i < nrow, ∀ j < ncol, NearestTo y (i : ℕ) → NearestTo x (j : ℕ) →
      nearVal a (some (y, x)) nrow ncol = a.px i j ∧ nearIn (some (y, x)) nrow ncol = true) ∧
    ((∀ i < nrow, ∀ j < ncol, ¬ (NearestTo y (i : ℕ) ∧ NearestTo x (j : ℕ))) →
      nearVal a (some (y, x)) nrow ncol = BMASK_EDGE) := by
  obtain ⟨hy1, hy2⟩ := truncInt64_near hy nrow
  obtain ⟨hx1, hx2⟩ := truncInt64_near hx ncol
  constructor
  · intro i hi j hj hyi hxj
    have e : nearIn (some (y, x)) nrow ncol = true := by
      simp only [nearIn, Option.map_some, decide_eq_true_eq, hy2 i hyi, hx2 j hxj]
      omega
    refine ⟨?_, e⟩
    rw [nearVal, if_pos e]
    simp [hy2 i hyi, hx2 j hxj]
  · intro hno
    rw [nearVal, if_neg]
    simp only [nearIn, Option.map_some, decide_eq_true_eq]
    rintro ⟨a1, a2, a3, a4⟩
    obtain ⟨i, hi, hyi⟩ := hy1.1 ⟨a1, a2⟩
    obtain ⟨j, hj, hxj⟩ := hx1.1 ⟨a3, a4⟩
    exact hno i hi j hj ⟨hyi, hxj⟩

/-- The edge flag of `lanczosAt` through the specification of the kernel. -/
theorem lanczosAt_edge (a : Img ℚ) (g : Nat → Nat → ℚ) {n : Nat} (hn : 0 < n) (y x : ℚ) :
    (lanczosAt (perArea a g n) (some (y, x))).2 = true ↔
      ∀ i < n, ∀ j < n, ¬ (InKernel 3 y i ∧ InKernel 3 x j) :=
  (C28_edge_iff (perArea a g n) 3 y x _ _ (by norm_num) hn hn
    ((resampled_iff _ _ _ _ _ _).2 ⟨le_rfl, rfl, rfl⟩)).1

theorem or_bit (e : Bool) (v : BitVec 32) (k : Nat) (hk : k < 32) :
    (if e then v ||| BMASK_RESAMPLE_BOUNDS else v).getLsbD k =
      (v.getLsbD k || (decide (k = 26) && e)) := by
  cases e
  · simp
  · simp only [if_true, BitVec.getLsbD_or, BMASK_RESAMPLE_BOUNDS, BitVec.getLsbD_twoPow]
    by_cases h : k = 26
    · subst h; simp
    · simp [h, Ne.symm h]

theorem edge_bit (k : Nat) (hk : k < 32) : BMASK_EDGE.getLsbD k = decide (k = 29) := by
  simp only [BMASK_EDGE, BitVec.getLsbD_twoPow]
  by_cases h : k = 29
  · subst h; simp
  · simp [h, Ne.symm h]

/-- C41, restricted to mapped positions of which no coordinate lies in the open interval
(-3/2, -1/2) relative to the slice (where the code takes pixel 0, see `C41_strip`; that is the
missing part).  At every pixel of the destination grid: if the position is NaN the masks hold
EDGE and RESAMPLE_BOUNDS.  Otherwise the masks hold the values at the nearest pixel of the slice,
or EDGE if that is outside; in the processing mask RESAMPLE_BOUNDS is added iff no pixel of the
slice is in the interpolation kernel. -/
theorem C41_masks_partial (o : SEObj) (w : Lookups) (xs ys : ℚ) (box : Nat) (px py : ℚ) (pb : Nat)
    (out : Resampling) (h : o.resample w xs ys box px py pb = .ok out)
    (bm pm : Img (BitVec 32)) (sx sy sb : ℤ) (hbm : o.bmask = some bm) (hpm : o.pmask = some pm)
    (hx : o.xStart = some sx) (hy : o.yStart = some sy) (hb : o.boxSize = some sb) (hpos : 0 < sb) :
    out.bmask.nrow = box ∧ out.bmask.ncol = box ∧ out.pmask.nrow = box ∧ out.pmask.ncol = box ∧
    ∀ r < box, ∀ c < box,
      (w.toSe ((c : ℚ) + xs) ((r : ℚ) + ys) = none → ∀ k < 32,
        (out.bmask.px r c).getLsbD k = decide (k = 29) ∧
        (out.pmask.px r c).getLsbD k = (decide (k = 29) || decide (k = 26))) ∧
      ∀ x y, w.toSe ((c : ℚ) + xs) ((r : ℚ) + ys) = some (x, y) →
        (x - sx ≤ -(3/2) ∨ -(1/2) ≤ x - sx) → (y - sy ≤ -(3/2) ∨ -(1/2) ≤ y - sy) →
        ∃ v u : BitVec 32,
          (∀ i < bm.nrow, ∀ j < bm.ncol, NearestTo (y - sy) (i : ℕ) → NearestTo (x - sx) (j : ℕ) →
            v = bm.px i j ∧ u = pm.px i j ∧ i < pm.nrow ∧ j < pm.ncol) ∧
          ((∀ i < bm.nrow, ∀ j < bm.ncol,
            ¬ (NearestTo (y - sy) (i : ℕ) ∧ NearestTo (x - sx) (j : ℕ))) →
            ∀ k < 32, v.getLsbD k = decide (k = 29) ∧ u.getLsbD k = decide (k = 29)) ∧
          out.bmask.px r c = v ∧
          ((∀ i < sb.toNat, ∀ j < sb.toNat, ¬ (InKernel 3 (y - sy) i ∧ InKernel 3 (x - sx) j)) →
            ∀ k < 32, (out.pmask.px r c).getLsbD k = (u.getLsbD k || decide (k = 26))) ∧
          ((∃ i < sb.toNat, ∃ j < sb.toNat, InKernel 3 (y - sy) i ∧ InKernel 3 (x - sx) j) →
            out.pmask.px r c = u) := by
  obtain ⟨sb', sx', sy', image, iom, frac, noises, bm', pm', F⟩ := resample_facts h
  cases hbm.symm.trans F.hbm; cases hpm.symm.trans F.hpm; cases hx.symm.trans F.hx
  cases hy.symm.trans F.hy; cases hb.symm.trans F.hbox
  refine ⟨F.dims.1, F.dims.2.1, F.dims.2.2.1, F.dims.2.2.2.1, fun r hr c hc => ?_⟩
  obtain ⟨-, hedge, -, -, hbv, hpv, hin⟩ := F.px r hr c hc
  rw [hbv, hpv, hedge]
  constructor
  · intro hn k hk
    have hp : localPos w xs ys sx sy r c = none := by simp [localPos, hn]
    have hno : nearIn none bm.nrow bm.ncol = false := by
      simp [nearIn, truncInt64]
    rw [hp, or_bit _ _ _ hk]
    simp only [nearVal, hno, Bool.false_eq_true, if_false, edge_bit k hk, lanczosAt, Bool.and_true,
      and_self]
  · intro x y hxy hsx hsy
    have hp : localPos w xs ys sx sy r c = some (y - sy, x - sx) := by simp [localPos, hxy]
    rw [hp] at hin ⊢
    have hn : 0 < sb.toNat := by omega
    have hE := lanczosAt_edge image (fun r c => w.areaSe (↑c + ↑sx) (↑r + ↑sy)) hn (y - sy) (x - sx)
    refine ⟨_, nearVal pm (some (y - sy, x - sx)) bm.nrow bm.ncol, fun i hi j hj hyi hxj => ?_,
      fun hno k hk => ?_, rfl, fun hker k hk => ?_, ?_⟩
    · obtain ⟨e1, e2⟩ := (nearVal_spec bm hsy hsx bm.nrow bm.ncol).1 i hi j hj hyi hxj
      obtain ⟨e3, -⟩ := (nearVal_spec pm hsy hsx bm.nrow bm.ncol).1 i hi j hj hyi hxj
      refine ⟨e1, e3, ?_⟩
      have := hin e2
      simp only [nearIn, Option.map_some, decide_eq_true_eq] at this
      rw [(truncInt64_near hsy 0).2 i hyi, (truncInt64_near hsx 0).2 j hxj] at this
      omega
    · rw [(nearVal_spec bm hsy hsx bm.nrow bm.ncol).2 hno, (nearVal_spec pm hsy hsx bm.nrow bm.ncol).2 hno]
      exact ⟨edge_bit k hk, edge_bit k hk⟩
    · rw [or_bit _ _ _ hk, hE.2 hker, Bool.and_true]
    · rintro ⟨i, hi, j, hj, hij⟩
      rw [if_neg]
      rw [hE]
      intro hall
      exact hall i hi j hj hij

/-- Finding: at a mapped position less than a pixel outside the slice on its low side the masks
are those of the first row or column of the slice, not EDGE. -/
theorem C41_strip (o : SEObj) (w : Lookups) (xs ys : ℚ) (box : Nat) (px py : ℚ) (pb : Nat)
    (out : Resampling) (h : o.resample w xs ys box px py pb = .ok out)
    (bm : Img (BitVec 32)) (sx sy : ℤ) (hbm : o.bmask = some bm)
    (hx : o.xStart = some sx) (hy : o.yStart = some sy) (r c : Nat) (hr : r < box) (hc : c < box)
    (x y : ℚ) (hxy : w.toSe ((c : ℚ) + xs) ((r : ℚ) + ys) = some (x, y))
    (hsx : -(3/2) < x - sx ∧ x - sx < -(1/2)) (i : Nat) (hi : i < bm.nrow)
    (hyi : NearestTo (y - sy) (i : ℕ)) (hcol : 0 < bm.ncol) :
    out.bmask.px r c = bm.px i 0 ∧ ∀ j : ℕ, ¬ NearestTo (x - sx) (j : ℕ) := by
  obtain ⟨sb', sx', sy', image, iom, frac, noises, bm', pm', F⟩ := resample_facts h
  cases hbm.symm.trans F.hbm; cases hx.symm.trans F.hx; cases hy.symm.trans F.hy
  obtain ⟨-, -, -, -, hbv, -, -⟩ := F.px r hr c hc
  have hp : localPos w xs ys sx sy r c = some (y - sy, x - sx) := by simp [localPos, hxy]
  rw [hbv, hp]
  have hy0 : -(1/2) ≤ y - sy := by
    have := hyi.1
    have h0 : (0 : ℚ) ≤ i := Nat.cast_nonneg i
    push_cast at this; linarith
  have e1 := (truncInt64_near (.inr hy0) 0).2 i hyi
  have e2 := truncInt64_strip hsx.1 hsx.2
  constructor
  · rw [nearVal, if_pos]
    · simp [e1, e2]
    · simp only [nearIn, Option.map_some, decide_eq_true_eq, e1, e2]; omega
  · rintro j ⟨h1, -⟩
    have h0 : (0 : ℚ) ≤ j := Nat.cast_nonneg j
    push_cast at h1
    linarith [hsx.2]

/-- An object with a 3 by 3 slice whose mask is 1 everywhere. -/
def stripObj : SEObj where
  xStart := some 10
  yStart := some 20
  boxSize := some 3
  image := some ⟨3, 3, fun _ _ => 1⟩
  bmask := some ⟨3, 3, fun _ _ => 1⟩
  noises := some []
  psf := some ⟨1, 1, fun _ _ => 1⟩
  psfXStart := some 11
  psfYStart := some 21
  psfBoxSize := some 1
  interpFrac := some ⟨3, 3, fun _ _ => 0⟩
  interpOnlyImage := some ⟨3, 3, fun _ _ => 0⟩
  pmask := some ⟨3, 3, fun _ _ => 0⟩

/-- Same grids, same areas. -/
def idLookups : Lookups where
  toSe := fun x y => some (x, y)
  areaSe := fun _ _ => 1
  areaCoadd := fun _ _ => 1

theorem stripObj_returns (w : Lookups) (xs ys : ℚ) (box : Nat) (px py : ℚ) (pb : Nat) :
    ∃ out, stripObj.resample w xs ys box px py pb = .ok out :=
  resample_total stripObj w xs ys box px py pb _ _ _ _ _ _ _ _ _ _ _ _ rfl rfl rfl rfl rfl rfl rfl rfl
    rfl rfl rfl rfl rfl rfl ⟨rfl, rfl⟩ ⟨rfl, rfl⟩ ⟨rfl, rfl⟩ (by simp) ⟨le_rfl, le_rfl⟩

/-- C41 does not hold in full: a destination pixel exactly one pixel outside the slice (nearest
pixel -1) gets the mask of pixel 0 and no EDGE flag. -/
theorem C41_masks_fails : ∃ (o : SEObj) (w : Lookups) (out : Resampling) (bm : Img (BitVec 32))
    (sx sy : ℤ), o.resample w 9 20 1 11 21 1 = .ok out ∧ o.bmask = some bm ∧ o.xStart = some sx ∧
      o.yStart = some sy ∧ w.toSe 9 20 = some (9, 20) ∧ NearestTo (9 - sx) (-1) ∧
      (out.bmask.px 0 0).getLsbD 29 = false := by
  obtain ⟨out, h⟩ := stripObj_returns idLookups 9 20 1 11 21 1
  refine ⟨stripObj, idLookups, out, _, 10, 20, h, rfl, rfl, rfl, rfl, ?_, ?_⟩
  · unfold NearestTo; norm_num
  · have := (C41_strip stripObj idLookups 9 20 1 11 21 1 out h _ 10 20 rfl rfl rfl 0 0 (by norm_num)
      (by norm_num) 9 20 (by simp [idLookups]) (by norm_num) 0 (by norm_num)
      (by unfold NearestTo; norm_num) (by norm_num)).1
    rw [this]
    rfl

/-- `C41_masks_partial` on that image, for a box that is partly outside of it. -/
example : ∃ out, stripObj.resample idLookups 9 20 4 11 21 1 = .ok out ∧ out.bmask.nrow = 4 := by
  obtain ⟨out, h⟩ := stripObj_returns idLookups 9 20 4 11 21 1
  exact ⟨out, h, (C41_masks_partial _ _ _ _ _ _ _ _ _ h _ _ 10 20 3 rfl rfl rfl rfl rfl
    (by norm_num)).1⟩

/-- `C41_strip` on that image: the first pixel of the box is one column to the left of it. -/
example : ∃ out, stripObj.resample idLookups 9 20 1 11 21 1 = .ok out ∧ out.bmask.px 0 0 = 1 := by
  obtain ⟨out, h⟩ := stripObj_returns idLookups 9 20 1 11 21 1
  exact ⟨out, h, (C41_strip stripObj idLookups 9 20 1 11 21 1 out h _ 10 20 rfl rfl rfl 0 0 (by norm_num)
    (by norm_num) 9 20 (by simp [idLookups]) (by norm_num) 0 (by norm_num)
    (by norm_num [NearestTo]) (by norm_num)).1⟩

/-! ### C43 -/

theorem kcut_intZ (p : ℤ) (k : Nat) :
    kcut 3 (p : ℚ) k = if (k : ℤ) = p then (0.999999999999996 : ℚ) ^ 2 else 0 := by
  unfold kcut
  split
  · rename_i h
    split
    · rename_i hk
      subst hk
      simp only [kern, Int.cast_natCast, sub_self, zero_div, sincVal_zero]; ring
    · rename_i hk
      rw [inKernel_iff, Finset.mem_Icc] at h
      rw [Int.floor_intCast] at h
      have h0 : sincVal ((p : ℚ) - k) = 0 := by
        have := sincVal_int (K := ℚ) (d := p - k) (by omega) (by rw [abs_le]; omega)
        simpa using this
      simp [kern, h0]
  · rename_i h
    split
    · rename_i hk
      subst hk
      exfalso
      apply h
      constructor <;> push_cast <;> linarith
    · rfl

/-- The Lanczos sum at a whole pixel position. -/
theorem lanczosSum_int (im : Img ℚ) (i j : ℤ) :
    lanczosSum im 3 (i : ℚ) (j : ℚ) =
      (if 0 ≤ i ∧ i < im.nrow ∧ 0 ≤ j ∧ j < im.ncol then im.px i.toNat j.toNat else 0) *
        (0.999999999999996 : ℚ) ^ 4 := by
  rw [lanczosSum_eq]
  simp only [kcut_intZ]
  split
  · rename_i h
    obtain ⟨a, ha⟩ := Int.eq_ofNat_of_zero_le h.1
    obtain ⟨b, hb⟩ := Int.eq_ofNat_of_zero_le h.2.2.1
    subst ha hb
    rw [Finset.sum_eq_single a, Finset.sum_eq_single b]
    · simp only [if_true, Int.toNat_natCast]; ring
    · intro c _ hc
      rw [if_neg (by simpa using hc)]; simp
    · intro hb; exfalso; apply hb; rw [Finset.mem_range]; simp only [Nat.cast_lt] at h; omega
    · intro r _ hr
      apply Finset.sum_eq_zero
      intro c _
      rw [if_neg (by simpa using hr : ¬ ((r : ℤ) = a))]; simp
    · intro ha; exfalso; apply ha; rw [Finset.mem_range]; simp only [Nat.cast_lt] at h; omega
  · rename_i h
    rw [zero_mul]
    apply Finset.sum_eq_zero
    intro r hr
    apply Finset.sum_eq_zero
    intro c hc
    rw [Finset.mem_range] at hr hc
    by_cases h1 : (r : ℤ) = i
    · rw [if_neg (by omega : ¬ ((c : ℤ) = j))]; simp
    · rw [if_neg h1]; simp

theorem lanczosSum_int_perArea (a : Img ℚ) (g : Nat → Nat → ℚ) (n : Nat) (i j : ℤ) :
    lanczosSum (perArea a g n) 3 (i : ℚ) (j : ℚ) =
      (if 0 ≤ i ∧ i < n ∧ 0 ≤ j ∧ j < n then a.px i.toNat j.toNat / g i.toNat j.toNat else 0) *
        (0.999999999999996 : ℚ) ^ 4 :=
  lanczosSum_int (perArea a g n) i j

/-- C43: the kernel constant is within 2e-14 of one.  At every destination pixel whose position
in the SE image is its own moved by a fixed number of whole pixels, and whose area is that of the
SE pixel there: if it falls on
pixel `(i, j)` of the slice the resampled image, noises, interp-only image and interp fraction
are the constant times the value at `(i, j)`, and the masks are the masks at `(i, j)`, not
flagged in addition; if it falls outside the slice the resampled image, noises and interp data
are zero. -/
theorem C43_whole_pixel_shift : ∃ κ : ℚ, |κ - 1| ≤ 2e-14 ∧
    ∀ (o : SEObj) (w : Lookups) (xs ys : ℤ) (box : Nat) (px py : ℚ) (pb : Nat) (out : Resampling)
      (bm pm : Img (BitVec 32)) (image iom frac : Img ℚ) (noises : List (Img ℚ)) (sx sy sb tx ty : ℤ),
    o.resample w xs ys box px py pb = .ok out →
    o.bmask = some bm → o.pmask = some pm → o.image = some image → o.interpOnlyImage = some iom →
    o.interpFrac = some frac → o.noises = some noises → o.xStart = some sx → o.yStart = some sy →
    o.boxSize = some sb → (bm.nrow = sb.toNat ∧ bm.ncol = sb.toNat) →
    out.noises.length = noises.length ∧
    ∀ r < box, ∀ c < box, ∀ x y : ℚ, x = c + xs → y = r + ys →
      w.toSe x y = some (x + tx, y + ty) →
      w.areaCoadd x y = w.areaSe (x + tx) (y + ty) → w.areaCoadd x y ≠ 0 →
      (∀ i < sb.toNat, ∀ j < sb.toNat, (i : ℤ) + sy = r + ys + ty → (j : ℤ) + sx = c + xs + tx →
        out.image.px r c = κ * image.px i j ∧ out.interpOnlyImage.px r c = κ * iom.px i j ∧
        out.interpFrac.px r c = κ * frac.px i j ∧
        (∀ (k : Nat) (n n' : Img ℚ), noises[k]? = some n → out.noises[k]? = some n' →
          n'.px r c = κ * n.px i j) ∧
        out.bmask.px r c = bm.px i j ∧ out.pmask.px r c = pm.px i j) ∧
      ((∀ i < sb.toNat, ∀ j < sb.toNat,
          ¬ ((i : ℤ) + sy = r + ys + ty ∧ (j : ℤ) + sx = c + xs + tx)) →
        out.image.px r c = 0 ∧ out.interpOnlyImage.px r c = 0 ∧ out.interpFrac.px r c = 0 ∧
        ∀ (k : Nat) (n n' : Img ℚ), noises[k]? = some n → out.noises[k]? = some n' →
          n'.px r c = 0) := by
  refine ⟨(0.999999999999996 : ℚ) ^ 4, by rw [abs_le]; norm_num, ?_⟩
  intro o w xs ys box px py pb out bm pm image iom frac noises sx sy sb tx ty h hbm hpm him hiom
    hfrac hno hx hy hb hshape
  obtain ⟨sb', sx', sy', image', iom', frac', noises', bm', pm', F⟩ := resample_facts h
  cases hbm.symm.trans F.hbm; cases hpm.symm.trans F.hpm; cases hx.symm.trans F.hx
  cases hy.symm.trans F.hy; cases hb.symm.trans F.hbox; cases him.symm.trans F.himage
  cases hiom.symm.trans F.hiom; cases hfrac.symm.trans F.hfrac; cases hno.symm.trans F.hnoises
  refine ⟨F.lenNoises, fun r hr c hc x0 y0 hx0 hy0 hto ha hnz => ?_⟩
  subst hx0 hy0
  obtain ⟨h1, h2, h3, h4, h5, h6, h7⟩ := F.px r hr c hc
  have hp : localPos w xs ys sx sy r c =
      some (((r + ys + ty - sy : ℤ) : ℚ), ((c + xs + tx - sx : ℤ) : ℚ)) := by
    simp only [localPos, hto, Option.map_some, Option.some.injEq, Prod.mk.injEq]
    push_cast
    constructor <;> ring
  rw [hp] at h1 h2 h3 h4 h5 h6
  have hval : ∀ a : Img ℚ, (lanczosAt (perArea a (fun r c => w.areaSe ((c : ℚ) + sx) ((r : ℚ) + sy)) sb.toNat)
      (some (((r + ys + ty - sy : ℤ) : ℚ), ((c + xs + tx - sx : ℤ) : ℚ)))).1 *
        w.areaCoadd ((c : ℚ) + xs) ((r : ℚ) + ys) =
      (if 0 ≤ (r + ys + ty - sy : ℤ) ∧ (r + ys + ty - sy : ℤ) < sb.toNat ∧ 0 ≤ (c + xs + tx - sx : ℤ) ∧
        (c + xs + tx - sx : ℤ) < sb.toNat then
          a.px (r + ys + ty - sy : ℤ).toNat (c + xs + tx - sx : ℤ).toNat else 0) *
        (0.999999999999996 : ℚ) ^ 4 := by
    intro a
    simp only [lanczosAt]
    rw [lanczosSum_int_perArea]
    by_cases hin : 0 ≤ (r + ys + ty - sy : ℤ) ∧ (r + ys + ty - sy : ℤ) < sb.toNat ∧
        0 ≤ (c + xs + tx - sx : ℤ) ∧ (c + xs + tx - sx : ℤ) < sb.toNat
    · rw [if_pos hin, if_pos hin]
      obtain ⟨i, hi⟩ := Int.eq_ofNat_of_zero_le hin.1
      obtain ⟨j, hj⟩ := Int.eq_ofNat_of_zero_le hin.2.2.1
      have ea : w.areaSe (((c + xs + tx - sx : ℤ).toNat : ℚ) + sx) (((r + ys + ty - sy : ℤ).toNat : ℚ) + sy) =
          w.areaCoadd ((c : ℚ) + xs) ((r : ℚ) + ys) := by
        rw [ha]
        have e1 : (((c + xs + tx - sx : ℤ).toNat : ℚ)) = (c + xs + tx - sx : ℤ) := by
          rw [hj]; simp
        have e2 : (((r + ys + ty - sy : ℤ).toNat : ℚ)) = (r + ys + ty - sy : ℤ) := by
          rw [hi]; simp
        rw [e1, e2]
        congr 1 <;> push_cast <;> ring
      rw [ea]
      field_simp
    · rw [if_neg hin, if_neg hin]; simp
  constructor
  · intro i hi j hj hri hcj
    have ei : (r + ys + ty - sy : ℤ) = i := by omega
    have ej : (c + xs + tx - sx : ℤ) = j := by omega
    have hv : ∀ a : Img ℚ, (lanczosAt (perArea a (fun r c => w.areaSe ((c : ℚ) + sx) ((r : ℚ) + sy)) sb.toNat)
        (some (((r + ys + ty - sy : ℤ) : ℚ), ((c + xs + tx - sx : ℤ) : ℚ)))).1 *
        w.areaCoadd ((c : ℚ) + xs) ((r : ℚ) + ys) = (0.999999999999996 : ℚ) ^ 4 * a.px i j := by
      intro a
      rw [hval a, ei, ej, if_pos (by omega)]
      simp only [Int.toNat_natCast]
      ring
    have hy' : NearestTo ((r + ys + ty - sy : ℤ) : ℚ) (i : ℕ) := by
      rw [ei]; unfold NearestTo; push_cast; constructor <;> linarith
    have hx' : NearestTo ((c + xs + tx - sx : ℤ) : ℚ) (j : ℕ) := by
      rw [ej]; unfold NearestTo; push_cast; constructor <;> linarith
    have hy0 : -(1/2) ≤ ((r + ys + ty - sy : ℤ) : ℚ) := by
      rw [ei]; have : (0 : ℚ) ≤ i := Nat.cast_nonneg i
      push_cast; linarith
    have hx0 : -(1/2) ≤ ((c + xs + tx - sx : ℤ) : ℚ) := by
      rw [ej]; have : (0 : ℚ) ≤ j := Nat.cast_nonneg j
      push_cast; linarith
    obtain ⟨nb, -⟩ := (nearVal_spec bm (.inr hy0) (.inr hx0) bm.nrow bm.ncol).1 i (by omega) j (by omega) hy' hx'
    obtain ⟨np, -⟩ := (nearVal_spec pm (.inr hy0) (.inr hx0) bm.nrow bm.ncol).1 i (by omega) j (by omega) hy' hx'
    refine ⟨by rw [h1]; exact hv image, by rw [h3]; exact hv iom, by rw [h4]; exact hv frac, ?_, by rw [h5, nb], ?_⟩
    · intro k n n' hk hk'
      obtain ⟨-, -, -, -, hn⟩ := F.noisePx k n n' hk hk'
      rw [hn r hr c hc, hp]
      exact hv n
    · rw [h6, np, if_neg]
      rw [h2, lanczosAt_edge _ _ (by omega)]
      intro hall
      apply hall i hi j hj
      rw [ei, ej]
      constructor <;> constructor <;> push_cast <;> linarith
  · intro hno
    have hv : ∀ a : Img ℚ, (lanczosAt (perArea a (fun r c => w.areaSe ((c : ℚ) + sx) ((r : ℚ) + sy)) sb.toNat)
        (some (((r + ys + ty - sy : ℤ) : ℚ), ((c + xs + tx - sx : ℤ) : ℚ)))).1 *
        w.areaCoadd ((c : ℚ) + xs) ((r : ℚ) + ys) = 0 := by
      intro a
      rw [hval a, if_neg, zero_mul]
      rintro ⟨q1, q2, q3, q4⟩
      obtain ⟨i, hi⟩ := Int.eq_ofNat_of_zero_le q1
      obtain ⟨j, hj⟩ := Int.eq_ofNat_of_zero_le q3
      exact hno i (by omega) j (by omega) ⟨by omega, by omega⟩
    refine ⟨by rw [h1]; exact hv image, by rw [h3]; exact hv iom, by rw [h4]; exact hv frac, ?_⟩
    intro k n n' hk hk'
    obtain ⟨-, -, -, -, hn⟩ := F.noisePx k n n' hk hk'
    rw [hn r hr c hc, hp]
    exact hv n

example : (∃ out, stripObj.resample idLookups (10 : ℤ) (21 : ℤ) 2 11 21 1 = .ok out) ∧
    (∀ x y, idLookups.toSe x y = some (x + (0 : ℤ), y + (0 : ℤ))) ∧
    (∀ x y, idLookups.areaCoadd x y = idLookups.areaSe (x + (0 : ℤ)) (y + (0 : ℤ)) ∧
      idLookups.areaCoadd x y ≠ 0) :=
  ⟨stripObj_returns _ _ _ _ _ _ _, by simp [idLookups], by simp [idLookups]⟩

/-! ### C44 -/

/-- The values before normalisation. -/
def rawPsf (w : Lookups) (psf : Img ℚ) (sx sy : ℤ) (psfXStart psfYStart dx dy : ℚ) (n r c : Nat) : ℚ :=
  (if (lanczosAt (perArea psf (fun r c => w.areaSe ((c : ℚ) + sx) ((r : ℚ) + sy)) n)
      ((localPos w psfXStart psfYStart sx sy r c).map fun q => (q.1 + dy, q.2 + dx))).2 then 0
    else (lanczosAt (perArea psf (fun r c => w.areaSe ((c : ℚ) + sx) ((r : ℚ) + sy)) n)
      ((localPos w psfXStart psfYStart sx sy r c).map fun q => (q.1 + dy, q.2 + dx))).1) *
    w.areaCoadd ((c : ℚ) + psfXStart) ((r : ℚ) + psfYStart)

theorem total_congr {a b : Img ℚ} (h1 : a.nrow = b.nrow) (h2 : a.ncol = b.ncol)
    (h : ∀ r < a.nrow, ∀ c < a.ncol, a.px r c = b.px r c) : a.total = b.total := by
  unfold Img.total
  rw [← h1, ← h2]
  refine Finset.sum_congr rfl fun r hr => Finset.sum_congr rfl fun c hc => ?_
  rw [Finset.mem_range] at hr hc
  exact h r hr c hc

theorem resamplePsf_ok {o : SEObj} {w : Lookups} {px py : ℚ} {pb : Nat} {dx dy : ℚ} {out : Img ℚ}
    (h : o.resamplePsf w px py pb dx dy = .ok out) :
    ∃ psf sx sy n, o.psf = some psf ∧ o.psfXStart = some sx ∧ o.psfYStart = some sy ∧
      o.psfBoxSize = some n ∧ psf.nrow = n ∧ psf.ncol = n ∧ out.nrow = pb ∧ out.ncol = pb ∧
      ∀ r < pb, ∀ c < pb, out.px r c = rawPsf w psf sx sy px py dx dy n r c /
        ∑ r ∈ Finset.range pb, ∑ c ∈ Finset.range pb, rawPsf w psf sx sy px py dx dy n r c := by
  unfold SEObj.resamplePsf at h
  split at h
  · cases h
  rename_i n hn
  simp only [bind_eq_ok, attr_ok, divArea_ok, lanczosNan_eq, pure_eq_ok, Except.ok.injEq] at h
  obtain ⟨psf, hpsf, sx, hsx, sy, hsy, im, ⟨⟨h1, h2⟩, rfl⟩, rs, rfl, rfl⟩ := h
  refine ⟨psf, sx, sy, n, hpsf, hsx, hsy, hn, h1, h2, rfl, rfl, ?_⟩
  have hpx : ∀ r < pb, ∀ c < pb, (timesArea pb
      (((gridList pb fun r c => (localPos w px py sx sy r c).map fun q => (q.1 + dy, q.2 + dx)).map
        (lanczosAt ⟨n, n, fun r c => psf.px r c / w.areaSe ((c : ℚ) + sx) ((r : ℚ) + sy)⟩)).map
          fun v => if v.2 then 0 else v.1)
      (gridList pb fun r c => w.areaCoadd ((c : ℚ) + px) ((r : ℚ) + py))).px r c =
        rawPsf w psf sx sy px py dx dy n r c := by
    intro r hr c hc
    rw [gridList_map, gridList_map, timesArea_px _ _ _ hr hc, rawPsf, perArea]
  intro r hr c hc
  simp only [Img.map]
  rw [hpx r hr c hc]
  congr 1
  unfold Img.total
  refine Finset.sum_congr rfl fun r hr => Finset.sum_congr rfl fun c hc => ?_
  exact hpx r (Finset.mem_range.1 hr) c (Finset.mem_range.1 hc)

/-- The unnormalised value through the specification of the resampling. -/
theorem rawPsf_spec (w : Lookups) (psf : Img ℚ) (sx sy : ℤ) (px py dx dy : ℚ) {n : Nat} (hn : 0 < n)
    (r c : Nat) :
    (w.toSe ((c : ℚ) + px) ((r : ℚ) + py) = none → rawPsf w psf sx sy px py dx dy n r c = 0) ∧
    ∀ x y, w.toSe ((c : ℚ) + px) ((r : ℚ) + py) = some (x, y) → ∀ v e,
      Resampled ⟨n, n, fun r c => psf.px r c / w.areaSe ((c : ℚ) + sx) ((r : ℚ) + sy)⟩ 3
        (y - sy + dy) (x - sx + dx) v e →
      rawPsf w psf sx sy px py dx dy n r c = v * w.areaCoadd ((c : ℚ) + px) ((r : ℚ) + py) ∧
      ((∀ i < n, ∀ j < n, ¬ (InKernel 3 (y - sy + dy) i ∧ InKernel 3 (x - sx + dx) j)) → v = 0) := by
  constructor
  · intro h
    simp [rawPsf, localPos, h, lanczosAt]
  · intro x y h v e hres
    obtain ⟨h1, h2⟩ := C28_edge_iff _ 3 _ _ _ _ (by norm_num) (by exact hn) (by exact hn) hres
    obtain ⟨-, hv, he⟩ := (resampled_iff _ _ _ _ _ _).1 hres
    refine ⟨?_, fun hk => h2 (h1.2 hk)⟩
    simp only [rawPsf, localPos, h, Option.map_some, lanczosAt, perArea]
    rw [← hv, ← he]
    cases e
    · simp
    · rw [h2 rfl]; simp

/-- C44: the resampled PSF is proportional to the Lanczos resampling of the PSF per area, times
the area of the destination pixels (zero where the position is NaN); when these values have
non-zero sum the result sums to one; and it is zero wherever the kernel has no pixel inside the
stamp. -/
theorem C44_psf_normalised (o : SEObj) (w : Lookups) (px py : ℚ) (pb : Nat) (dx dy : ℚ) (out : Img ℚ)
    (psf : Img ℚ) (sx sy : ℤ) (n : Nat) (h : o.resamplePsf w px py pb dx dy = .ok out)
    (h1 : o.psf = some psf) (h2 : o.psfXStart = some sx) (h3 : o.psfYStart = some sy)
    (h4 : o.psfBoxSize = some n) (hn : 0 < n) :
    out.nrow = pb ∧ out.ncol = pb ∧ ∃ raw : Nat → Nat → ℚ,
      (∀ r < pb, ∀ c < pb,
        (w.toSe ((c : ℚ) + px) ((r : ℚ) + py) = none → raw r c = 0 ∧ out.px r c = 0) ∧
        ∀ x y, w.toSe ((c : ℚ) + px) ((r : ℚ) + py) = some (x, y) →
          (∀ v e, Resampled ⟨n, n, fun r c => psf.px r c / w.areaSe ((c : ℚ) + sx) ((r : ℚ) + sy)⟩ 3
            (y - sy + dy) (x - sx + dx) v e →
              raw r c = v * w.areaCoadd ((c : ℚ) + px) ((r : ℚ) + py)) ∧
          ((∀ i < n, ∀ j < n, ¬ (InKernel 3 (y - sy + dy) i ∧ InKernel 3 (x - sx + dx) j)) →
            out.px r c = 0)) ∧
      ((∑ r ∈ Finset.range pb, ∑ c ∈ Finset.range pb, raw r c) ≠ 0 →
        (∑ r ∈ Finset.range pb, ∑ c ∈ Finset.range pb, out.px r c) = 1 ∧
        ∀ r < pb, ∀ c < pb,
          out.px r c * (∑ r ∈ Finset.range pb, ∑ c ∈ Finset.range pb, raw r c) = raw r c) := by
  obtain ⟨psf', sx', sy', n', e1, e2, e3, e4, -, -, d1, d2, hpx⟩ := resamplePsf_ok h
  cases h1.symm.trans e1; cases h2.symm.trans e2; cases h3.symm.trans e3; cases h4.symm.trans e4
  refine ⟨d1, d2, rawPsf w psf sx sy px py dx dy n, fun r hr c hc => ?_, fun hs => ⟨?_, fun r hr c hc => ?_⟩⟩
  · obtain ⟨hnone, hsome⟩ := rawPsf_spec w psf sx sy px py dx dy hn r c
    refine ⟨fun hN => ⟨hnone hN, by rw [hpx r hr c hc, hnone hN, zero_div]⟩, fun x y hxy => ⟨?_, fun hk => ?_⟩⟩
    · intro v e hr; exact (hsome x y hxy v e hr).1
    · obtain ⟨v, e, hres⟩ : ∃ v e, Resampled ⟨n, n, fun r c => psf.px r c / w.areaSe ((c : ℚ) + sx) ((r : ℚ) + sy)⟩ 3
          (y - sy + dy) (x - sx + dx) v e := ⟨_, _, (resampled_iff _ _ _ _ _ _).2 ⟨le_rfl, rfl, rfl⟩⟩
      obtain ⟨a1, a2⟩ := hsome x y hxy v e hres
      rw [hpx r hr c hc, a1, a2 hk, zero_mul, zero_div]
  · rw [Finset.sum_congr rfl fun r hr => Finset.sum_congr rfl fun c hc =>
      hpx r (Finset.mem_range.1 hr) c (Finset.mem_range.1 hc)]
    simp only [← Finset.sum_div]
    exact div_self hs
  · rw [hpx r hr c hc]
    exact div_mul_cancel₀ _ hs

/-- `C44_psf_normalised` on a one pixel PSF resampled to 3 x 3 pixels. -/
example : ∃ out, stripObj.resamplePsf idLookups 10 20 3 0 0 = .ok out ∧ out.nrow = 3 := by
  obtain ⟨out, h⟩ := resamplePsf_total stripObj idLookups 10 20 3 0 0 _ _ _ rfl rfl rfl rfl rfl
  exact ⟨out, h, (C44_psf_normalised _ _ _ _ _ _ _ out _ 11 21 1 h rfl rfl rfl rfl (by norm_num)).1⟩

theorem lanczosSum_scale (a b : Img ℚ) (k y x : ℚ) (h1 : a.nrow = b.nrow) (h2 : a.ncol = b.ncol)
    (h : ∀ r c, a.px r c = k * b.px r c) : lanczosSum a 3 y x = k * lanczosSum b 3 y x := by
  rw [lanczosSum_eq, lanczosSum_eq, h1, h2, Finset.mul_sum]
  refine Finset.sum_congr rfl fun r _ => ?_
  rw [Finset.mul_sum]
  refine Finset.sum_congr rfl fun c _ => ?_
  rw [h]; ring

/-- C44, scaling: multiplying the PSF and the two pixel areas by non-zero constants does not
change the resampled PSF. -/
theorem C44_scale_invariant (o o' : SEObj) (w w' : Lookups) (px py : ℚ) (pb : Nat) (dx dy : ℚ)
    (out out' psf psf' : Img ℚ) (s k l : ℚ) (hs : s ≠ 0) (hk : k ≠ 0) (hl : l ≠ 0)
    (h : o.resamplePsf w px py pb dx dy = .ok out) (h' : o'.resamplePsf w' px py pb dx dy = .ok out')
    (hp : o.psf = some psf) (hp' : o'.psf = some psf')
    (hpx : ∀ r c, psf'.px r c = s * psf.px r c)
    (hx : o'.psfXStart = o.psfXStart) (hy : o'.psfYStart = o.psfYStart)
    (hb : o'.psfBoxSize = o.psfBoxSize) (hto : w'.toSe = w.toSe)
    (hse : ∀ x y, w'.areaSe x y = k * w.areaSe x y)
    (hco : ∀ x y, w'.areaCoadd x y = l * w.areaCoadd x y) :
    ∀ r < pb, ∀ c < pb, out'.px r c = out.px r c := by
  obtain ⟨p, sx, sy, n, e1, e2, e3, e4, -, -, -, -, h1⟩ := resamplePsf_ok h
  obtain ⟨p', sx', sy', n', e1', e2', e3', e4', -, -, -, -, h1'⟩ := resamplePsf_ok h'
  cases hp.symm.trans e1; cases hp'.symm.trans e1'
  cases (hx ▸ e2').symm.trans e2; cases (hy ▸ e3').symm.trans e3; cases (hb ▸ e4').symm.trans e4
  have key : ∀ r c, rawPsf w' psf' sx sy px py dx dy n r c =
      (s / k * l) * rawPsf w psf sx sy px py dx dy n r c := by
    intro r c
    unfold rawPsf
    rw [hco]
    have hloc : localPos w' px py sx sy r c = localPos w px py sx sy r c := by
      simp only [localPos, hto]
    rw [hloc]
    generalize ((localPos w px py sx sy r c).map fun q => (q.1 + dy, q.2 + dx)) = p
    have hA : lanczosAt (perArea psf' (fun r c => w'.areaSe ((c : ℚ) + sx) ((r : ℚ) + sy)) n) p =
        (s / k * (lanczosAt (perArea psf (fun r c => w.areaSe ((c : ℚ) + sx) ((r : ℚ) + sy)) n) p).1,
          (lanczosAt (perArea psf (fun r c => w.areaSe ((c : ℚ) + sx) ((r : ℚ) + sy)) n) p).2) := by
      rcases p with _ | ⟨y, x⟩
      · simp [lanczosAt]
      · simp only [lanczosAt]
        rw [lanczosSum_scale (perArea psf' (fun r c => w'.areaSe ((c : ℚ) + sx) ((r : ℚ) + sy)) n)
          (perArea psf (fun r c => w.areaSe ((c : ℚ) + sx) ((r : ℚ) + sy)) n) (s / k) y x rfl rfl]
        · rfl
        · intro r c
          simp only [perArea]
          rw [hpx, hse]
          field_simp
    rw [hA]
    generalize lanczosAt (perArea psf (fun r c => w.areaSe ((c : ℚ) + sx) ((r : ℚ) + sy)) n) p = v
    obtain ⟨v, e⟩ := v
    cases e
    · simp only [Bool.false_eq_true, if_false]; ring
    · simp
  intro r hr c hc
  rw [h1 r hr c hc, h1' r hr c hc]
  simp only [key, ← Finset.mul_sum]
  have hne : s / k * l ≠ 0 := mul_ne_zero (div_ne_zero hs hk) hl
  exact mul_div_mul_left _ _ hne

/-- `C44_scale_invariant`: a PSF five times as bright, other pixel areas. -/
example : ∃ out out', stripObj.resamplePsf idLookups 10 20 3 0 0 = .ok out ∧
    { stripObj with psf := some ⟨1, 1, fun _ _ => 5 * 1⟩ }.resamplePsf
      ⟨idLookups.toSe, fun _ _ => 7 * 1, fun _ _ => 2 * 1⟩ 10 20 3 0 0 = .ok out' ∧
    ∀ r < 3, ∀ c < 3, out'.px r c = out.px r c := by
  obtain ⟨out, h⟩ := resamplePsf_total stripObj idLookups 10 20 3 0 0 _ _ _ rfl rfl rfl rfl rfl
  obtain ⟨out', h'⟩ := resamplePsf_total { stripObj with psf := some ⟨1, 1, fun _ _ => 5 * 1⟩ }
    ⟨idLookups.toSe, fun _ _ => 7 * 1, fun _ _ => 2 * 1⟩ 10 20 3 0 0 _ _ _ rfl rfl rfl rfl rfl
  exact ⟨out, out', h, h', C44_scale_invariant _ _ _ _ _ _ _ _ _ _ _ _ _ 5 7 2 (by norm_num)
    (by norm_num) (by norm_num) h h' rfl rfl (fun _ _ => rfl) rfl rfl rfl rfl (fun _ _ => rfl)
    (fun _ _ => rfl)⟩

/-- C44, offsets: the offsets `dx`, `dy` are added to the positions in the SE image at which the
PSF is evaluated; they act as a change of the position lookup. -/
theorem C44_offsets (o : SEObj) (w : Lookups) (px py : ℚ) (pb : Nat) (dx dy : ℚ) :
    o.resamplePsf w px py pb dx dy =
      o.resamplePsf { w with toSe := fun x y => (w.toSe x y).map fun q => (q.1 + dx, q.2 + dy) }
        px py pb 0 0 := by
  unfold SEObj.resamplePsf
  have : ∀ (sx sy : ℚ) r c, ((localPos w px py sx sy r c).map fun q => (q.1 + dy, q.2 + dx)) =
      (localPos { w with toSe := fun x y => (w.toSe x y).map fun q => (q.1 + dx, q.2 + dy) }
        px py sx sy r c).map fun q => (q.1 + 0, q.2 + 0) := by
    intro sx sy r c
    simp only [localPos, Option.map_map]
    congr 1
    funext q
    simp only [Function.comp, Prod.mk.injEq]
    constructor <;> ring
  simp only [this]

example : ∃ out, stripObj.resamplePsf idLookups 10 20 3 0 0 = .ok out :=
  resamplePsf_total _ _ _ _ _ _ _ _ _ _ rfl rfl rfl rfl rfl

end Pizza
