import Verif.Props.WcsGrid

/-! The assumptions on the interpolators in C98, C99 and C100 can be met, and C99 fails for a WCS
whose pixel area varies. -/

namespace Pizza

open Classical

/-- Two affine functions that agree on a set agree on its convex hull. -/
theorem affine_eq_on_hull {s : Set (ℚ × ℚ)} {a b c a' b' c' : ℚ}
    (h : ∀ p ∈ s, a + b * p.1 + c * p.2 = a' + b' * p.1 + c' * p.2) {p : ℚ × ℚ}
    (hp : p ∈ convexHull ℚ s) : a + b * p.1 + c * p.2 = a' + b' * p.1 + c' * p.2 := by
  refine convexHull_min (t := {p : ℚ × ℚ | a + b * p.1 + c * p.2 = a' + b' * p.1 + c' * p.2})
    (fun q hq => h q hq) ?_ hp
  intro q hq r hr α β hα hβ hαβ
  simp only [Set.mem_ofPred_eq, Prod.fst_add, Prod.smul_fst, Prod.snd_add, Prod.smul_snd, smul_eq_mul] at *
  linear_combination α * hq + β * hr + (a' - a) * hαβ

/-- The agreement of tabulated values with an affine function. -/
def Agrees (pts : List (ℚ × ℚ)) (vals : List ℚ) (k : ℚ × ℚ × ℚ) : Prop :=
  pts.length = vals.length ∧ ∀ (i : Nat) p v, pts[i]? = some p → vals[i]? = some v →
    v = k.1 + k.2.1 * p.1 + k.2.2 * p.2

/-- An interpolator that meets the assumptions (not the one of scipy). -/
noncomputable def exactFit : Fit := fun pts vals =>
  if Spans pts ∧ pts.Nodup then
    .ok fun p =>
      if p ∈ convexHull ℚ {q | q ∈ pts} then
        if h : ∃ v, ∃ i : Nat, pts[i]? = some p ∧ vals[i]? = some v then some h.choose
        else if h : ∃ k, Agrees pts vals k then
          some (h.choose.1 + h.choose.2.1 * p.1 + h.choose.2.2 * p.2)
        else some 0
      else none
  else .error .valueError

theorem exactFit_spec : FitSpec exactFit := by
  have unf : ∀ {pts vals f}, exactFit pts vals = .ok f → (Spans pts ∧ pts.Nodup) ∧ f = fun p =>
      if p ∈ convexHull ℚ {q | q ∈ pts} then
        if h : ∃ v, ∃ i : Nat, pts[i]? = some p ∧ vals[i]? = some v then some h.choose
        else if h : ∃ k, Agrees pts vals k then
          some (h.choose.1 + h.choose.2.1 * p.1 + h.choose.2.2 * p.2)
        else some 0
      else none := by
    intro pts vals f h
    unfold exactFit at h
    split at h
    · rename_i hc
      exact ⟨hc, (Except.ok.inj h).symm⟩
    · cases h
  refine ⟨?_, ?_, ?_, ?_⟩
  · intro pts vals _ hnd hsp
    exact ⟨_, by unfold exactFit; rw [if_pos ⟨hsp, hnd⟩]⟩
  · intro pts vals f h p
    obtain ⟨-, rfl⟩ := unf h
    by_cases hp : p ∈ convexHull ℚ {q | q ∈ pts}
    · refine ⟨fun h0 => ?_, fun h0 => absurd hp h0⟩
      simp only [if_pos hp] at h0
      split at h0
      · cases h0
      · split at h0 <;> cases h0
    · simp [hp]
  · intro pts vals f h hnd i p v hp hv
    obtain ⟨-, rfl⟩ := unf h
    have hin : p ∈ convexHull ℚ {q | q ∈ pts} :=
      subset_convexHull ℚ _ (List.mem_of_getElem? hp)
    have hex : ∃ v, ∃ i : Nat, pts[i]? = some p ∧ vals[i]? = some v := ⟨v, i, hp, hv⟩
    simp only [if_pos hin, dif_pos hex, Option.some.injEq]
    obtain ⟨j, hj, hjv⟩ := hex.choose_spec
    have hij : j = i := by
      obtain ⟨h1, h1'⟩ := List.getElem?_eq_some_iff.1 hp
      obtain ⟨h2, h2'⟩ := List.getElem?_eq_some_iff.1 hj
      exact (List.Nodup.getElem_inj_iff hnd).1 (h2'.trans h1'.symm)
    rw [hij, hv] at hjv
    exact (Option.some.inj hjv).symm
  · intro pts vals f h a b c hag hlen p hp
    obtain ⟨-, rfl⟩ := unf h
    simp only [if_pos hp]
    split
    · rename_i hex
      obtain ⟨j, hj, hjv⟩ := hex.choose_spec
      rw [hag j p _ hj hjv]
    · have hex : ∃ k, Agrees pts vals k := ⟨(a, b, c), hlen, hag⟩
      rw [dif_pos hex]
      have hk := hex.choose_spec
      congr 1
      refine affine_eq_on_hull ?_ hp
      intro q hq
      obtain ⟨i, hi⟩ := List.getElem?_of_mem hq
      have hlt : i < vals.length := by
        rw [← hlen]; exact (List.getElem?_eq_some_iff.1 hi).1
      rw [← hk.2 i q _ hi (List.getElem?_eq_getElem hlt), ← hag i q _ hi (List.getElem?_eq_getElem hlt)]

/-- Two bilinear functions that agree on a two by two grid agree everywhere. -/
theorem bilinear_unique {p q r s p' q' r' s' x0 x1 y0 y1 : ℚ} (hx : x0 ≠ x1) (hy : y0 ≠ y1)
    (h : ∀ x ∈ [x0, x1], ∀ y ∈ [y0, y1],
      p + q * x + r * y + s * x * y = p' + q' * x + r' * y + s' * x * y) (x y : ℚ) :
    p + q * x + r * y + s * x * y = p' + q' * x + r' * y + s' * x * y := by
  have h00 := h x0 (by simp) y0 (by simp)
  have h01 := h x0 (by simp) y1 (by simp)
  have h10 := h x1 (by simp) y0 (by simp)
  have h11 := h x1 (by simp) y1 (by simp)
  have hx' : x1 - x0 ≠ 0 := sub_ne_zero.2 hx.symm
  have hy' : y1 - y0 ≠ 0 := sub_ne_zero.2 hy.symm
  have e1 : (x1 - x0) * (y1 - y0) * (s - s') = 0 := by linear_combination h11 - h10 - h01 + h00
  have es : s = s' := by
    have := (mul_eq_zero.1 e1).resolve_left (mul_ne_zero hx' hy')
    linarith
  subst es
  have e2 : (x1 - x0) * (q - q') = 0 := by linear_combination h10 - h00
  have eq : q = q' := by
    have := (mul_eq_zero.1 e2).resolve_left hx'
    linarith
  subst eq
  have e3 : (y1 - y0) * (r - r') = 0 := by linear_combination h01 - h00
  have er : r = r' := by
    have := (mul_eq_zero.1 e3).resolve_left hy'
    linarith
  subst er
  linear_combination h00

/-- The agreement of tabulated values with a bilinear function. -/
def AgreesB (xs ys : List ℚ) (a : Img ℚ) (k : ℚ × ℚ × ℚ × ℚ) : Prop :=
  ∀ (i j : Nat) x y, xs[i]? = some x → ys[j]? = some y →
    a.px i j = k.1 + k.2.1 * x + k.2.2.1 * y + k.2.2.2 * x * y

/-- A position between the nodes. -/
def Between (xs : List ℚ) (x : ℚ) : Prop := ∃ x0 ∈ xs, ∃ x1 ∈ xs, x0 ≤ x ∧ x ≤ x1

/-- The value of the interpolator below between the nodes. -/
noncomputable def splineVal (xs ys : List ℚ) (a : Img ℚ) (x y : ℚ) : ℚ :=
  if h : ∃ i j : Nat, xs[i]? = some x ∧ ys[j]? = some y then a.px h.choose h.choose_spec.choose
  else if h : ∃ k, AgreesB xs ys a k then
    h.choose.1 + h.choose.2.1 * x + h.choose.2.2.1 * y + h.choose.2.2.2 * x * y
  else a.px 0 0

/-- A grid interpolator that meets the assumptions (not the one of scipy). -/
noncomputable def exactSpline : Spline := fun xs ys a =>
  if 4 ≤ xs.length ∧ 4 ≤ ys.length ∧ xs.Pairwise (· < ·) ∧ ys.Pairwise (· < ·) then
    .ok fun x y => splineVal xs ys a (if Between xs x then x else xs.headD 0)
      (if Between ys y then y else ys.headD 0)
  else .error .valueError

theorem nodes_inj {xs : List ℚ} (h : xs.Pairwise (· < ·)) {i j : Nat} {x : ℚ}
    (hi : xs[i]? = some x) (hj : xs[j]? = some x) : i = j := by
  have hnd : xs.Nodup := h.imp (fun hab => hab.ne)
  obtain ⟨h1, h1'⟩ := List.getElem?_eq_some_iff.1 hi
  obtain ⟨h2, h2'⟩ := List.getElem?_eq_some_iff.1 hj
  exact (List.Nodup.getElem_inj_iff hnd).1 (h1'.trans h2'.symm)

theorem between_node {xs : List ℚ} {i : Nat} {x : ℚ} (h : xs[i]? = some x) : Between xs x :=
  ⟨x, List.mem_of_getElem? h, x, List.mem_of_getElem? h, le_rfl, le_rfl⟩

theorem exactSpline_spec : SplineSpec exactSpline := by
  have unf : ∀ {xs ys a f}, exactSpline xs ys a = .ok f →
      (4 ≤ xs.length ∧ 4 ≤ ys.length ∧ xs.Pairwise (· < ·) ∧ ys.Pairwise (· < ·)) ∧
      f = fun x y => splineVal xs ys a (if Between xs x then x else xs.headD 0)
        (if Between ys y then y else ys.headD 0) := by
    intro xs ys a f h
    unfold exactSpline at h
    split at h
    · rename_i hc
      exact ⟨hc, (Except.ok.inj h).symm⟩
    · cases h
  have hhead : ∀ xs : List ℚ, 4 ≤ xs.length → Between xs (xs.headD 0) := by
    intro xs h
    match xs, h with
    | x :: t, _ => exact ⟨x, by simp, x, by simp, le_rfl, le_rfl⟩
  have hbet : ∀ (xs : List ℚ) (x : ℚ), 4 ≤ xs.length → Between xs (if Between xs x then x else xs.headD 0) := by
    intro xs x h
    split
    · assumption
    · exact hhead xs h
  have two : ∀ xs : List ℚ, 4 ≤ xs.length → xs.Pairwise (· < ·) → ∃ a b, xs[0]? = some a ∧ xs[1]? = some b ∧ a ≠ b := by
    intro xs h hp
    match xs, h, hp with
    | a :: b :: t, _, hp =>
      refine ⟨a, b, by simp, by simp, ?_⟩
      exact (List.rel_of_pairwise_cons hp (by simp)).ne
  refine ⟨?_, ?_, ?_, ?_, ?_⟩
  · intro xs ys a h1 h2 h3 h4 _ _
    exact ⟨_, by unfold exactSpline; rw [if_pos ⟨h1, h2, h3, h4⟩]⟩
  · intro xs ys a h
    unfold exactSpline
    rw [if_neg (by rintro ⟨h1, h2, -⟩; omega)]
  · intro xs ys a f h i j x y hx hy
    obtain ⟨⟨h1, h2, h3, h4⟩, rfl⟩ := unf h
    simp only [if_pos (between_node hx), if_pos (between_node hy)]
    have hex : ∃ i j : Nat, xs[i]? = some x ∧ ys[j]? = some y := ⟨i, j, hx, hy⟩
    unfold splineVal
    rw [dif_pos hex]
    have hs := hex.choose_spec.choose_spec
    exact congrArg₂ a.px (nodes_inj h3 hs.1 hx) (nodes_inj h4 hs.2 hy)
  · intro xs ys a f h p q r s hag x y hx hy
    obtain ⟨⟨h1, h2, h3, h4⟩, rfl⟩ := unf h
    simp only [if_pos (show Between xs x from hx), if_pos (show Between ys y from hy)]
    unfold splineVal
    split
    · rename_i hex
      have hs := hex.choose_spec.choose_spec
      exact hag _ _ _ _ hs.1 hs.2
    · have hex : ∃ k, AgreesB xs ys a k := ⟨(p, q, r, s), hag⟩
      rw [dif_pos hex]
      have hk := hex.choose_spec
      obtain ⟨x0, x1, a0, a1, hne⟩ := two xs h1 h3
      obtain ⟨y0, y1, b0, b1, hne'⟩ := two ys h2 h4
      refine bilinear_unique hne hne' ?_ x y
      intro u hu v hv
      simp only [List.mem_cons, List.not_mem_nil, or_false] at hu hv
      rcases hu with rfl | rfl <;> rcases hv with rfl | rfl
      · rw [← hk _ _ _ _ a0 b0, ← hag _ _ _ _ a0 b0]
      · rw [← hk _ _ _ _ a0 b1, ← hag _ _ _ _ a0 b1]
      · rw [← hk _ _ _ _ a1 b0, ← hag _ _ _ _ a1 b0]
      · rw [← hk _ _ _ _ a1 b1, ← hag _ _ _ _ a1 b1]
  · intro xs ys a f h x y
    obtain ⟨⟨h1, h2, h3, h4⟩, rfl⟩ := unf h
    refine ⟨_, _, ?_, hbet xs x h1, hbet ys y h2⟩
    simp only [if_pos (hbet xs x h1), if_pos (hbet ys y h2)]

/-- A sky map whose pixel area grows linearly with `x`. -/
def growing (x y : ℚ) : ℚ × ℚ := (x * x / 2, y)

theorem growing_area (x y : ℚ) : computeWcsArea false growing (fun _ => 1) x y 1 = |x| := by
  simp only [computeWcsArea, growing, Bool.false_eq_true, if_false]
  congr 1
  ring

/-- C99 does not hold in full: whatever interpolator meets the assumptions, for a WCS whose pixel
area grows with `x` the lookup at pixel (2, 2) of a 4 by 4 image gives 3/2, the pixel area there
is 2. -/
theorem C99_area_fails (spl : Spline) (hs : SplineSpec spl) :
    ∃ (i2s : ℚ → ℚ → ℚ × ℚ) (A : ℚ → ℚ → ℚ),
      getWcsAreaInterp spl false i2s (fun _ => 1) 4 4 1 0 = .ok A ∧
      computeWcsArea false i2s (fun _ => 1) 2 2 1 = 2 ∧ A 2 2 = 3/2 := by
  obtain ⟨A, hA⟩ := (C99_too_coarse spl hs false growing (fun _ => 1) 4 4 1 0 (by norm_num)).1 (by norm_num)
  refine ⟨growing, A, hA, by rw [growing_area]; norm_num, ?_⟩
  have := (C99_half_pixel_shift spl hs false growing (fun _ => 1) 4 4 1 0 (by norm_num) A hA).1 2 2
    (by norm_num) (by norm_num)
  rw [growing_area] at this
  norm_num at this
  rw [this]

/-- The interpolators exist, and so do the lookups of C100, for WCSs that are rotated and scaled
with respect to each other. -/
example : ∃ A B L, AffineWCS.mk' 1 0 0 1 3 4 = .ok A ∧ AffineWCS.mk' 1 (-1) 1 1 0 0 = .ok B ∧
    buildLookups exactFit exactSpline (affineWcs A B 0 1 100 200 300 300 (fun _ => 1)) 8 100 = .ok L ∧
    L.areaSe 3 5 = 1 ∧ L.areaCoadd 7 1 = 2 ∧ L.toSe 10 9 = some (4, 25) := by
  obtain ⟨A, hA⟩ := (C03_affine_constructible 1 0 0 1 3 4).1.2 (by norm_num)
  obtain ⟨B, hB⟩ := (C03_affine_constructible 1 (-1) 1 1 0 0).1.2 (by norm_num)
  obtain ⟨L, hL, h1, h2, h3⟩ := C100_lookups exactFit exactSpline exactFit_spec exactSpline_spec
    _ _ _ _ _ _ _ _ _ _ _ _ A B hA hB 0 1 100 200 300 300 (fun _ => 1) 8 100 (by norm_num) (by norm_num)
    (by norm_num) (by norm_num) (by norm_num) (by norm_num)
  refine ⟨A, B, L, hA, hB, hL, by rw [h1]; norm_num, by rw [h2]; norm_num, ?_⟩
  have hs : sePos A B 0 1 10 9 = (4, 25) := by
    simp only [AffineWCS.mk', mul_one, mul_zero, sub_zero, one_ne_zero, if_false, Except.ok.injEq] at hA
    norm_num [AffineWCS.mk'] at hB
    subst hA hB
    norm_num [sePos, AffineWCS.sky2image, AffineWCS.image2sky]
  rw [h3 200 104 ⟨⟨25, rfl⟩, by norm_num, by norm_num⟩ ⟨⟨13, rfl⟩, by norm_num, by norm_num⟩ 10 9 4 25 hs]
  rw [if_pos (by norm_num)]

/-- The hypotheses of `C98_exact_at_nodes`, `C98_cells`, `C98_nan_to_coadd` and `C98_nan_to_se` hold for a WCS that is not affine. -/
example : ∃ toSe toCo, getWcsInverse exactFit (fun u v => (u, v + u * u)) 1
    ⟨fun x y => (x, y), fun u v => (u, v), 1⟩ 10 20 4 = .ok (toSe, toCo) ∧
    (∀ x y x' y', coaddPos (fun u v => (u, v + u * u)) 1 ⟨fun x y => (x, y), fun u v => (u, v), 1⟩ x y =
      coaddPos (fun u v => (u, v + u * u)) 1 ⟨fun x y => (x, y), fun u v => (u, v), 1⟩ x' y' →
        x = x' ∧ y = y') := by
  have hinj : ∀ x y x' y' : ℚ,
      coaddPos (fun u v => (u, v + u * u)) 1 ⟨fun x y => (x, y), fun u v => (u, v), 1⟩ x y =
      coaddPos (fun u v => (u, v + u * u)) 1 ⟨fun x y => (x, y), fun u v => (u, v), 1⟩ x' y' →
        x = x' ∧ y = y' := by
    intro x y x' y' h
    simp only [coaddPos, Prod.mk.injEq] at h
    obtain ⟨h1, h2⟩ := h
    have : x = x' := by linarith
    subst this
    exact ⟨rfl, by linarith⟩
  obtain ⟨k, hk, ek⟩ := mgridAxis_ok 10 (delta := 4) (by norm_num)
  obtain ⟨l, hl, el⟩ := mgridAxis_ok 20 (delta := 4) (by norm_num)
  have hk1 : 1 ≤ k := by have := hk.2.1; omega
  have hl1 : 1 ≤ l := by have := hl.2.1; omega
  have m : ∀ i j : Nat, i ≤ k → j ≤ l → (((i * 4 : ℕ) : ℚ) - 1/2, ((j * 4 : ℕ) : ℚ) - 1/2) ∈
      gridPts ((List.range (k + 1)).map (· * 4)) ((List.range (l + 1)).map (· * 4)) := by
    intro i j hi hj
    rw [mem_gridPts]
    exact ⟨_, List.mem_map.2 ⟨i, by simp; omega, rfl⟩, _, List.mem_map.2 ⟨j, by simp; omega, rfl⟩, rfl⟩
  have hnd := gridPts_nodup (axis_nodup k 4 (by norm_num)) (axis_nodup l 4 (by norm_num))
  obtain ⟨a, ha⟩ := make_total (u := fun p => (coaddPos (fun u v => (u, v + u * u)) 1
      ⟨fun x y => (x, y), fun u v => (u, v), 1⟩ p.2 p.1).1)
    (v := fun p => (coaddPos (fun u v => (u, v + u * u)) 1
      ⟨fun x y => (x, y), fun u v => (u, v), 1⟩ p.2 p.1).2)
    (g := Prod.snd) (h := Prod.fst) exactFit_spec
    (pts := gridPts ((List.range (k + 1)).map (· * 4)) ((List.range (l + 1)).map (· * 4)))
    (hnd.map (by
      intro p q hpq
      simp only [Prod.mk.injEq] at hpq
      obtain ⟨e1, e2⟩ := hinj p.2 p.1 q.2 q.1 (Prod.ext hpq.2 hpq.1)
      exact Prod.ext e2 e1))
    (by
      refine ⟨_, List.mem_map_of_mem (m 0 0 (by omega) (by omega)), _,
        List.mem_map_of_mem (m 1 0 hk1 (by omega)), _, List.mem_map_of_mem (m 0 1 (by omega) hl1), ?_⟩
      norm_num [coaddPos])
  obtain ⟨b, hb⟩ := make_total (u := Prod.snd) (v := Prod.fst)
    (g := fun p => (coaddPos (fun u v => (u, v + u * u)) 1
      ⟨fun x y => (x, y), fun u v => (u, v), 1⟩ p.2 p.1).1)
    (h := fun p => (coaddPos (fun u v => (u, v + u * u)) 1
      ⟨fun x y => (x, y), fun u v => (u, v), 1⟩ p.2 p.1).2) exactFit_spec
    (pts := gridPts ((List.range (k + 1)).map (· * 4)) ((List.range (l + 1)).map (· * 4)))
    (by simpa using hnd)
    (by
      refine ⟨_, List.mem_map_of_mem (m 0 0 (by omega) (by omega)), _,
        List.mem_map_of_mem (m 1 0 hk1 (by omega)), _, List.mem_map_of_mem (m 0 1 (by omega) hl1), ?_⟩
      norm_num)
  exact ⟨a, b, by rw [getWcsInverse_eq _ _ _ _ _ _ _ _ _ ek el]; simp only [ha, hb, ok_bind]; rfl, hinj⟩

/-- `C100_affine_resample`: the resampling happens: an object, affine WCSs half a pixel apart, and lookups. -/
example : ∃ A B L out, AffineWCS.mk' 1 0 0 1 0 0 = .ok A ∧ AffineWCS.mk' 1 0 0 1 (1/2) 0 = .ok B ∧
    buildLookups exactFit exactSpline (affineWcs A B 0 0 100 100 100 100 (fun _ => 1)) 8 8 = .ok L ∧
    stripObj.resample L 10 21 2 11 21 1 = .ok out := by
  obtain ⟨A, hA⟩ := (C03_affine_constructible 1 0 0 1 0 0).1.2 (by norm_num)
  obtain ⟨B, hB⟩ := (C03_affine_constructible 1 0 0 1 (1/2) 0).1.2 (by norm_num)
  obtain ⟨L, hL, -⟩ := C100_lookups exactFit exactSpline exactFit_spec exactSpline_spec
    _ _ _ _ _ _ _ _ _ _ _ _ A B hA hB 0 0 100 100 100 100 (fun _ => 1) 8 8 (by norm_num) (by norm_num)
    (by norm_num) (by norm_num) (by norm_num) (by norm_num)
  obtain ⟨out, hout⟩ := stripObj_returns L 10 21 2 11 21 1
  exact ⟨A, B, L, out, hA, hB, hL, hout⟩

/-- `C99_area_fails`, `C99_too_coarse`, `C99_constant_area_partial` and `C99_half_pixel_shift` for the spline of these
examples. -/
example := And.intro (C99_area_fails exactSpline exactSpline_spec)
  (And.intro (C99_too_coarse exactSpline exactSpline_spec false (fun x y => (x, y)) (fun _ => 1) 100 200 8 1 (by norm_num))
    (And.intro
      (C99_constant_area_partial exactSpline exactSpline_spec (fun x y => (2 * x + 0 * y + 0, 0 * x + 1 * y + 5))
        (fun _ => 1) 100 200 8 1 (by norm_num) (by norm_num) (by norm_num) 2 0 0 1 0 5 (fun _ _ => rfl))
      (fun A (h : getWcsAreaInterp exactSpline true (fun x y => (x, y)) (fun _ => 1) 100 200 8 1 = .ok A) =>
        C99_half_pixel_shift exactSpline exactSpline_spec true (fun x y => (x, y)) (fun _ => 1) 100 200 8 1
          (by norm_num) A h)))

/-- `C98_affine_exact`: a scaled WCS. -/
example := C98_affine_exact exactFit exactFit_spec (fun u v => (2 * u, 3 * v)) 1
  ⟨fun x y => (x, y), fun u v => (u, v), 1⟩ 10 20 4 (by norm_num) (by norm_num) (by norm_num) 2 0 0 3 1 2 (by norm_num)
  (fun x y => by simp only [coaddPos]; exact Prod.ext (by ring) (by ring))

/-- The resampled value of a single pixel at its centre is not 0. -/
theorem exOnePixel : ∃ v e, Resampled (⟨1, 1, fun _ _ => 1⟩ : Img ℚ) 3 0 0 v e ∧ v ≠ 0 := by
  have h : (match lanczosResample (⟨1, 1, fun _ _ => 1⟩ : Img ℚ) [(0, 0)] 3 with
      | .ok [(v, _)] => decide (v ≠ 0) | _ => false) = true := by decide +kernel
  split at h
  · rename_i v e he
    exact ⟨v, e, he, of_decide_eq_true h⟩
  · cases h

/-- `C100_affine_psf`: a PSF image of a single pixel, at pixel (11, 21). -/
example (out : Img ℚ) (A B : AffineWCS) (hA : AffineWCS.mk' 1 0 0 1 0 0 = .ok A) (hB : AffineWCS.mk' 1 0 0 1 0 0 = .ok B)
    (L : Lookups) (hL : buildLookups exactFit exactSpline (affineWcs A B 0 0 100 100 100 100 (fun _ => 1)) 8 8 = .ok L)
    (o : SEObj) (hpsf : o.psf = some ⟨1, 1, fun _ _ => 1⟩) (hx : o.psfXStart = some 11) (hy : o.psfYStart = some 21)
    (hn : o.psfBoxSize = some 1) (h : o.resamplePsf L 11 21 1 0 0 = .ok out) : out.px 0 0 = 1 := by
  obtain ⟨v, e, hv, h0⟩ := exOnePixel
  have hpos : sePos A B 0 0 11 21 = (11, 21) := by
    simp only [AffineWCS.mk'] at hA hB
    norm_num at hA hB
    subst hA hB
    norm_num [sePos, AffineWCS.image2sky, AffineWCS.sky2image]
  have := (C100_affine_psf exactFit exactSpline exactFit_spec exactSpline_spec
    _ _ _ _ _ _ _ _ _ _ _ _ A B hA hB 0 0 100 100 100 100 (fun _ => 1) 8 8 (by norm_num) (by norm_num)
    (by norm_num) (by norm_num) (by norm_num) (by norm_num) L hL o 11 21 1 0 0 out _ 11 21 1 h hpsf hx hy hn (by norm_num)
    (fun _ _ => v)
    (by
      intro r hr c hc x y hxy
      obtain rfl : r = 0 := by omega
      obtain rfl : c = 0 := by omega
      norm_num at hxy
      rw [hpos] at hxy
      cases hxy
      refine ⟨by norm_num [OnImage], e, ?_⟩
      norm_num
      exact hv)
    (by simpa using h0)).1
  simpa using this

end Pizza
