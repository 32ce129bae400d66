import Verif.Model.SkyBounds
import Verif.Props.SEGeom
import Mathlib.Tactic.LinearCombination

/-!
C109: the rough cut on the sky keeps every position on the image, also for distorted celestial WCSs.
-/

namespace Pizza

/-! ### specification -/

/-- `F` differs by at most `δ` from an affine function on the rectangle of rows `r0..r1`, columns `c0..c1`. -/
def NearAffine (F : ℚ → ℚ → ℚ) (δ r0 r1 c0 c1 : ℚ) : Prop :=
  ∃ k a b : ℚ, ∀ row col, r0 ≤ row → row ≤ r1 → c0 ≤ col → col ≤ c1 → |F row col - (k + a * col + b * row)| ≤ δ

/-- `F` is almost affine on every rectangle in the image whose extent is at most the short side of the image
along the long side, and at most the short side divided by `nGrid` along the short side. -/
def LocallyNearAffine (F : ℚ → ℚ → ℚ) (δ : ℚ) (nrow ncol nGrid : Nat) : Prop :=
  ∀ r0 r1 c0 c1 : ℚ, 0 ≤ r0 → r1 ≤ (nrow : ℚ) - 1 → 0 ≤ c0 → c1 ≤ (ncol : ℚ) - 1 → r0 ≤ r1 → c0 ≤ c1 →
    (ncol < nrow → r1 - r0 ≤ ncol ∧ (c1 - c0) * nGrid ≤ ncol) →
    (nrow ≤ ncol → c1 - c0 ≤ nrow ∧ (r1 - r0) * nGrid ≤ nrow) → NearAffine F δ r0 r1 c0 c1

/-! ### the grid -/

theorem gridAxis_cell {n dim : Nat} (hn : 0 < n) {x : ℚ} (h0 : 0 ≤ x) (h1 : x ≤ (dim : ℚ) - 1) :
    ∃ a b, a ∈ gridAxis n dim ∧ b ∈ gridAxis n dim ∧ a ≤ x ∧ x ≤ b ∧ b - a = ((dim : ℚ) - 1) / n := by
  have hn' : (0 : ℚ) < n := by exact_mod_cast hn
  rcases (h0.trans h1).eq_or_lt with he | hL
  · refine ⟨0, 0, zero_mem_gridAxis _ _, zero_mem_gridAxis _ _, h0, by linarith, ?_⟩
    rw [← he]
    simp
  · set L := (dim : ℚ) - 1 with hLd
    set t := x * n / L with ht
    have htx : t * L = x * n := by rw [ht]; field_simp
    have ht0 : 0 ≤ t := by positivity
    have htn : t ≤ n := by
      rw [ht, div_le_iff₀ hL]
      nlinarith
    have node : ∀ i : Nat, i ≤ n → (i : ℚ) * L / n ∈ gridAxis n dim := fun i hi =>
      List.mem_map.2 ⟨i, by simp; omega, rfl⟩
    by_cases hlast : t = n
    · obtain ⟨m, rfl⟩ : ∃ m, n = m + 1 := ⟨n - 1, by omega⟩
      have hx : x = L := by
        have : (L - x) * ((m + 1 : Nat) : ℚ) = 0 := by
          rw [hlast] at htx
          linear_combination htx
        rcases mul_eq_zero.1 this with h | h
        · linarith
        · exact absurd h hn'.ne'
      refine ⟨_, _, node m (by omega), node (m + 1) le_rfl, ?_, ?_, ?_⟩
      · rw [div_le_iff₀ hn', hx]
        push_cast
        nlinarith
      · rw [hx, le_div_iff₀ hn']
        linarith
      · push_cast
        ring
    · have hlt : t < n := lt_of_le_of_ne htn hlast
      have hf0 : 0 ≤ ⌊t⌋ := Int.floor_nonneg.2 ht0
      obtain ⟨i, hi⟩ := Int.eq_ofNat_of_zero_le hf0
      have hi1 : (i : ℚ) ≤ t := by
        have := Int.floor_le t
        rw [hi] at this
        exact_mod_cast this
      have hi2 : t < (i : ℚ) + 1 := by
        have := Int.lt_floor_add_one t
        rw [hi] at this
        exact_mod_cast this
      have hin : i < n := by
        have : (i : ℚ) < n := lt_of_le_of_lt hi1 hlt
        exact_mod_cast this
      refine ⟨_, _, node i (by omega), node (i + 1) (by omega), ?_, ?_, ?_⟩
      · rw [div_le_iff₀ hn', ← htx]
        exact mul_le_mul_of_nonneg_right hi1 hL.le
      · rw [le_div_iff₀ hn', ← htx]
        push_cast
        exact mul_le_mul_of_nonneg_right hi2.le hL.le
      · push_cast
        ring

theorem mem_gridPoints {nrow ncol nGrid : Nat} {r c : ℚ} (hr : r ∈ gridAxis (gridShape nrow ncol nGrid).1 nrow)
    (hc : c ∈ gridAxis (gridShape nrow ncol nGrid).2 ncol) : (r, c) ∈ gridPoints nrow ncol nGrid := by
  simp only [gridPoints, List.mem_flatMap, List.mem_map]
  exact ⟨c, hc, r, hr, rfl⟩

theorem gridPoints_range {nrow ncol nGrid : Nat} (hr : 0 < nrow) (hc : 0 < ncol) {p : ℚ × ℚ}
    (hp : p ∈ gridPoints nrow ncol nGrid) :
    0 ≤ p.1 ∧ p.1 ≤ (nrow : ℚ) - 1 ∧ 0 ≤ p.2 ∧ p.2 ≤ (ncol : ℚ) - 1 := by
  simp only [gridPoints, List.mem_flatMap, List.mem_map] at hp
  obtain ⟨c, hc', r, hr', rfl⟩ := hp
  exact ⟨(gridAxis_range hr hr').1, (gridAxis_range hr hr').2, (gridAxis_range hc hc').1,
    (gridAxis_range hc hc').2⟩

theorem gridPoints_ne {nrow ncol nGrid : Nat} : gridPoints nrow ncol nGrid ≠ [] := by
  have := mem_gridPoints (zero_mem_gridAxis (gridShape nrow ncol nGrid).1 nrow)
    (zero_mem_gridAxis (gridShape nrow ncol nGrid).2 ncol)
  intro h
  rw [h] at this
  simp at this

/-- The spacing along the long side is at most the short side. -/
theorem long_spacing {s l : Nat} (hs : 0 < s) (hl : 0 < l) :
    ((l : ℚ) - 1) / ((⌈(l : ℚ) / (s : ℚ)⌉).toNat : ℚ) ≤ s := by
  have hs' : (0 : ℚ) < s := by exact_mod_cast hs
  have hl' : (0 : ℚ) < l := by exact_mod_cast hl
  have hc : 0 < ⌈(l : ℚ) / (s : ℚ)⌉ := Int.ceil_pos.2 (div_pos hl' hs')
  have hcast : ((⌈(l : ℚ) / (s : ℚ)⌉).toNat : ℚ) = (⌈(l : ℚ) / (s : ℚ)⌉ : ℚ) := by
    have : ((⌈(l : ℚ) / (s : ℚ)⌉).toNat : ℤ) = ⌈(l : ℚ) / (s : ℚ)⌉ := Int.toNat_of_nonneg hc.le
    exact_mod_cast this
  rw [hcast]
  have hcq : (0 : ℚ) < (⌈(l : ℚ) / (s : ℚ)⌉ : ℚ) := by exact_mod_cast hc
  rw [div_le_iff₀ hcq]
  have h1 := Int.le_ceil ((l : ℚ) / (s : ℚ))
  rw [div_le_iff₀ hs'] at h1
  linarith

/-- Every position on the image lies in a cell of the grid that `LocallyNearAffine` speaks about. -/
theorem grid_cell {nrow ncol nGrid : Nat} (hr : 0 < nrow) (hc : 0 < ncol) (hg : 0 < nGrid) {row col : ℚ}
    (h1 : 0 ≤ row) (h2 : row ≤ (nrow : ℚ) - 1) (h3 : 0 ≤ col) (h4 : col ≤ (ncol : ℚ) - 1) :
    ∃ r0 r1 c0 c1 : ℚ, r0 ≤ row ∧ row ≤ r1 ∧ c0 ≤ col ∧ col ≤ c1 ∧
      (r0, c0) ∈ gridPoints nrow ncol nGrid ∧ (r0, c1) ∈ gridPoints nrow ncol nGrid ∧
      (r1, c0) ∈ gridPoints nrow ncol nGrid ∧ (r1, c1) ∈ gridPoints nrow ncol nGrid ∧
      (ncol < nrow → r1 - r0 ≤ ncol ∧ (c1 - c0) * nGrid ≤ ncol) ∧
      (nrow ≤ ncol → c1 - c0 ≤ nrow ∧ (r1 - r0) * nGrid ≤ nrow) := by
  obtain ⟨g1, g2⟩ := gridShape_pos hr hc hg
  obtain ⟨r0, r1, mr0, mr1, a1, a2, a3⟩ := gridAxis_cell g1 h1 h2
  obtain ⟨c0, c1, mc0, mc1, b1, b2, b3⟩ := gridAxis_cell g2 h3 h4
  have hg' : (0 : ℚ) < nGrid := by exact_mod_cast hg
  refine ⟨r0, r1, c0, c1, a1, a2, b1, b2, mem_gridPoints mr0 mc0, mem_gridPoints mr0 mc1,
    mem_gridPoints mr1 mc0, mem_gridPoints mr1 mc1, ?_, ?_⟩
  · intro h
    have e : gridShape nrow ncol nGrid = ((⌈(nrow : ℚ) / (ncol : ℚ)⌉).toNat, nGrid) := by
      unfold gridShape
      rw [if_pos h]
    rw [e] at a3 b3
    dsimp only at a3 b3
    constructor
    · rw [a3]
      exact long_spacing hc hr
    · rw [b3, div_mul_cancel₀ _ hg'.ne']
      linarith
  · intro h
    have e : gridShape nrow ncol nGrid = (nGrid, (⌈(ncol : ℚ) / (nrow : ℚ)⌉).toNat) := by
      unfold gridShape
      rw [if_neg (by omega)]
    rw [e] at a3 b3
    dsimp only at a3 b3
    constructor
    · rw [b3]
      exact long_spacing hr hc
    · rw [a3, div_mul_cancel₀ _ hg'.ne']
      linarith

/-- A function that is almost affine on a rectangle stays between bounds of its corners, up to `2 δ`. -/
theorem nearAffine_between {F : ℚ → ℚ → ℚ} {δ r0 r1 c0 c1 : ℚ} (h : NearAffine F δ r0 r1 c0 c1) {m M : ℚ}
    (h00 : m ≤ F r0 c0 ∧ F r0 c0 ≤ M) (h01 : m ≤ F r0 c1 ∧ F r0 c1 ≤ M) (h10 : m ≤ F r1 c0 ∧ F r1 c0 ≤ M)
    (h11 : m ≤ F r1 c1 ∧ F r1 c1 ≤ M) {row col : ℚ} (a1 : r0 ≤ row) (a2 : row ≤ r1) (b1 : c0 ≤ col)
    (b2 : col ≤ c1) : m - 2 * δ ≤ F row col ∧ F row col ≤ M + 2 * δ := by
  obtain ⟨k, a, b, hF⟩ := h
  have hr : r0 ≤ r1 := a1.trans a2
  have hc : c0 ≤ c1 := b1.trans b2
  have e00 := abs_le.1 (hF r0 c0 le_rfl hr le_rfl hc)
  have e01 := abs_le.1 (hF r0 c1 le_rfl hr hc le_rfl)
  have e10 := abs_le.1 (hF r1 c0 hr le_rfl le_rfl hc)
  have e11 := abs_le.1 (hF r1 c1 hr le_rfl hc le_rfl)
  have ep := abs_le.1 (hF row col a1 a2 b1 b2)
  have x1 : 0 ≤ row - r0 := by linarith
  have x2 : row - r0 ≤ r1 - r0 := by linarith
  have y1 : 0 ≤ col - c0 := by linarith
  have y2 : col - c0 ≤ c1 - c0 := by linarith
  constructor
  · have s1 := affine_ge_min x1 x2 (a := b) (m := m - δ) (k + a * c0 + b * r0) (by linarith) (by linarith)
    have s2 := affine_ge_min x1 x2 (a := b) (m := m - δ) (k + a * c1 + b * r0) (by linarith) (by linarith)
    have s3 := affine_ge_min y1 y2 (a := a) (m := m - δ) (k + a * c0 + b * r0 + b * (row - r0)) s1
      (by linarith)
    linarith
  · have s1 := affine_le_max x1 x2 (a := b) (m := M + δ) (k + a * c0 + b * r0) (by linarith) (by linarith)
    have s2 := affine_le_max x1 x2 (a := b) (m := M + δ) (k + a * c1 + b * r0) (by linarith) (by linarith)
    have s3 := affine_le_max y1 y2 (a := a) (m := M + δ) (k + a * c0 + b * r0 + b * (row - r0)) s1
      (by linarith)
    linarith

/-- The bounds of the cut, in terms of the coordinates `F`, `G` of the positions on the image. -/
theorem roughSkyBoundsCel_spec (toUV : ℚ → ℚ → ℚ → ℚ → ℚ × ℚ) (cosArc : ℚ → ℚ) (nrow ncol nGrid : Nat)
    (hr : 0 < nrow) (hc : 0 < ncol) (hg : 0 < nGrid) (image2sky : ℚ → ℚ → ℚ × ℚ) (offset buffer : ℚ)
    (ra0 dec0 : ℚ)
    (hcen : image2sky (((ncol : ℚ) - 1) / 2 + offset) (((nrow : ℚ) - 1) / 2 + offset) = (ra0, dec0))
    (U V : ℚ → ℚ → ℚ)
    (hUV : ∀ row col, (U row col, V row col) =
      toUV (image2sky (col + offset) (row + offset)).1 (image2sky (col + offset) (row + offset)).2 ra0 dec0) :
    ∃ umin umax vmin vmax f,
      roughSkyBoundsCel toUV cosArc nrow ncol nGrid image2sky offset buffer =
        .ok (⟨umin - buffer / f, umax + buffer / f, vmin - buffer, vmax + buffer⟩, ra0, dec0) ∧
      (∃ p ∈ gridPoints nrow ncol nGrid, umin = U p.1 p.2) ∧ (∃ p ∈ gridPoints nrow ncol nGrid, umax = U p.1 p.2) ∧
      (∃ p ∈ gridPoints nrow ncol nGrid, vmin = V p.1 p.2) ∧ (∃ p ∈ gridPoints nrow ncol nGrid, vmax = V p.1 p.2) ∧
      (∃ p ∈ gridPoints nrow ncol nGrid, f = cosArc (V p.1 p.2)) ∧
      ∀ p ∈ gridPoints nrow ncol nGrid, umin ≤ U p.1 p.2 ∧ U p.1 p.2 ≤ umax ∧ vmin ≤ V p.1 p.2 ∧
        V p.1 p.2 ≤ vmax ∧ f ≤ cosArc (V p.1 p.2) := by
  have hne : ∀ f : ℚ × ℚ → ℚ, (gridPoints nrow ncol nGrid).map f ≠ [] := fun f h =>
    gridPoints_ne (List.map_eq_nil_iff.1 h)
  have eU : ∀ p : ℚ × ℚ, (toUV (image2sky (p.2 + offset) (p.1 + offset)).1
      (image2sky (p.2 + offset) (p.1 + offset)).2 ra0 dec0).1 = U p.1 p.2 := fun p => by rw [← hUV]
  have eV : ∀ p : ℚ × ℚ, (toUV (image2sky (p.2 + offset) (p.1 + offset)).1
      (image2sky (p.2 + offset) (p.1 + offset)).2 ra0 dec0).2 = V p.1 p.2 := fun p => by rw [← hUV]
  obtain ⟨umin, e1, m1, l1⟩ := qmin?_spec (hne fun p => U p.1 p.2)
  obtain ⟨umax, e2, m2, l2⟩ := qmax?_spec (hne fun p => U p.1 p.2)
  obtain ⟨vmin, e3, m3, l3⟩ := qmin?_spec (hne fun p => V p.1 p.2)
  obtain ⟨vmax, e4, m4, l4⟩ := qmax?_spec (hne fun p => V p.1 p.2)
  obtain ⟨f, e5, m5, l5⟩ := qmin?_spec (hne fun p => cosArc (V p.1 p.2))
  refine ⟨umin, umax, vmin, vmax, f, ?_, ?_, ?_, ?_, ?_, ?_, ?_⟩
  · unfold roughSkyBoundsCel
    have h0 : ¬ (nrow = 0 ∨ ncol = 0 ∨ nGrid = 0) := by omega
    rw [if_neg h0]
    simp only [List.map_map, Function.comp_def, hcen, eU, eV]
    rw [e1, e2, e3, e4, e5]
    rfl
  · obtain ⟨p, hp, h⟩ := List.mem_map.1 m1
    exact ⟨p, hp, h.symm⟩
  · obtain ⟨p, hp, h⟩ := List.mem_map.1 m2
    exact ⟨p, hp, h.symm⟩
  · obtain ⟨p, hp, h⟩ := List.mem_map.1 m3
    exact ⟨p, hp, h.symm⟩
  · obtain ⟨p, hp, h⟩ := List.mem_map.1 m4
    exact ⟨p, hp, h.symm⟩
  · obtain ⟨p, hp, h⟩ := List.mem_map.1 m5
    exact ⟨p, hp, h.symm⟩
  · intro p hp
    exact ⟨l1 _ (List.mem_map.2 ⟨p, hp, rfl⟩), l2 _ (List.mem_map.2 ⟨p, hp, rfl⟩),
      l3 _ (List.mem_map.2 ⟨p, hp, rfl⟩), l4 _ (List.mem_map.2 ⟨p, hp, rfl⟩),
      l5 _ (List.mem_map.2 ⟨p, hp, rfl⟩)⟩

/-- **C109, nothing is lost.**  Let `U`, `V` be the tangent plane coordinates of the positions on the image
about its centre.  If these are within `δ` of affine functions on rectangles of the size of a grid cell, every
sky position whose coordinates are within `t` of those of a position on the image is accepted, provided
`t + 2 δ` is at most the buffer. -/
theorem C109_accepts (toUV : ℚ → ℚ → ℚ → ℚ → ℚ × ℚ) (cosArc : ℚ → ℚ) (nrow ncol nGrid : Nat) (hr : 0 < nrow)
    (hc : 0 < ncol) (hg : 0 < nGrid) (image2sky : ℚ → ℚ → ℚ × ℚ) (offset buffer ra0 dec0 : ℚ)
    (hcen : image2sky (((ncol : ℚ) - 1) / 2 + offset) (((nrow : ℚ) - 1) / 2 + offset) = (ra0, dec0))
    (U V : ℚ → ℚ → ℚ)
    (hUV : ∀ row col, (U row col, V row col) =
      toUV (image2sky (col + offset) (row + offset)).1 (image2sky (col + offset) (row + offset)).2 ra0 dec0)
    (hcos : ∀ row col, 0 ≤ row → row ≤ (nrow : ℚ) - 1 → 0 ≤ col → col ≤ (ncol : ℚ) - 1 →
      0 < cosArc (V row col) ∧ cosArc (V row col) ≤ 1)
    (δ : ℚ) (hU : LocallyNearAffine U δ nrow ncol nGrid) (hV : LocallyNearAffine V δ nrow ncol nGrid) :
    ∃ sb, roughSkyBoundsCel toUV cosArc nrow ncol nGrid image2sky offset buffer = .ok sb ∧
      ∀ row col, 0 ≤ row → row ≤ (nrow : ℚ) - 1 → 0 ≤ col → col ≤ (ncol : ℚ) - 1 →
        ∀ ra dec t, t + 2 * δ ≤ buffer → 0 ≤ buffer → |(toUV ra dec ra0 dec0).1 - U row col| ≤ t →
          |(toUV ra dec ra0 dec0).2 - V row col| ≤ t → ccdContainsCel toUV true sb ra dec = true := by
  obtain ⟨umin, umax, vmin, vmax, f, hsb, -, -, -, -, ⟨pf, hpf, hf⟩, hall⟩ :=
    roughSkyBoundsCel_spec toUV cosArc nrow ncol nGrid hr hc hg image2sky offset buffer ra0 dec0 hcen U V hUV
  refine ⟨_, hsb, ?_⟩
  intro row col h1 h2 h3 h4 ra dec t ht hb hu hv
  have hfr := gridPoints_range hr hc hpf
  have hf01 := hcos pf.1 pf.2 hfr.1 hfr.2.1 hfr.2.2.1 hfr.2.2.2
  rw [← hf] at hf01
  have hbf : buffer ≤ buffer / f := by
    rw [le_div_iff₀ hf01.1]
    nlinarith [hf01.2]
  obtain ⟨r0, r1, c0, c1, a1, a2, b1, b2, p00, p01, p10, p11, s1, s2⟩ := grid_cell hr hc hg h1 h2 h3 h4
  have R0 := gridPoints_range hr hc p00
  have R1 := gridPoints_range hr hc p11
  have cu := nearAffine_between (hU r0 r1 c0 c1 R0.1 R1.2.1 R0.2.2.1 R1.2.2.2 (a1.trans a2) (b1.trans b2) s1 s2)
    ⟨(hall _ p00).1, (hall _ p00).2.1⟩ ⟨(hall _ p01).1, (hall _ p01).2.1⟩ ⟨(hall _ p10).1, (hall _ p10).2.1⟩
    ⟨(hall _ p11).1, (hall _ p11).2.1⟩ a1 a2 b1 b2
  have cv := nearAffine_between (hV r0 r1 c0 c1 R0.1 R1.2.1 R0.2.2.1 R1.2.2.2 (a1.trans a2) (b1.trans b2) s1 s2)
    ⟨(hall _ p00).2.2.1, (hall _ p00).2.2.2.1⟩ ⟨(hall _ p01).2.2.1, (hall _ p01).2.2.2.1⟩
    ⟨(hall _ p10).2.2.1, (hall _ p10).2.2.2.1⟩ ⟨(hall _ p11).2.2.1, (hall _ p11).2.2.2.1⟩ a1 a2 b1 b2
  rw [abs_le] at hu hv
  simp only [ccdContainsCel, if_true, Bounds.containsPoint, decide_eq_true_eq]
  refine ⟨?_, ?_, ?_, ?_⟩ <;> linarith [cu.1, cu.2, cv.1, cv.2, hu.1, hu.2, hv.1, hv.2]

/-- **C109, not more than a box.**  Whatever the WCS, an accepted position is, in each tangent plane
coordinate, not beyond the coordinates of positions on the image by more than the buffer (in `u` divided by
the cosine of the `v` of a position on the image). -/
theorem C109_accepted (toUV : ℚ → ℚ → ℚ → ℚ → ℚ × ℚ) (cosArc : ℚ → ℚ) (nrow ncol nGrid : Nat) (hr : 0 < nrow)
    (hc : 0 < ncol) (hg : 0 < nGrid) (image2sky : ℚ → ℚ → ℚ × ℚ) (offset buffer ra0 dec0 : ℚ)
    (hcen : image2sky (((ncol : ℚ) - 1) / 2 + offset) (((nrow : ℚ) - 1) / 2 + offset) = (ra0, dec0))
    (U V : ℚ → ℚ → ℚ)
    (hUV : ∀ row col, (U row col, V row col) =
      toUV (image2sky (col + offset) (row + offset)).1 (image2sky (col + offset) (row + offset)).2 ra0 dec0) :
    ∃ sb, roughSkyBoundsCel toUV cosArc nrow ncol nGrid image2sky offset buffer = .ok sb ∧
      ∀ ra dec, ccdContainsCel toUV true sb ra dec = true →
        let On (p : ℚ × ℚ) := 0 ≤ p.1 ∧ p.1 ≤ (nrow : ℚ) - 1 ∧ 0 ≤ p.2 ∧ p.2 ≤ (ncol : ℚ) - 1
        (∃ p q w, On p ∧ On q ∧ On w ∧
          U p.1 p.2 - buffer / cosArc (V w.1 w.2) ≤ (toUV ra dec ra0 dec0).1 ∧
          (toUV ra dec ra0 dec0).1 ≤ U q.1 q.2 + buffer / cosArc (V w.1 w.2)) ∧
        (∃ p q, On p ∧ On q ∧ V p.1 p.2 - buffer ≤ (toUV ra dec ra0 dec0).2 ∧
          (toUV ra dec ra0 dec0).2 ≤ V q.1 q.2 + buffer) := by
  obtain ⟨umin, umax, vmin, vmax, f, hsb, ⟨p1, q1, e1⟩, ⟨p2, q2, e2⟩, ⟨p3, q3, e3⟩, ⟨p4, q4, e4⟩, ⟨p5, q5, e5⟩, -⟩ :=
    roughSkyBoundsCel_spec toUV cosArc nrow ncol nGrid hr hc hg image2sky offset buffer ra0 dec0 hcen U V hUV
  refine ⟨_, hsb, ?_⟩
  intro ra dec h
  simp only [ccdContainsCel, if_true, Bounds.containsPoint, decide_eq_true_eq] at h
  subst e1 e2 e3 e4 e5
  exact ⟨⟨p1, p2, p5, gridPoints_range hr hc q1, gridPoints_range hr hc q2, gridPoints_range hr hc q5, h.1,
    h.2.1⟩, ⟨p3, p4, gridPoints_range hr hc q3, gridPoints_range hr hc q4, h.2.2.1, h.2.2.2⟩⟩

/-- **C109, arrays.**  Arrays are tested position by position; arrays of more dimensions and mixtures are
refused. -/
theorem C109_arrays (toUV : ℚ → ℚ → ℚ → ℚ → ℚ × ℚ) (celestial : Bool) (sb : Bounds ℚ × ℚ × ℚ) :
    (∀ ra dec, ccdContainsCall toUV celestial sb (.scalar ra) (.scalar dec) =
      .ok (.inl (ccdContainsCel toUV celestial sb ra dec))) ∧
    (∀ ras decs : List ℚ, ras.length = decs.length →
      ∃ bs, ccdContainsCall toUV celestial sb (.arr ras) (.arr decs) = .ok (.inr bs) ∧ bs.length = ras.length ∧
        ∀ i (h1 : i < ras.length) (h2 : i < decs.length) (h3 : i < bs.length),
          ccdContainsCall toUV celestial sb (.scalar ras[i]) (.scalar decs[i]) = .ok (.inl bs[i])) ∧
    (∀ x y : Arg, (x.ndim > 1 ∨ y.ndim > 1 ∨ x.ndim ≠ y.ndim) →
      ccdContainsCall toUV celestial sb x y = .error .assertionError) := by
  refine ⟨fun _ _ => rfl, ?_, ?_⟩
  · intro ras decs h
    refine ⟨List.zipWith (ccdContainsCel toUV celestial sb) ras decs, ?_, by simp [h], ?_⟩
    · simp [ccdContainsCall, Arg.ndim, broadcast, Arg.flat, h, bind, Except.bind, pure, Except.pure]
    · intro i h1 h2 h3
      simp [ccdContainsCall, Arg.ndim, broadcast, Arg.flat, bind, Except.bind, pure, Except.pure]
  · intro x y h
    unfold ccdContainsCall
    by_cases h1 : x.ndim ≤ 1 ∧ y.ndim ≤ 1
    · simp only [h1, not_true_eq_false, if_false, and_self]
      rw [if_pos (by omega)]
    · simp only [h1, not_false_eq_true, if_true]

/-- **C109, the cells are not square.**  The comment in the code says that the grid is chosen so that its
cells are about square.  For an image `k ≥ 2` times as high as wide there are `k` cells along the columns of
length about the width of the image, and `nGrid` cells along the rows: cells are about `nGrid` times as high
as wide. -/
theorem C109_cells (k ncol nGrid : Nat) (hk : 2 ≤ k) (hc : 0 < ncol) :
    gridShape (k * ncol) ncol nGrid = (k, nGrid) ∧ gridShape ncol (k * ncol) nGrid = (nGrid, k) := by
  have hc' : (ncol : ℚ) ≠ 0 := by exact_mod_cast hc.ne'
  have e : ((k * ncol : Nat) : ℚ) / (ncol : ℚ) = (k : ℚ) := by
    push_cast
    field_simp
  have hlt : ncol < k * ncol := by nlinarith
  constructor
  · unfold gridShape
    rw [if_pos hlt, e]
    simp
  · unfold gridShape
    rw [if_neg (by omega), e]
    simp

/-! ### examples -/

/-- A distorted WCS on a 40 x 20 image: the quadratic term is at most 4 on the image. -/
example : ∃ sb, roughSkyBoundsCel (fun ra dec ra0 dec0 => (ra - ra0, dec - dec0)) (fun _ => 1) 40 20 4
      (fun x y => (x + x * x / 100, y)) 0 16 = .ok sb ∧
    ccdContainsCel (fun ra dec ra0 dec0 => (ra - ra0, dec - dec0)) true sb (10 + 1 + 7) (11 - 7) = true := by
  obtain ⟨sb, h, hacc⟩ := C109_accepts (fun ra dec ra0 dec0 => (ra - ra0, dec - dec0)) (fun _ => 1) 40 20 4
    (by norm_num) (by norm_num) (by norm_num) (fun x y => (x + x * x / 100, y)) 0 16 _ _ rfl
    (fun _ col => col + 0 + (col + 0) * (col + 0) / 100 - _) (fun row _ => row + 0 - _) (fun _ _ => rfl)
    (fun _ _ _ _ _ _ => ⟨by norm_num, le_rfl⟩) 4
    (by
      intro r0 r1 c0 c1 _ _ g1 g2 _ _ _ _
      refine ⟨-(((20 : ℕ) - 1) / 2 + 0 + (((20 : ℕ) - 1) / 2 + 0) * (((20 : ℕ) - 1) / 2 + 0) / 100), 1, 0, ?_⟩
      intro row col _ _ k1 k2
      have j1 : 0 ≤ col := g1.trans k1
      have j2 : col ≤ 19 := by
        have := k2.trans g2
        norm_num at this
        linarith
      rw [abs_le]
      constructor <;> nlinarith)
    (by
      intro r0 r1 c0 c1 _ _ _ _ _ _ _ _
      refine ⟨-(((40 : ℕ) - 1) / 2 + 0), 0, 1, ?_⟩
      intro row col _ _ _ _
      rw [abs_le]
      constructor <;> linarith)
  refine ⟨sb, h, hacc 11 10 (by norm_num) (by norm_num) (by norm_num) (by norm_num) _ _ 7 (by norm_num)
    (by norm_num) ?_ ?_⟩
  · rw [abs_le]
    constructor <;> norm_num
  · rw [abs_le]
    constructor <;> norm_num

/-- `C109_accepted`: the same WCS. -/
example := C109_accepted (fun ra dec ra0 dec0 => (ra - ra0, dec - dec0)) (fun _ => 1) 40 20 4
  (by norm_num) (by norm_num) (by norm_num) (fun x y => (x + x * x / 100, y)) 0 16 _ _ rfl
  (fun _ col => col + 0 + (col + 0) * (col + 0) / 100 - _) (fun row _ => row + 0 - _) (fun _ _ => rfl)

/-- `C109_arrays`: two positions, the first on the CCD and the second not. -/
example : ccdContainsCall (fun ra dec ra0 dec0 => (ra - ra0, dec - dec0)) true (⟨-1, 1, -1, 1⟩, 10, 20)
    (.arr [10.5, 12]) (.arr [20, 20]) = .ok (.inr [true, false]) := by decide +kernel

example := (C109_arrays (fun ra dec ra0 dec0 => (ra - ra0, dec - dec0)) true (⟨-1, 1, -1, 1⟩, 10, 20)).2.1
  [10.5, 12] [20, 20] rfl

example := (C109_arrays (fun ra dec ra0 dec0 => (ra - ra0, dec - dec0)) true (⟨-1, 1, -1, 1⟩, 10, 20)).2.2
  (.scalar 10) (.arr [20, 20]) (by decide)

/-- `C109_cells`: a CCD of 4096 rows and 2048 columns. -/
example : gridShape (2 * 2048) 2048 4 = (2, 4) := (C109_cells 2 2048 4 (by norm_num) (by norm_num)).1

end Pizza
