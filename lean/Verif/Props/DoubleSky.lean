import Verif.Model.DoubleSky
import Verif.Props.DoubleAffine
import Verif.Props.DoubleGeom
import Verif.Props.SEGeom

/-!
C139: the rough cut on the sky in floating point.
-/

namespace Pizza

section
variable {p : ℕ} {rnd : ℚ → ℚ}

/-- What follows of two numbers when their rounded values are in order. -/
theorem Rounds.le_back (h : Rounds p rnd) (hp : 2 ≤ p) {a b : ℚ} (hab : rnd a ≤ rnd b) : a ≤ b + 3 * unitOf p * |a| := by
  have hu0 := unitOf_pos p
  have hu : unitOf p ≤ 1 / 4 := by
    have := unitOf_anti hp
    refine this.trans ?_
    norm_num [unitOf]
  by_cases hc : a ≤ b
  · have := abs_nonneg a
    nlinarith
  have he : rnd a = rnd b := le_antisymm hab (h.mono (not_le.1 hc).le)
  have h1 := abs_le.1 (h.err (by omega) a)
  have h2 := h.err (by omega) b
  have hb : |b| ≤ 2 * |a| := by
    have e1 : |b| - |rnd b| ≤ |rnd b - b| := by
      rw [abs_sub_comm]; exact abs_sub_abs_le_abs_sub b (rnd b)
    have e2 : |rnd a| - |a| ≤ |rnd a - a| := abs_sub_abs_le_abs_sub _ _
    have e3 := h.err (by omega) a
    rw [he] at e2 e3
    nlinarith [abs_nonneg a, abs_nonneg b]
  have h2' := abs_le.1 h2
  nlinarith [abs_nonneg a, abs_nonneg b]

theorem gridShapeD_pos (h : Rounds p rnd) (hp : 1 ≤ p) {nrow ncol nGrid : ℕ} (hr : 0 < nrow) (hc : 0 < ncol) (hg : 0 < nGrid) :
    0 < (gridShapeD rnd nrow ncol nGrid).1 ∧ 0 < (gridShapeD rnd nrow ncol nGrid).2 := by
  have hr' : (0 : ℚ) < nrow := by exact_mod_cast hr
  have hc' : (0 : ℚ) < ncol := by exact_mod_cast hc
  unfold gridShapeD
  split_ifs
  · refine ⟨?_, hg⟩
    have : 0 < ⌈rnd ((nrow : ℚ) / ncol)⌉ := Int.ceil_pos.2 (h.pos hp (by positivity))
    change 0 < (⌈rnd ((nrow : ℚ) / ncol)⌉).toNat
    omega
  · refine ⟨hg, ?_⟩
    have : 0 < ⌈rnd ((ncol : ℚ) / nrow)⌉ := Int.ceil_pos.2 (h.pos hp (by positivity))
    change 0 < (⌈rnd ((ncol : ℚ) / nrow)⌉).toNat
    omega

/-- The rounded quotient of two integers has the same ceiling. -/
theorem ceil_quot (h : Rounds p rnd) (hp : 1 ≤ p) {a b : ℕ} (ha : a < 2 ^ p) (hb : 0 < b) :
    ⌈rnd ((a : ℚ) / b)⌉ = ⌈(a : ℚ) / b⌉ := by
  have hq : ∀ n : ℤ, rnd ((a : ℚ) / b) = n ↔ (a : ℚ) / b = n := fun n => by
    have := h.quot hp (a := a) (b := b) (n := n) (by
      rw [abs_of_nonneg (by positivity)]; exact_mod_cast ha) (by exact_mod_cast hb.ne')
    simpa only [Int.cast_natCast] using this
  have h0 : (0 : ℚ) ≤ (a : ℚ) / b := by positivity
  have hle : (a : ℚ) / b ≤ a := div_le_self (by positivity) (by exact_mod_cast hb)
  have hcl : |⌈(a : ℚ) / b⌉| ≤ 2 ^ p := by
    have h1 : ⌈(a : ℚ) / b⌉ ≤ a := Int.ceil_le.2 (by exact_mod_cast hle)
    have h2 : 0 ≤ ⌈(a : ℚ) / b⌉ := Int.ceil_nonneg h0
    rw [abs_of_nonneg h2]
    have : (a : ℤ) < 2 ^ p := by exact_mod_cast ha
    omega
  have hpos : (1 : ℤ) ≤ 2 ^ p := one_le_pow₀ (by norm_num)
  rw [Int.ceil_eq_iff]
  constructor
  · -- above the integer below
    have hlt := (Int.ceil_eq_iff.1 (rfl : ⌈(a : ℚ) / b⌉ = _)).1
    set c := ⌈(a : ℚ) / b⌉
    have hcf : rnd ((c - 1 : ℤ) : ℚ) = ((c - 1 : ℤ) : ℚ) := by
      refine h.int ?_
      have h2 : 0 ≤ c := Int.ceil_nonneg h0
      rw [abs_of_nonneg h2] at hcl
      rw [abs_le]
      constructor <;> omega
    have hm := h.mono hlt.le
    have e : ((c : ℚ) - 1) = ((c - 1 : ℤ) : ℚ) := by push_cast; rfl
    rw [e, hcf] at hm
    rw [e]
    refine lt_of_le_of_ne hm fun hne => ?_
    have := (hq (c - 1)).1 hne.symm
    rw [this, e] at hlt
    exact lt_irrefl _ hlt
  · have := h.mono (Int.le_ceil ((a : ℚ) / b))
    rwa [h.int hcl] at this

/-- C139: rounding does not change the number of grid cells. -/
theorem C139_grid_shape (hp : 1 ≤ p) (h : Rounds p rnd) (nrow ncol nGrid : ℕ) (hr : 0 < nrow) (hc : 0 < ncol)
    (hr' : nrow < 2 ^ p) (hc' : ncol < 2 ^ p) : gridShapeD rnd nrow ncol nGrid = gridShape nrow ncol nGrid := by
  unfold gridShapeD gridShape
  rw [ceil_quot h hp hr' hc, ceil_quot h hp hc' hr]

/-- The axis of the grid has both ends of the image, and no position off the image. -/
theorem gridAxisD_mem (h : Rounds p rnd) (hp : 1 ≤ p) {n dim : ℕ} (hn : 0 < n) (hd : 0 < dim)
    (hb : (n : ℤ) * dim ≤ 2 ^ p) :
    (0 : ℚ) ∈ gridAxisD rnd n dim ∧ (dim : ℚ) - 1 ∈ gridAxisD rnd n dim ∧
    ∀ x ∈ gridAxisD rnd n dim, 0 ≤ x ∧ x ≤ (dim : ℚ) - 1 := by
  obtain ⟨-, h1, h2, h3⟩ := C130_grid_axis p hp rnd h n dim hn hd hb
  refine ⟨List.mem_of_head? h1, List.mem_of_getLast? h2, fun x hx => ?_⟩
  obtain ⟨i, hi⟩ := List.mem_iff_getElem?.1 hx
  exact ⟨(h3 i x hi).1, (h3 i x hi).2.1⟩

/-- A position on the image. -/
def OnFrame (nrow ncol : ℕ) (row col : ℚ) : Prop :=
  0 ≤ row ∧ row ≤ (nrow : ℚ) - 1 ∧ 0 ≤ col ∧ col ≤ (ncol : ℚ) - 1

/-- One sky coordinate of the grid: `F` as computed, within `ε` of an affine function of the position, and at most `R`
from the value `cc` at the centre. -/
theorem sky_coordinate (h : Rounds p rnd) (hp : 2 ≤ p) {nrow ncol : ℕ} {pts : List (ℚ × ℚ)}
    (hpts : ∀ q ∈ pts, OnFrame nrow ncol q.1 q.2)
    (hcorner : ∀ r c, (r = 0 ∨ r = (nrow : ℚ) - 1) → (c = 0 ∨ c = (ncol : ℚ) - 1) → (r, c) ∈ pts)
    {F : ℚ → ℚ → ℚ} {cc k a b ε R buffer : ℚ}
    (hF : ∀ row col, OnFrame nrow ncol row col → |F row col - (k + a * col + b * row)| ≤ ε)
    (hR : ∀ row col, OnFrame nrow ncol row col → |F row col - cc| ≤ R) (hbuf : 0 ≤ buffer) :
    ∃ mn mx, qmin? (pts.map fun q => rnd (F q.1 q.2 - cc)) = .ok mn ∧
      qmax? (pts.map fun q => rnd (F q.1 q.2 - cc)) = .ok mx ∧
      (∀ t row col s, OnFrame nrow ncol row col → |t - (k + a * col + b * row)| ≤ s → s + ε + unitOf p * R ≤ buffer →
        rnd (mn - buffer) ≤ rnd (t - cc) ∧ rnd (t - cc) ≤ rnd (mx + buffer)) ∧
      (∀ t, rnd (mn - buffer) ≤ rnd (t - cc) → rnd (t - cc) ≤ rnd (mx + buffer) →
        ∃ row col row' col', OnFrame nrow ncol row col ∧ OnFrame nrow ncol row' col' ∧
          k + a * col + b * row - (buffer + ε + 8 * unitOf p * (R + buffer)) ≤ t ∧
          t ≤ k + a * col' + b * row' + (buffer + ε + 8 * unitOf p * (R + buffer))) := by
  have hu0 := unitOf_pos p
  have hu : unitOf p ≤ 1 / 4 := by
    refine (unitOf_anti hp).trans ?_
    norm_num [unitOf]
  have hne : pts.map (fun q => rnd (F q.1 q.2 - cc)) ≠ [] := by
    intro hn
    have := hcorner 0 0 (.inl rfl) (.inl rfl)
    rw [List.map_eq_nil_iff] at hn
    rw [hn] at this
    simp at this
  obtain ⟨mn, hmn, hmn1, hmn2⟩ := qmin?_spec hne
  obtain ⟨mx, hmx, hmx1, hmx2⟩ := qmax?_spec hne
  refine ⟨mn, mx, hmn, hmx, ?_, ?_⟩
  · intro t row col s hon ht hs
    obtain ⟨h1, h2, h3, h4⟩ := hon
    -- at the corners the extremes are beyond the affine function
    have corner : ∀ r c, (r = 0 ∨ r = (nrow : ℚ) - 1) → (c = 0 ∨ c = (ncol : ℚ) - 1) →
        mn ≤ k + a * c + b * r - cc + (ε + unitOf p * R) ∧ k + a * c + b * r - cc - (ε + unitOf p * R) ≤ mx := by
      intro r c hr hc
      have hm := hcorner r c hr hc
      have hon := hpts _ hm
      have g1 := hmn2 _ (List.mem_map_of_mem (f := fun q => rnd (F q.1 q.2 - cc)) hm)
      have g2 := hmx2 _ (List.mem_map_of_mem (f := fun q => rnd (F q.1 q.2 - cc)) hm)
      have e1 := abs_le.1 (hF r c hon)
      have e2 := h.err (by omega) (F r c - cc)
      have e3 := abs_le.1 (e2.trans (mul_le_mul_of_nonneg_left (hR r c hon) hu0.le))
      simp only at g1 g2
      constructor <;> linarith
    have c00 := corner 0 0 (.inl rfl) (.inl rfl)
    have c01 := corner 0 _ (.inl rfl) (.inr rfl)
    have c10 := corner _ 0 (.inr rfl) (.inl rfl)
    have c11 := corner _ _ (.inr rfl) (.inr rfl)
    have ht' := abs_le.1 ht
    constructor
    · refine h.mono ?_
      have s1 : mn ≤ (k - cc + (ε + unitOf p * R)) + b * row :=
        affine_ge_min h1 h2 _ (by linarith [c00.1]) (by linarith [c10.1])
      have s2 : mn ≤ (k - cc + (ε + unitOf p * R) + a * ((ncol : ℚ) - 1)) + b * row :=
        affine_ge_min h1 h2 _ (by linarith [c01.1]) (by linarith [c11.1])
      have := affine_ge_min h3 h4 (a := a) ((k - cc + (ε + unitOf p * R)) + b * row) s1 (by linarith)
      linarith
    · refine h.mono ?_
      have s1 : (k - cc - (ε + unitOf p * R)) + b * row ≤ mx :=
        affine_le_max h1 h2 _ (by linarith [c00.2]) (by linarith [c10.2])
      have s2 : (k - cc - (ε + unitOf p * R) + a * ((ncol : ℚ) - 1)) + b * row ≤ mx :=
        affine_le_max h1 h2 _ (by linarith [c01.2]) (by linarith [c11.2])
      have := affine_le_max h3 h4 (a := a) ((k - cc - (ε + unitOf p * R)) + b * row) s1 (by linarith)
      linarith
  · intro t hlo hhi
    obtain ⟨q, hq, rfl⟩ := List.mem_map.1 hmn1
    obtain ⟨q', hq', rfl⟩ := List.mem_map.1 hmx1
    refine ⟨q.1, q.2, q'.1, q'.2, hpts q hq, hpts q' hq', ?_, ?_⟩
    · have e1 := abs_le.1 (hF q.1 q.2 (hpts q hq))
      have e0 := hR q.1 q.2 (hpts q hq)
      have e2 := (h.err (by omega) (F q.1 q.2 - cc)).trans (mul_le_mul_of_nonneg_left e0 hu0.le)
      have hb := h.le_back hp hlo
      set x := rnd (F q.1 q.2 - cc)
      have e3 := abs_le.1 e2
      have e4 := abs_le.1 e0
      have hx : |x - buffer| ≤ 2 * R + buffer := by
        rw [abs_le]
        constructor <;> nlinarith
      nlinarith [mul_le_mul_of_nonneg_left hx hu0.le]
    · have e1 := abs_le.1 (hF q'.1 q'.2 (hpts q' hq'))
      have e0 := hR q'.1 q'.2 (hpts q' hq')
      have e2 := (h.err (by omega) (F q'.1 q'.2 - cc)).trans (mul_le_mul_of_nonneg_left e0 hu0.le)
      set x := rnd (F q'.1 q'.2 - cc)
      have e3 := abs_le.1 e2
      have e4 := abs_le.1 e0
      have hx : |x + buffer| ≤ 2 * R + buffer := by
        rw [abs_le]
        constructor <;> nlinarith
      -- the position is not beyond the upper bound by more than rounding
      have hb : t - cc ≤ x + buffer + 3 * unitOf p * |x + buffer| := by
        have h1 : rnd (t - cc) ≤ rnd (x + buffer) := hhi
        by_cases hc : t - cc ≤ x + buffer
        · have := abs_nonneg (x + buffer)
          nlinarith
        have he : rnd (t - cc) = rnd (x + buffer) := le_antisymm h1 (h.mono (not_le.1 hc).le)
        have f1 := abs_le.1 (h.err (by omega) (x + buffer))
        have f2 := h.err (by omega) (t - cc)
        have f3 := h.err (by omega) (x + buffer)
        have hb : |t - cc| ≤ 2 * |x + buffer| := by
          have g1 : |t - cc| - |rnd (t - cc)| ≤ |rnd (t - cc) - (t - cc)| :=
            (abs_sub_abs_le_abs_sub (t - cc) (rnd (t - cc))).trans (abs_sub_comm _ _).le
          have g2 : |rnd (x + buffer)| - |x + buffer| ≤ |rnd (x + buffer) - (x + buffer)| := abs_sub_abs_le_abs_sub _ _
          rw [← he] at g2 f3
          nlinarith [abs_nonneg (x + buffer), abs_nonneg (t - cc)]
        have f2' := abs_le.1 f2
        nlinarith [abs_nonneg (x + buffer), abs_nonneg (t - cc)]
      nlinarith [mul_le_mul_of_nonneg_left hx hu0.le]

/-- C139: the rough cut in floating point, for a WCS that is computed to within `ε` of an affine one.  No position is
lost: one whose coordinates are within `s` of those of a position on the image is accepted, if `s` and the errors (that
of the WCS, and that of the difference from the centre) are at most the buffer.  And not much more is accepted: one
that is accepted is, in each coordinate, not beyond positions on the image by more than the buffer and these errors. -/
theorem C139_cut (hp : 2 ≤ p) (h : Rounds p rnd) (nrow ncol nGrid : ℕ) (hr : 0 < nrow) (hc : 0 < ncol) (hg : 0 < nGrid)
    (hb1 : ((gridShape nrow ncol nGrid).1 : ℤ) * nrow ≤ 2 ^ p) (hb2 : ((gridShape nrow ncol nGrid).2 : ℤ) * ncol ≤ 2 ^ p)
    (hr' : nrow < 2 ^ p) (hc' : ncol < 2 ^ p) (image2sky : ℚ → ℚ → ℚ × ℚ) (offset buffer u0 ux uy v0 vx vy ε R ra0 dec0 : ℚ)
    (hbuf : 0 ≤ buffer)
    (hcen : image2sky (rnd (((ncol : ℚ) - 1) / 2 + offset)) (rnd (((nrow : ℚ) - 1) / 2 + offset)) = (ra0, dec0))
    (hsky : ∀ row col, OnFrame nrow ncol row col →
      |(image2sky (rnd (col + offset)) (rnd (row + offset))).1 - (u0 + ux * col + uy * row)| ≤ ε ∧
      |(image2sky (rnd (col + offset)) (rnd (row + offset))).2 - (v0 + vx * col + vy * row)| ≤ ε)
    (hR : ∀ row col, OnFrame nrow ncol row col →
      |(image2sky (rnd (col + offset)) (rnd (row + offset))).1 - ra0| ≤ R ∧
      |(image2sky (rnd (col + offset)) (rnd (row + offset))).2 - dec0| ≤ R) :
    ∃ sb, roughSkyBoundsD rnd nrow ncol nGrid image2sky offset buffer = .ok sb ∧
      (∀ ra dec row col s, OnFrame nrow ncol row col → |ra - (u0 + ux * col + uy * row)| ≤ s →
        |dec - (v0 + vx * col + vy * row)| ≤ s → s + ε + unitOf p * R ≤ buffer → ccdContainsRadecD rnd sb ra dec = true) ∧
      (∀ ra dec, ccdContainsRadecD rnd sb ra dec = true →
        (∃ row col row' col', OnFrame nrow ncol row col ∧ OnFrame nrow ncol row' col' ∧
          u0 + ux * col + uy * row - (buffer + ε + 8 * unitOf p * (R + buffer)) ≤ ra ∧
          ra ≤ u0 + ux * col' + uy * row' + (buffer + ε + 8 * unitOf p * (R + buffer))) ∧
        (∃ row col row' col', OnFrame nrow ncol row col ∧ OnFrame nrow ncol row' col' ∧
          v0 + vx * col + vy * row - (buffer + ε + 8 * unitOf p * (R + buffer)) ≤ dec ∧
          dec ≤ v0 + vx * col' + vy * row' + (buffer + ε + 8 * unitOf p * (R + buffer)))) := by
  have hsh := C139_grid_shape (by omega) h nrow ncol nGrid hr hc hr' hc'
  obtain ⟨g1, g2⟩ := gridShapeD_pos h (by omega) hr hc hg
  rw [← hsh] at hb1 hb2
  obtain ⟨z1, l1, m1⟩ := gridAxisD_mem h (by omega) g1 hr hb1
  obtain ⟨z2, l2, m2⟩ := gridAxisD_mem h (by omega) g2 hc hb2
  have hpts : ∀ q ∈ gridPointsD rnd nrow ncol nGrid, OnFrame nrow ncol q.1 q.2 := by
    intro q hq
    simp only [gridPointsD, List.mem_flatMap, List.mem_map] at hq
    obtain ⟨c, hc', r, hr', rfl⟩ := hq
    exact ⟨(m1 r hr').1, (m1 r hr').2, (m2 c hc').1, (m2 c hc').2⟩
  have hcorner : ∀ r c, (r = 0 ∨ r = (nrow : ℚ) - 1) → (c = 0 ∨ c = (ncol : ℚ) - 1) →
      (r, c) ∈ gridPointsD rnd nrow ncol nGrid := by
    intro r c hr hc
    simp only [gridPointsD, List.mem_flatMap, List.mem_map]
    refine ⟨c, ?_, r, ?_, rfl⟩
    · rcases hc with rfl | rfl
      · exact z2
      · exact l2
    · rcases hr with rfl | rfl
      · exact z1
      · exact l1
  obtain ⟨umin, umax, hu1, hu2, hu3, hu4⟩ := sky_coordinate h hp hpts hcorner (cc := ra0) (buffer := buffer)
    (F := fun r c => (image2sky (rnd (c + offset)) (rnd (r + offset))).1) (fun r c ho => (hsky r c ho).1)
    (fun r c ho => (hR r c ho).1) hbuf
  obtain ⟨vmin, vmax, hv1, hv2, hv3, hv4⟩ := sky_coordinate h hp hpts hcorner (cc := dec0) (buffer := buffer)
    (F := fun r c => (image2sky (rnd (c + offset)) (rnd (r + offset))).2) (fun r c ho => (hsky r c ho).2)
    (fun r c ho => (hR r c ho).2) hbuf
  refine ⟨(⟨rnd (umin - buffer), rnd (umax + buffer), rnd (vmin - buffer), rnd (vmax + buffer)⟩, ra0, dec0), ?_, ?_, ?_⟩
  · have half : ∀ n : ℕ, 0 < n → n < 2 ^ p → rnd (((n : ℚ) - 1) / 2) = ((n : ℚ) - 1) / 2 := by
      intro n hn hn'
      have := h.half (n := (n : ℤ) - 1) (by
        have : (n : ℤ) < 2 ^ p := by exact_mod_cast hn'
        rw [abs_of_nonneg (by omega)]
        omega)
      push_cast at this
      exact this
    unfold roughSkyBoundsD
    have h0 : ¬ (nrow = 0 ∨ ncol = 0 ∨ nGrid = 0) := by omega
    rw [if_neg h0]
    simp only [List.map_map, Function.comp_def, half nrow hr hr', half ncol hc hc', hcen]
    rw [hu1, hu2, hv1, hv2]
    rfl
  · intro ra dec row col s ho h1 h2 hs
    obtain ⟨a1, a2⟩ := hu3 ra row col s ho h1 hs
    obtain ⟨b1, b2⟩ := hv3 dec row col s ho h2 hs
    simp only [ccdContainsRadecD, Bounds.containsPoint, decide_eq_true_eq]
    exact ⟨a1, a2, b1, b2⟩
  · intro ra dec hin
    simp only [ccdContainsRadecD, Bounds.containsPoint, decide_eq_true_eq] at hin
    obtain ⟨a1, a2, b1, b2⟩ := hin
    exact ⟨hu4 ra a1 a2, hv4 dec b1 b2⟩

/-- One coordinate of an affine WCS in floating point, at a position with the offset added. -/
theorem affine_coordinate (h : Rounds p rnd) (hp : 10 ≤ p) {a b x0 y0 offset N J col row F : ℚ} (hJ : |a| + |b| ≤ J)
    (hx0 : |x0| ≤ N) (hy0 : |y0| ≤ N) (hcol : |col + offset| ≤ N) (hrow : |row + offset| ≤ N)
    (hF : |F - (a * (rnd (col + offset) - x0) + b * (rnd (row + offset) - y0))| ≤
      4 / 2 ^ p * (|a * (rnd (col + offset) - x0)| + |b * (rnd (row + offset) - y0)|)) :
    |F - (a * (offset - x0) + b * (offset - y0) + a * col + b * row)| ≤ 10 * unitOf p * (J * N) ∧ |F| ≤ 5 / 2 * (J * N) := by
  have hu0 := unitOf_pos p
  have hu : unitOf p ≤ 1 / 1024 := by
    refine (unitOf_anti hp).trans ?_
    norm_num [unitOf]
  have e4 : (4 : ℚ) / 2 ^ p = 4 * unitOf p := by unfold unitOf; ring
  rw [e4] at hF
  have hN : 0 ≤ N := (abs_nonneg _).trans hx0
  have ha := abs_nonneg a
  have hb := abs_nonneg b
  have hX := (h.err (by omega) (col + offset)).trans (mul_le_mul_of_nonneg_left hcol hu0.le)
  have hY := (h.err (by omega) (row + offset)).trans (mul_le_mul_of_nonneg_left hrow hu0.le)
  set X := rnd (col + offset)
  set Y := rnd (row + offset)
  have hXx : |X - x0| ≤ 9 / 4 * N := by
    have h1 := abs_le.1 hX
    have h2 := abs_le.1 hcol
    have h3 := abs_le.1 hx0
    rw [abs_le]
    constructor <;> nlinarith
  have hYy : |Y - y0| ≤ 9 / 4 * N := by
    have h1 := abs_le.1 hY
    have h2 := abs_le.1 hrow
    have h3 := abs_le.1 hy0
    rw [abs_le]
    constructor <;> nlinarith
  have hsum : |a * (X - x0)| + |b * (Y - y0)| ≤ 9 / 4 * (J * N) := by
    rw [abs_mul, abs_mul]
    have h1 := mul_le_mul_of_nonneg_left hXx ha
    have h2 := mul_le_mul_of_nonneg_left hYy hb
    have h3 := mul_le_mul_of_nonneg_right hJ hN
    nlinarith
  have hsh : |a * (X - (col + offset)) + b * (Y - (row + offset))| ≤ unitOf p * (J * N) := by
    refine (abs_add_le _ _).trans ?_
    rw [abs_mul, abs_mul]
    have h1 := mul_le_mul_of_nonneg_left hX ha
    have h2 := mul_le_mul_of_nonneg_left hY hb
    have h3 := mul_le_mul_of_nonneg_right hJ (mul_nonneg hu0.le hN)
    nlinarith
  have hF' := hF.trans (mul_le_mul_of_nonneg_left hsum (by positivity : 0 ≤ 4 * unitOf p))
  have f1 := abs_le.1 hF'
  have f2 := abs_le.1 hsh
  have hJN : 0 ≤ J * N := mul_nonneg ((add_nonneg ha hb).trans hJ) hN
  constructor
  · rw [abs_le]
    constructor <;> nlinarith
  · have f3 := abs_le.1 ((abs_add_le (a * (X - x0)) (b * (Y - y0))).trans hsum)
    rw [abs_le]
    constructor <;> nlinarith

/-- C139: the rough cut with an affine WCS in floating point.  `J` bounds the entries of its matrix (pixels to sky) and
`N` the positions: then no position is lost that is within the buffer, less 15 units of rounding of `J N`, of the
coordinates of a position on the image.  For a DECam CCD that is 3e-12 arcseconds. -/
theorem C139_affine (hp : 10 ≤ p) (h : Rounds p rnd) (nrow ncol nGrid : ℕ) (hr : 0 < nrow) (hc : 0 < ncol)
    (hg : 0 < nGrid) (hb1 : ((gridShape nrow ncol nGrid).1 : ℤ) * nrow ≤ 2 ^ p)
    (hb2 : ((gridShape nrow ncol nGrid).2 : ℤ) * ncol ≤ 2 ^ p) (hr' : nrow < 2 ^ p) (hc' : ncol < 2 ^ p)
    (a b c d x0 y0 offset buffer J N : ℚ) (hx0 : IsFloat p x0) (hy0 : IsFloat p y0) (hbuf : 0 ≤ buffer)
    (w : AffineWCS) (hw : AffineWCS.mkD rnd a b c d x0 y0 = .ok w) (hJ1 : |a| + |b| ≤ J) (hJ2 : |c| + |d| ≤ J)
    (hN1 : |x0| ≤ N) (hN2 : |y0| ≤ N) (hN3 : |offset| + nrow ≤ N) (hN4 : |offset| + ncol ≤ N) :
    ∃ sb, roughSkyBoundsD rnd nrow ncol nGrid (w.image2skyD rnd) offset buffer = .ok sb ∧
      (∀ ra dec row col s, OnFrame nrow ncol row col →
        |ra - (a * (col + offset - x0) + b * (row + offset - y0))| ≤ s →
        |dec - (c * (col + offset - x0) + d * (row + offset - y0))| ≤ s → s + 15 / 2 ^ p * (J * N) ≤ buffer →
          ccdContainsRadecD rnd sb ra dec = true) ∧
      (∀ ra dec, ccdContainsRadecD rnd sb ra dec = true →
        (∃ row col row' col', OnFrame nrow ncol row col ∧ OnFrame nrow ncol row' col' ∧
          a * (col + offset - x0) + b * (row + offset - y0) - (buffer + 1 / 2 ^ p * (50 * (J * N) + 8 * buffer)) ≤ ra ∧
          ra ≤ a * (col' + offset - x0) + b * (row' + offset - y0) + (buffer + 1 / 2 ^ p * (50 * (J * N) + 8 * buffer))) ∧
        (∃ row col row' col', OnFrame nrow ncol row col ∧ OnFrame nrow ncol row' col' ∧
          c * (col + offset - x0) + d * (row + offset - y0) - (buffer + 1 / 2 ^ p * (50 * (J * N) + 8 * buffer)) ≤ dec ∧
          dec ≤ c * (col' + offset - x0) + d * (row' + offset - y0) +
            (buffer + 1 / 2 ^ p * (50 * (J * N) + 8 * buffer)))) := by
  obtain ⟨hi, -, -⟩ := C136_image2sky hp rnd h a b c d x0 y0 hx0 hy0 w hw
  have hpos : ∀ row col, OnFrame nrow ncol row col → |col + offset| ≤ N ∧ |row + offset| ≤ N := by
    intro row col ho
    obtain ⟨h1, h2, h3, h4⟩ := ho
    have := abs_add_le col offset
    have := abs_add_le row offset
    rw [abs_of_nonneg h1] at *
    rw [abs_of_nonneg h3] at *
    constructor <;> linarith
  have hmid : OnFrame nrow ncol (((nrow : ℚ) - 1) / 2) (((ncol : ℚ) - 1) / 2) := by
    have e1 : (1 : ℚ) ≤ nrow := by exact_mod_cast hr
    have e2 : (1 : ℚ) ≤ ncol := by exact_mod_cast hc
    refine ⟨?_, ?_, ?_, ?_⟩ <;> linarith
  have hu : ∀ row col, OnFrame nrow ncol row col → _ := fun row col ho =>
    affine_coordinate h hp hJ1 hN1 hN2 (hpos row col ho).1 (hpos row col ho).2 (hi (rnd (col + offset)) (rnd (row + offset))).1
  have hv : ∀ row col, OnFrame nrow ncol row col → _ := fun row col ho =>
    affine_coordinate h hp hJ2 hN1 hN2 (hpos row col ho).1 (hpos row col ho).2 (hi (rnd (col + offset)) (rnd (row + offset))).2
  obtain ⟨sb, hsb, hacc, hback⟩ := C139_cut (by omega) h nrow ncol nGrid hr hc hg hb1 hb2 hr' hc' (w.image2skyD rnd) offset
    buffer (a * (offset - x0) + b * (offset - y0)) a b (c * (offset - x0) + d * (offset - y0)) c d
    (10 * unitOf p * (J * N)) (5 * (J * N))
    (w.image2skyD rnd (rnd (((ncol : ℚ) - 1) / 2 + offset)) (rnd (((nrow : ℚ) - 1) / 2 + offset))).1
    (w.image2skyD rnd (rnd (((ncol : ℚ) - 1) / 2 + offset)) (rnd (((nrow : ℚ) - 1) / 2 + offset))).2 hbuf rfl (fun row col ho => ⟨(hu row col ho).1, (hv row col ho).1⟩)
    (fun row col ho => by
      have u1 := (hu row col ho).2
      have u2 := (hu _ _ hmid).2
      have v1 := (hv row col ho).2
      have v2 := (hv _ _ hmid).2
      constructor
      · have a1 := abs_le.1 u1
        have a2 := abs_le.1 u2
        rw [abs_le]
        constructor <;> linarith
      · have a1 := abs_le.1 v1
        have a2 := abs_le.1 v2
        rw [abs_le]
        constructor <;> linarith)
  have hunit : (1 : ℚ) / 2 ^ p = unitOf p := by unfold unitOf; ring
  have hunit' : (15 : ℚ) / 2 ^ p = 15 * unitOf p := by unfold unitOf; ring
  refine ⟨sb, hsb, ?_, ?_⟩
  · intro ra dec row col s ho h1 h2 hs
    rw [hunit'] at hs
    refine hacc ra dec row col s ho (le_trans (le_of_eq ?_) h1) (le_trans (le_of_eq ?_) h2) (by linarith)
    · congr 1; ring
    · congr 1; ring
  · intro ra dec hin
    rw [hunit]
    obtain ⟨⟨r1, c1, r2, c2, o1, o2, i1, i2⟩, ⟨r3, c3, r4, c4, o3, o4, i3, i4⟩⟩ := hback ra dec hin
    refine ⟨⟨r1, c1, r2, c2, o1, o2, ?_, ?_⟩, ⟨r3, c3, r4, c4, o3, o4, ?_, ?_⟩⟩
    · nlinarith
    · nlinarith
    · nlinarith
    · nlinarith

/-- An image of 4096 by 2048 pixels of a quarter arcsecond, the usual buffer of 16 arcseconds, and one-indexed positions: every
position less than 15.99 arcseconds beyond the CCD in each coordinate is accepted. -/
example : ∃ rnd w sb, Rounds 53 rnd ∧ AffineWCS.mkD rnd (1 / 4) 0 0 (1 / 4) 1024 2048 = .ok w ∧
    roughSkyBoundsD rnd 4096 2048 4 (w.image2skyD rnd) 1 16 = .ok sb ∧ gridShapeD rnd 4096 2048 4 = (2, 4) ∧
    ∀ ra dec row col, OnFrame 4096 2048 row col → |ra - 1 / 4 * (col + 1 - 1024)| ≤ 15.99 →
      |dec - 1 / 4 * (row + 1 - 2048)| ≤ 15.99 → ccdContainsRadecD rnd sb ra dec = true := by
  obtain ⟨rnd, h⟩ := exists_rounds 53 (by norm_num)
  have hf1 : IsFloat 53 1024 := by exact_mod_cast isFloat_int (p := 53) (n := 1024) (by norm_num)
  have hf2 : IsFloat 53 2048 := by exact_mod_cast isFloat_int (p := 53) (n := 2048) (by norm_num)
  have e1 : rnd (1 / 4 * (1 / 4)) = 1 / 16 := by
    have := h.exact (x := 1 / 16) ⟨1, -4, by norm_num, by norm_num⟩
    rw [← this]; norm_num
  have e2 : rnd (0 * 0) = 0 := by rw [mul_zero]; exact h.zero
  have e3 : rnd (1 / 16 - 0) = 1 / 16 := by
    rw [sub_zero]; exact h.exact ⟨1, -4, by norm_num, by norm_num⟩
  obtain ⟨w, hw⟩ : ∃ w, AffineWCS.mkD rnd (1 / 4) 0 0 (1 / 4) 1024 2048 = .ok w := by
    refine ⟨⟨1 / 4, 0, 0, 1 / 4, 1024, 2048, 1 / 16⟩, ?_⟩
    unfold AffineWCS.mkD
    rw [e1, e2, e3]
    rw [if_neg (by norm_num)]
  have hsh : gridShape 4096 2048 4 = (2, 4) := by
    norm_num [gridShape]
    rfl
  have hD := C139_grid_shape (p := 53) (by norm_num) h 4096 2048 4 (by norm_num) (by norm_num) (by norm_num) (by norm_num)
  obtain ⟨sb, hsb, hacc, -⟩ := C139_affine (p := 53) (by norm_num) h 4096 2048 4 (by norm_num) (by norm_num) (by norm_num)
    (by rw [hsh]; norm_num) (by rw [hsh]; norm_num) (by norm_num) (by norm_num) (1 / 4) 0 0 (1 / 4) 1024 2048 1 16 (1 / 4)
    4097 hf1 hf2 (by norm_num) w hw (by norm_num [abs_of_pos]) (by norm_num [abs_of_pos]) (by norm_num [abs_of_pos])
    (by norm_num [abs_of_pos]) (by norm_num [abs_of_pos]) (by norm_num [abs_of_pos])
  refine ⟨rnd, w, sb, h, hw, hsb, hD.trans hsh, fun ra dec row col ho h1 h2 => ?_⟩
  refine hacc ra dec row col 15.99 ho ?_ ?_ (by norm_num)
  · simpa using h1
  · simpa using h2

end

end Pizza
