import Verif.Lemmas.WcsGrid
import Verif.Props.Resample
import Verif.Props.Wcs

/-! Properties C98, C99, C100: the WCS lookup tables used for resampling. -/

namespace Pizza

/-! ### C98: position lookups -/

theorem IsReach.unique {dim delta a b : Nat} (ha : IsReach dim delta a) (hb : IsReach dim delta b) :
    a = b := by
  obtain ⟨⟨i, rfl⟩, h1, h2⟩ := ha
  obtain ⟨⟨j, rfl⟩, h3, h4⟩ := hb
  rcases lt_trichotomy i j with h | h | h
  · have : delta * (i + 1) ≤ delta * j := Nat.mul_le_mul_left _ h
    rw [Nat.mul_add] at this; omega
  · rw [h]
  · have : delta * (j + 1) ≤ delta * i := Nat.mul_le_mul_left _ h
    rw [Nat.mul_add] at this; omega

/-- What a successful call gives: the four fits on the grid. -/
theorem inverse_fits {fit : Fit} {coaddInv : ℚ → ℚ → ℚ × ℚ} {off : ℚ} {se : SEWcs}
    {nrow ncol delta : Nat} {toSe toCo : InvInterp}
    (h : getWcsInverse fit coaddInv off se nrow ncol delta = .ok (toSe, toCo)) (hd : 0 < delta) :
    ∃ k l, IsReach nrow delta (k * delta) ∧ IsReach ncol delta (l * delta) ∧
      ∃ pts, pts = gridPts ((List.range (k + 1)).map (· * delta)) ((List.range (l + 1)).map (· * delta)) ∧
      pts.Nodup ∧
      fit (pts.map fun p => ((coaddPos coaddInv off se p.2 p.1).2, (coaddPos coaddInv off se p.2 p.1).1))
        (pts.map Prod.snd) = .ok toSe.xInt ∧
      fit (pts.map fun p => ((coaddPos coaddInv off se p.2 p.1).2, (coaddPos coaddInv off se p.2 p.1).1))
        (pts.map Prod.fst) = .ok toSe.yInt ∧
      fit pts (pts.map fun p => (coaddPos coaddInv off se p.2 p.1).1) = .ok toCo.xInt ∧
      fit pts (pts.map fun p => (coaddPos coaddInv off se p.2 p.1).2) = .ok toCo.yInt := by
  obtain ⟨k, hk, ek⟩ := mgridAxis_ok nrow hd
  obtain ⟨l, hl, el⟩ := mgridAxis_ok ncol hd
  rw [getWcsInverse_eq _ _ _ _ _ _ _ _ _ ek el] at h
  simp only [bind_eq_ok, pure_eq_ok, Prod.mk.injEq] at h
  obtain ⟨a, ha, b, hb, rfl, rfl⟩ := h
  have h1 := make_ok ha
  have h2 := make_ok hb
  refine ⟨k, l, hk, hl, _, rfl, gridPts_nodup (axis_nodup _ _ hd) (axis_nodup _ _ hd), h1.1, h1.2, ?_, ?_⟩
  · simpa using h2.1
  · simpa using h2.2

theorem mem_axis {dim delta k : Nat} (hk : IsReach dim delta (k * delta))
    {n : Nat} (hn : delta ∣ n) (hlt : n < dim + delta) :
    n ∈ (List.range (k + 1)).map (· * delta) := by
  obtain ⟨i, rfl⟩ := hn
  refine List.mem_map.2 ⟨i, ?_, Nat.mul_comm _ _⟩
  rw [List.mem_range]
  by_contra hc
  obtain ⟨-, h1, h2⟩ := hk
  have : delta * (k + 1) ≤ delta * i := Nat.mul_le_mul_left _ (by omega)
  rw [Nat.mul_add, Nat.mul_comm delta k] at this
  omega

/-- C98, nodes: for every pair of WCSs the lookups are exact at the nodes, which are the positions
`(i delta - 1/2, j delta - 1/2)` from the lower edge of the image to the first one on or beyond the
upper edge; for the lookup from coadd to SE provided no two nodes have the same coadd position. -/
theorem C98_exact_at_nodes (fit : Fit) (hf : FitSpec fit) (coaddInv : ℚ → ℚ → ℚ × ℚ) (off : ℚ)
    (se : SEWcs) (nrow ncol delta : Nat) (hd : 0 < delta) (toSe toCo : InvInterp)
    (h : getWcsInverse fit coaddInv off se nrow ncol delta = .ok (toSe, toCo))
    (i j : Nat) (hi : i * delta < ncol + delta) (hj : j * delta < nrow + delta) (x y u v : ℚ)
    (hx : x = i * delta - 1/2) (hy : y = j * delta - 1/2) (huv : coaddPos coaddInv off se x y = (u, v)) :
    toCo.call x y = (some u, some v) ∧
    ((∀ x y x' y', coaddPos coaddInv off se x y = coaddPos coaddInv off se x' y' → x = x' ∧ y = y') →
      toSe.call u v = (some x, some y)) := by
  obtain ⟨k, l, hk, hl, pts, hpts, hnd, f1, f2, f3, f4⟩ := inverse_fits h hd
  have hmem : (y, x) ∈ pts := by
    rw [hpts, mem_gridPts]
    refine ⟨j * delta, mem_axis hk ⟨j, Nat.mul_comm _ _⟩ hj, i * delta,
      mem_axis hl ⟨i, Nat.mul_comm _ _⟩ hi, ?_⟩
    rw [hx, hy]; push_cast; rfl
  obtain ⟨n, hn⟩ := List.getElem?_of_mem hmem
  constructor
  · unfold InvInterp.call
    rw [hf.node _ _ _ f3 hnd n (y, x) u hn (by rw [List.getElem?_map, hn]; simp [huv]),
      hf.node _ _ _ f4 hnd n (y, x) v hn (by rw [List.getElem?_map, hn]; simp [huv])]
  · intro hinj
    have hnd' : (pts.map fun p => ((coaddPos coaddInv off se p.2 p.1).2,
        (coaddPos coaddInv off se p.2 p.1).1)).Nodup := by
      apply hnd.map
      intro p q hpq
      simp only [Prod.mk.injEq] at hpq
      obtain ⟨e1, e2⟩ := hinj p.2 p.1 q.2 q.1 (Prod.ext hpq.2 hpq.1)
      exact Prod.ext e2 e1
    have hn' : (pts.map fun p => ((coaddPos coaddInv off se p.2 p.1).2,
        (coaddPos coaddInv off se p.2 p.1).1))[n]? = some (v, u) := by
      rw [List.getElem?_map, hn]; simp [huv]
    unfold InvInterp.call
    rw [hf.node _ _ _ f1 hnd' n (v, u) x hn' (by rw [List.getElem?_map, hn]; simp),
      hf.node _ _ _ f2 hnd' n (v, u) y hn' (by rw [List.getElem?_map, hn]; simp)]

/-- C98, cells: every position on the image lies in a cell of the grid, `delta` wide and high, at
the four corners of which the lookup from SE to coadd is exact. -/
theorem C98_cells (fit : Fit) (hf : FitSpec fit) (coaddInv : ℚ → ℚ → ℚ × ℚ) (off : ℚ)
    (se : SEWcs) (nrow ncol delta : Nat) (hd : 0 < delta) (hr : 0 < nrow) (hc : 0 < ncol)
    (toSe toCo : InvInterp)
    (h : getWcsInverse fit coaddInv off se nrow ncol delta = .ok (toSe, toCo))
    (x y : ℚ) (hxy : OnImage nrow ncol x y) :
    ∃ x0 y0 : ℚ, x0 ≤ x ∧ x ≤ x0 + delta ∧ y0 ≤ y ∧ y ≤ y0 + delta ∧
      ∀ s ∈ [x0, x0 + delta], ∀ t ∈ [y0, y0 + delta],
        toCo.call s t =
          (some (coaddPos coaddInv off se s t).1, some (coaddPos coaddInv off se s t).2) := by
  have hd' : (0 : ℚ) < delta := by exact_mod_cast hd
  have key : ∀ (dim : Nat) (t : ℚ), 0 < dim → -(1/2) ≤ t → t ≤ (dim : ℚ) - 1/2 → ∃ i : Nat,
      i * delta < dim + delta ∧ (i + 1) * delta < dim + delta ∧
      (i : ℚ) * delta - 1/2 ≤ t ∧ t ≤ (i : ℚ) * delta - 1/2 + delta := by
    intro dim t hdim h1 h2
    rcases eq_or_lt_of_le h1 with h0 | h0
    · exact ⟨0, by omega, by omega, by subst h0; norm_num, by subst h0; norm_num⟩
    · have hpos : 0 < (t + 1/2) / delta := div_pos (by linarith) hd'
      have hc1 : 0 < ⌈(t + 1/2) / delta⌉₊ := Nat.ceil_pos.2 hpos
      obtain ⟨i, hi⟩ : ∃ i, ⌈(t + 1/2) / delta⌉₊ = i + 1 := ⟨_, (Nat.succ_pred_eq_of_pos hc1).symm⟩
      have hle := Nat.le_ceil ((t + 1/2) / delta)
      have hlt := Nat.ceil_lt_add_one hpos.le
      rw [hi] at hle hlt
      rw [div_le_iff₀ hd'] at hle
      push_cast at hle hlt
      have hlt' : (i : ℚ) < (t + 1/2) / delta := by linarith
      rw [lt_div_iff₀ hd'] at hlt'
      have h3 : ((i * delta : ℕ) : ℚ) < dim := by push_cast; linarith
      have h4 : i * delta < dim := by exact_mod_cast h3
      exact ⟨i, by omega, by rw [Nat.add_mul]; omega, by linarith, by linarith⟩
  obtain ⟨h1, h2, h3, h4⟩ := hxy
  obtain ⟨i, a1, a2, a3, a4⟩ := key ncol x hc h1 h2
  obtain ⟨j, b1, b2, b3, b4⟩ := key nrow y hr h3 h4
  have hn : ∀ (i' j' : Nat), i' * delta < ncol + delta → j' * delta < nrow + delta → ∀ s t : ℚ,
      s = i' * delta - 1/2 → t = j' * delta - 1/2 → toCo.call s t =
        (some (coaddPos coaddInv off se s t).1, some (coaddPos coaddInv off se s t).2) :=
    fun i' j' hi' hj' s t hs ht =>
      (C98_exact_at_nodes fit hf coaddInv off se nrow ncol delta hd toSe toCo h i' j' hi' hj' s t _ _
        hs ht rfl).1
  refine ⟨i * delta - 1/2, j * delta - 1/2, a3, a4, b3, b4, ?_⟩
  intro s hs t ht
  simp only [List.mem_cons, List.not_mem_nil, or_false] at hs ht
  rcases hs with rfl | rfl <;> rcases ht with rfl | rfl
  · exact hn i j a1 b1 _ _ rfl rfl
  · exact hn i (j + 1) a1 b2 _ _ rfl (by push_cast; ring)
  · exact hn (i + 1) j a2 b1 _ _ (by push_cast; ring) rfl
  · exact hn (i + 1) (j + 1) a2 b2 _ _ (by push_cast; ring) (by push_cast; ring)

theorem some_of_ne_none {o : Option ℚ} (h : ¬ o = none) : ∃ v, o = some v :=
  Option.ne_none_iff_exists'.1 h

/-- C98, NaN: the lookup from SE to coadd is NaN, in both coordinates, exactly outside the
rectangle from the lower edge of the image to the last node; so never on the image. -/
theorem C98_nan_to_coadd (fit : Fit) (hf : FitSpec fit) (coaddInv : ℚ → ℚ → ℚ × ℚ) (off : ℚ)
    (se : SEWcs) (nrow ncol delta : Nat) (hd : 0 < delta) (toSe toCo : InvInterp)
    (h : getWcsInverse fit coaddInv off se nrow ncol delta = .ok (toSe, toCo))
    (rx ry : Nat) (hrx : IsReach ncol delta rx) (hry : IsReach nrow delta ry) (x y : ℚ) :
    (if -(1/2) ≤ x ∧ x ≤ (rx : ℚ) - 1/2 ∧ -(1/2) ≤ y ∧ y ≤ (ry : ℚ) - 1/2 then
        ∃ u v, toCo.call x y = (some u, some v)
      else toCo.call x y = (none, none)) ∧
    (OnImage nrow ncol x y → ∃ u v, toCo.call x y = (some u, some v)) := by
  obtain ⟨k, l, hk, hl, pts, hpts, hnd, f1, f2, f3, f4⟩ := inverse_fits h hd
  cases hrx.unique hl
  cases hry.unique hk
  have n3 := hf.hull _ _ _ f3 (y, x)
  have n4 := hf.hull _ _ _ f4 (y, x)
  rw [hpts, hull_grid] at n3 n4
  have key : (-(1/2) ≤ x ∧ x ≤ ((l * delta : ℕ) : ℚ) - 1/2 ∧ -(1/2) ≤ y ∧ y ≤ ((k * delta : ℕ) : ℚ) - 1/2) →
      ∃ u v, toCo.call x y = (some u, some v) := by
    rintro ⟨h1, h2, h3, h4⟩
    obtain ⟨u, hu⟩ := some_of_ne_none (mt n3.1 (not_not.2 ⟨h3, h4, h1, h2⟩))
    obtain ⟨v, hv⟩ := some_of_ne_none (mt n4.1 (not_not.2 ⟨h3, h4, h1, h2⟩))
    exact ⟨u, v, by unfold InvInterp.call; rw [hu, hv]⟩
  constructor
  · split
    · exact key (by assumption)
    · rename_i hno
      unfold InvInterp.call
      rw [n3.2 (fun hh => hno ⟨hh.2.2.1, hh.2.2.2, hh.1, hh.2.1⟩),
        n4.2 (fun hh => hno ⟨hh.2.2.1, hh.2.2.2, hh.1, hh.2.1⟩)]
  · rintro ⟨h1, h2, h3, h4⟩
    have a1 : (ncol : ℚ) ≤ ((l * delta : ℕ) : ℚ) := by exact_mod_cast hl.2.1
    have a2 : (nrow : ℚ) ≤ ((k * delta : ℕ) : ℚ) := by exact_mod_cast hk.2.1
    exact key ⟨h1, by linarith, h3, by linarith⟩

theorem hull_swap {s : Set (ℚ × ℚ)} {u v : ℚ} :
    (v, u) ∈ convexHull ℚ ((fun p : ℚ × ℚ => (p.2, p.1)) '' s) ↔ (u, v) ∈ convexHull ℚ s := by
  constructor
  · intro h
    have := mem_hull_image h 0 1 1 0 0 0
    simpa [Set.image_image] using this
  · intro h
    have := mem_hull_image h 0 1 1 0 0 0
    simpa using this

/-- C98, NaN: the lookup from coadd to SE is NaN, in both coordinates, exactly outside the convex
hull of the coadd positions of the nodes. -/
theorem C98_nan_to_se (fit : Fit) (hf : FitSpec fit) (coaddInv : ℚ → ℚ → ℚ × ℚ) (off : ℚ)
    (se : SEWcs) (nrow ncol delta : Nat) (hd : 0 < delta) (toSe toCo : InvInterp)
    (h : getWcsInverse fit coaddInv off se nrow ncol delta = .ok (toSe, toCo)) (u v : ℚ) :
    ((u, v) ∉ convexHull ℚ {p | ∃ i j : Nat, i * delta < ncol + delta ∧
      j * delta < nrow + delta ∧ p = coaddPos coaddInv off se (i * delta - 1/2) (j * delta - 1/2)} →
        toSe.call u v = (none, none)) ∧
    ((u, v) ∈ convexHull ℚ {p | ∃ i j : Nat, i * delta < ncol + delta ∧
      j * delta < nrow + delta ∧ p = coaddPos coaddInv off se (i * delta - 1/2) (j * delta - 1/2)} →
        ∃ x y, toSe.call u v = (some x, some y)) := by
  obtain ⟨k, l, hk, hl, pts, hpts, hnd, f1, f2, f3, f4⟩ := inverse_fits h hd
  have hset : {q | q ∈ pts.map fun p => ((coaddPos coaddInv off se p.2 p.1).2,
        (coaddPos coaddInv off se p.2 p.1).1)} =
      (fun p : ℚ × ℚ => (p.2, p.1)) '' {p | ∃ i j : Nat, i * delta < ncol + delta ∧
        j * delta < nrow + delta ∧ p = coaddPos coaddInv off se (i * delta - 1/2) (j * delta - 1/2)} := by
    ext q
    simp only [Set.mem_ofPred_eq, List.mem_map, Set.mem_image]
    constructor
    · rintro ⟨p, hp, rfl⟩
      rw [hpts, mem_gridPts] at hp
      obtain ⟨y, hy, x, hx, rfl⟩ := hp
      obtain ⟨j, hj, rfl⟩ := List.mem_map.1 hy
      obtain ⟨i, hi, rfl⟩ := List.mem_map.1 hx
      rw [List.mem_range] at hi hj
      have b1 : i * delta ≤ l * delta := Nat.mul_le_mul_right _ (by omega)
      have b2 : j * delta ≤ k * delta := Nat.mul_le_mul_right _ (by omega)
      have := hl.2.2
      have := hk.2.2
      exact ⟨_, ⟨i, j, by omega, by omega, rfl⟩, by push_cast; rfl⟩
    · rintro ⟨p, ⟨i, j, hi, hj, rfl⟩, rfl⟩
      refine ⟨((j * delta : ℕ) - 1/2, (i * delta : ℕ) - 1/2), ?_, by push_cast; rfl⟩
      rw [hpts, mem_gridPts]
      exact ⟨_, mem_axis hk ⟨j, Nat.mul_comm _ _⟩ hj, _, mem_axis hl ⟨i, Nat.mul_comm _ _⟩ hi, rfl⟩
  have n1 := hf.hull _ _ _ f1 (v, u)
  have n2 := hf.hull _ _ _ f2 (v, u)
  rw [hset, hull_swap] at n1 n2
  constructor
  · intro hno
    unfold InvInterp.call
    rw [n1.2 hno, n2.2 hno]
  · intro hin
    obtain ⟨x, hx⟩ := some_of_ne_none (mt n1.1 (not_not.2 hin))
    obtain ⟨y, hy⟩ := some_of_ne_none (mt n2.1 (not_not.2 hin))
    exact ⟨x, y, by unfold InvInterp.call; rw [hx, hy]⟩

/-- C98, exactness: when the SE position and the coadd position are related by an invertible affine
map, the lookups exist, and at every position on the image, and on to the last node, the lookup
from SE to coadd returns the coadd position, and the lookup from coadd to SE takes that back; the
latter is NaN at the coadd position of any other SE position. -/
theorem C98_affine_exact (fit : Fit) (hf : FitSpec fit) (coaddInv : ℚ → ℚ → ℚ × ℚ) (off : ℚ)
    (se : SEWcs) (nrow ncol delta : Nat) (hd : 0 < delta) (hr : 0 < nrow) (hc : 0 < ncol)
    (a b c d e f : ℚ) (hdet : a * d - b * c ≠ 0)
    (haff : ∀ x y, coaddPos coaddInv off se x y = (a * x + b * y + e, c * x + d * y + f)) :
    ∃ toSe toCo, getWcsInverse fit coaddInv off se nrow ncol delta = .ok (toSe, toCo) ∧
      (∀ rx ry, IsReach ncol delta rx → IsReach nrow delta ry → ∀ x y : ℚ,
        -(1/2) ≤ x → x ≤ (rx : ℚ) - 1/2 → -(1/2) ≤ y → y ≤ (ry : ℚ) - 1/2 →
        (toCo.call x y = (some (a * x + b * y + e), some (c * x + d * y + f)) ∧
        toSe.call (a * x + b * y + e) (c * x + d * y + f) = (some x, some y))) ∧
      ∀ rx ry, IsReach ncol delta rx → IsReach nrow delta ry → ∀ x y : ℚ,
        ¬ (-(1/2) ≤ x ∧ x ≤ (rx : ℚ) - 1/2 ∧ -(1/2) ≤ y ∧ y ≤ (ry : ℚ) - 1/2) →
        toSe.call (a * x + b * y + e) (c * x + d * y + f) = (none, none) := by
  obtain ⟨k, hk, ek⟩ := mgridAxis_ok nrow hd
  obtain ⟨l, hl, el⟩ := mgridAxis_ok ncol hd
  have hk1 : 1 ≤ k := by
    by_contra h0
    have : k = 0 := by omega
    subst this; have := hk.2.1; omega
  have hl1 : 1 ≤ l := by
    by_contra h0
    have : l = 0 := by omega
    subst this; have := hl.2.1; omega
  set pts := gridPts ((List.range (k + 1)).map (· * delta)) ((List.range (l + 1)).map (· * delta)) with hpts
  have hnd : pts.Nodup := gridPts_nodup (axis_nodup _ _ hd) (axis_nodup _ _ hd)
  have hd' : (delta : ℚ) ≠ 0 := by exact_mod_cast hd.ne'
  have m : ∀ i j : Nat, i ≤ k → j ≤ l → (((i * delta : ℕ) : ℚ) - 1/2, ((j * delta : ℕ) : ℚ) - 1/2) ∈ pts := by
    intro i j hi hj
    rw [hpts, mem_gridPts]
    exact ⟨_, List.mem_map.2 ⟨i, by simp; omega, rfl⟩, _, List.mem_map.2 ⟨j, by simp; omega, rfl⟩, rfl⟩
  have hsp : Spans pts := by
    refine ⟨_, m 0 0 (by omega) (by omega), _, m 1 0 hk1 (by omega), _, m 0 1 (by omega) hl1, ?_⟩
    push_cast
    ring_nf
    exact pow_ne_zero 2 hd'
  have hinj : Function.Injective (fun p : ℚ × ℚ => (c * p.2 + d * p.1 + f, a * p.2 + b * p.1 + e)) := by
    intro p q hpq
    simp only [Prod.mk.injEq] at hpq
    obtain ⟨e1, e2⟩ := hpq
    have h1 : (a * d - b * c) * (p.2 - q.2) = 0 := by linear_combination d * e2 - b * e1
    have h2 : (a * d - b * c) * (p.1 - q.1) = 0 := by linear_combination a * e1 - c * e2
    have h1' := (mul_eq_zero.1 h1).resolve_left hdet
    have h2' := (mul_eq_zero.1 h2).resolve_left hdet
    exact Prod.ext (by linarith) (by linarith)
  have hnd' : (pts.map fun p => (c * p.2 + d * p.1 + f, a * p.2 + b * p.1 + e)).Nodup := hnd.map hinj
  have hsp' : Spans (pts.map fun p => (c * p.2 + d * p.1 + f, a * p.2 + b * p.1 + e)) := by
    refine ⟨_, List.mem_map_of_mem (m 0 0 (by omega) (by omega)), _,
      List.mem_map_of_mem (m 1 0 hk1 (by omega)), _, List.mem_map_of_mem (m 0 1 (by omega) hl1), ?_⟩
    push_cast
    have : ((a * d - b * c) * (delta : ℚ) ^ 2) ≠ 0 := mul_ne_zero hdet (pow_ne_zero 2 hd')
    intro h0
    apply this
    linear_combination h0
  obtain ⟨toSe, hSe⟩ := make_total (g := Prod.snd) (h := Prod.fst) (pts := pts)
    (u := fun p => a * p.2 + b * p.1 + e) (v := fun p => c * p.2 + d * p.1 + f) hf hnd' hsp'
  obtain ⟨toCo, hCo⟩ := make_total (u := Prod.snd) (v := Prod.fst) (pts := pts)
    (g := fun p => a * p.2 + b * p.1 + e) (h := fun p => c * p.2 + d * p.1 + f) hf
    (by simpa using hnd) (by simpa using hsp)
  obtain ⟨f1, f2⟩ := make_ok hSe
  obtain ⟨f3, f4⟩ := make_ok hCo
  simp only [Prod.mk.eta, List.map_id'] at f3 f4
  have ix : ∀ x y : ℚ, (b * f - d * e) / (a * d - b * c) + -b / (a * d - b * c) * (c * x + d * y + f) +
      d / (a * d - b * c) * (a * x + b * y + e) = x := by
    intro x y
    rw [show (b * f - d * e) / (a * d - b * c) + -b / (a * d - b * c) * (c * x + d * y + f) +
      d / (a * d - b * c) * (a * x + b * y + e) = (a * d - b * c)⁻¹ * ((a * d - b * c) * x) by
        simp only [div_eq_mul_inv]; ring, inv_mul_cancel_left₀ hdet]
  have iy : ∀ x y : ℚ, (c * e - a * f) / (a * d - b * c) + a / (a * d - b * c) * (c * x + d * y + f) +
      -c / (a * d - b * c) * (a * x + b * y + e) = y := by
    intro x y
    rw [show (c * e - a * f) / (a * d - b * c) + a / (a * d - b * c) * (c * x + d * y + f) +
      -c / (a * d - b * c) * (a * x + b * y + e) = (a * d - b * c)⁻¹ * ((a * d - b * c) * y) by
        simp only [div_eq_mul_inv]; ring, inv_mul_cancel_left₀ hdet]
  refine ⟨toSe, toCo, ?_, ?_, ?_⟩
  · rw [getWcsInverse_eq _ _ _ _ _ _ _ _ _ ek el, ← hpts]
    simp only [haff, hSe, hCo, ok_bind]
    rfl
  · intro rx ry hrx hry x y h1 h2 h3 h4
    cases hrx.unique hl
    cases hry.unique hk
    have hin : (y, x) ∈ convexHull ℚ {q | q ∈ pts} := by
      rw [hpts, hull_grid]; exact ⟨h3, h4, h1, h2⟩
    have hin' : (c * x + d * y + f, a * x + b * y + e) ∈ convexHull ℚ
        {q | q ∈ pts.map fun p => (c * p.2 + d * p.1 + f, a * p.2 + b * p.1 + e)} := by
      have hs : {q | q ∈ pts.map fun p => (c * p.2 + d * p.1 + f, a * p.2 + b * p.1 + e)} =
          (fun q : ℚ × ℚ => (d * q.1 + c * q.2 + f, b * q.1 + a * q.2 + e)) '' {q | q ∈ pts} := by
        ext q
        simp only [Set.mem_ofPred_eq, List.mem_map, Set.mem_image]
        constructor
        · rintro ⟨p, hp, rfl⟩
          exact ⟨p, hp, by simp only [Prod.mk.injEq]; constructor <;> ring⟩
        · rintro ⟨p, hp, rfl⟩
          exact ⟨p, hp, by simp only [Prod.mk.injEq]; constructor <;> ring⟩
      rw [hs]
      have := mem_hull_image hin d c b a f e
      have e1 : (c * x + d * y + f, a * x + b * y + e) = (d * y + c * x + f, b * y + a * x + e) := by
        simp only [Prod.mk.injEq]; constructor <;> ring
      rw [e1]
      exact this
    have tab : ∀ (g w : ℚ × ℚ → ℚ) (F : ℚ × ℚ → ℚ × ℚ), (∀ p, w p = g (F p)) → ∀ (i : Nat) p v,
        (pts.map F)[i]? = some p → (pts.map w)[i]? = some v → v = g p := by
      intro g w F hw i p v hp hv
      rw [List.getElem?_map] at hp hv
      cases hi : pts[i]? with
      | none => rw [hi] at hp; cases hp
      | some q =>
        rw [hi] at hp hv
        simp only [Option.map_some, Option.some.injEq] at hp hv
        rw [← hp, ← hv, hw]
    have tab' : ∀ (g w : ℚ × ℚ → ℚ), (∀ p, w p = g p) → ∀ (i : Nat) p v,
        pts[i]? = some p → (pts.map w)[i]? = some v → v = g p := by
      intro g w hw i p v hp hv
      exact tab g w id hw i p v (by simpa using hp) hv
    constructor
    · unfold InvInterp.call
      rw [hf.affine _ _ _ f3 e b a (tab' (fun p => e + b * p.1 + a * p.2) _ (fun p => by ring))
          (by simp) _ hin,
        hf.affine _ _ _ f4 f d c (tab' (fun p => f + d * p.1 + c * p.2) _ (fun p => by ring))
          (by simp) _ hin]
      simp only [Prod.mk.injEq, Option.some.injEq]
      constructor <;> ring
    · unfold InvInterp.call
      rw [hf.affine _ _ _ f1 ((b * f - d * e) / (a * d - b * c)) (-b / (a * d - b * c)) (d / (a * d - b * c))
          (tab (fun p => (b * f - d * e) / (a * d - b * c) + -b / (a * d - b * c) * p.1 +
            d / (a * d - b * c) * p.2) _ _ (fun p => (ix p.2 p.1).symm)) (by simp) _ hin',
        hf.affine _ _ _ f2 ((c * e - a * f) / (a * d - b * c)) (a / (a * d - b * c)) (-c / (a * d - b * c))
          (tab (fun p => (c * e - a * f) / (a * d - b * c) + a / (a * d - b * c) * p.1 +
            -c / (a * d - b * c) * p.2) _ _ (fun p => (iy p.2 p.1).symm)) (by simp) _ hin']
      rw [ix, iy]
  · intro rx ry hrx hry x y hno
    cases hrx.unique hl
    cases hry.unique hk
    have hout : (c * x + d * y + f, a * x + b * y + e) ∉ convexHull ℚ
        {q | q ∈ pts.map fun p => (c * p.2 + d * p.1 + f, a * p.2 + b * p.1 + e)} := by
      intro hin
      have := mem_hull_image hin (a / (a * d - b * c)) (-c / (a * d - b * c)) (-b / (a * d - b * c))
        (d / (a * d - b * c)) ((c * e - a * f) / (a * d - b * c)) ((b * f - d * e) / (a * d - b * c))
      have e1 : (fun q : ℚ × ℚ => (a / (a * d - b * c) * q.1 + -c / (a * d - b * c) * q.2 +
          (c * e - a * f) / (a * d - b * c), -b / (a * d - b * c) * q.1 + d / (a * d - b * c) * q.2 +
          (b * f - d * e) / (a * d - b * c))) '' {q | q ∈ pts.map fun p =>
            (c * p.2 + d * p.1 + f, a * p.2 + b * p.1 + e)} = {q | q ∈ pts} := by
        have e2 : ∀ p : ℚ × ℚ, (a / (a * d - b * c) * (c * p.2 + d * p.1 + f) +
            -c / (a * d - b * c) * (a * p.2 + b * p.1 + e) + (c * e - a * f) / (a * d - b * c),
            -b / (a * d - b * c) * (c * p.2 + d * p.1 + f) + d / (a * d - b * c) * (a * p.2 + b * p.1 + e) +
            (b * f - d * e) / (a * d - b * c)) = p := by
          intro p
          refine Prod.ext ?_ ?_
          · exact (by ring : _ = _).trans (iy p.2 p.1)
          · exact (by ring : _ = _).trans (ix p.2 p.1)
        ext q
        simp only [Set.mem_ofPred_eq, List.mem_map, Set.mem_image]
        constructor
        · rintro ⟨_, ⟨p, hp, rfl⟩, rfl⟩
          rw [e2]; exact hp
        · intro hq
          exact ⟨_, ⟨q, hq, rfl⟩, e2 q⟩
      rw [e1, hpts, hull_grid] at this
      simp only at this
      rw [(by ring : a / (a * d - b * c) * (c * x + d * y + f) + -c / (a * d - b * c) * (a * x + b * y + e) +
          (c * e - a * f) / (a * d - b * c) = (c * e - a * f) / (a * d - b * c) +
          a / (a * d - b * c) * (c * x + d * y + f) + -c / (a * d - b * c) * (a * x + b * y + e)), iy,
        (by ring : -b / (a * d - b * c) * (c * x + d * y + f) + d / (a * d - b * c) * (a * x + b * y + e) +
          (b * f - d * e) / (a * d - b * c) = (b * f - d * e) / (a * d - b * c) +
          -b / (a * d - b * c) * (c * x + d * y + f) + d / (a * d - b * c) * (a * x + b * y + e)), ix] at this
      exact hno ⟨this.2.2.1, this.2.2.2, this.1, this.2.1⟩
    unfold InvInterp.call
    rw [(hf.hull _ _ _ f1 _).2 hout, (hf.hull _ _ _ f2 _).2 hout]

/-- C98, step zero: a grid spacing of zero raises an error. -/
theorem C98_zero_step (fit : Fit) (coaddInv : ℚ → ℚ → ℚ × ℚ) (off : ℚ) (se : SEWcs) (nrow ncol : Nat) :
    getWcsInverse fit coaddInv off se nrow ncol 0 = .error .zeroDivision := rfl

/-! ### C99: pixel area lookups -/

/-- What a successful area lookup is. -/
theorem area_ok {spl : Spline} {cel : Bool} {i2s : ℚ → ℚ → ℚ × ℚ} {cosd : ℚ → ℚ}
    {nrow ncol delta : Nat} {off : ℚ} (hd : 0 < delta) :
    ∃ (k l : Nat) (a : Img ℚ), IsReach nrow delta (k * delta) ∧ IsReach ncol delta (l * delta) ∧
      a.nrow = l + 1 ∧ a.ncol = k + 1 ∧
      getWcsAreaInterp spl cel i2s cosd nrow ncol delta off =
        spl (((List.range (l + 1)).map (· * delta)).map fun (n : Nat) => (n : ℚ))
          (((List.range (k + 1)).map (· * delta)).map fun (n : Nat) => (n : ℚ)) a ∧
      ∀ i j, i ≤ l → j ≤ k →
        a.px i j = computeWcsArea cel i2s cosd ((i : ℚ) * delta - 1/2 + off) ((j : ℚ) * delta - 1/2 + off) 1 := by
  obtain ⟨k, hk, ek⟩ := mgridAxis_ok nrow hd
  obtain ⟨l, hl, el⟩ := mgridAxis_ok ncol hd
  obtain ⟨a, h1, h2, h3, h4⟩ := getWcsAreaInterp_eq spl cel i2s cosd nrow ncol delta off _ _ ek el
  refine ⟨k, l, a, hk, hl, by simpa using h1, by simpa using h2, h3, ?_⟩
  intro i j hi hj
  rw [h4 i j _ _ (axis_getElem? hi) (axis_getElem? hj)]
  push_cast
  rfl

/-- C99, refusal: the lookup exists iff the image is more than two grid steps high and wide; an
image that is smaller makes the call raise ValueError. -/
theorem C99_too_coarse (spl : Spline) (hs : SplineSpec spl) (cel : Bool) (i2s : ℚ → ℚ → ℚ × ℚ)
    (cosd : ℚ → ℚ) (nrow ncol delta : Nat) (off : ℚ) (hd : 0 < delta) :
    ((2 * delta < nrow ∧ 2 * delta < ncol) →
      ∃ A, getWcsAreaInterp spl cel i2s cosd nrow ncol delta off = .ok A) ∧
    (¬ (2 * delta < nrow ∧ 2 * delta < ncol) →
      getWcsAreaInterp spl cel i2s cosd nrow ncol delta off = .error .valueError) := by
  obtain ⟨k, l, a, hk, hl, h1, h2, h3, h4⟩ := area_ok (spl := spl) (cel := cel) (i2s := i2s) (cosd := cosd)
    (nrow := nrow) (ncol := ncol) (off := off) hd
  rw [h3, ← four_nodes hk, ← four_nodes hl]
  constructor
  · rintro ⟨q1, q2⟩
    exact hs.total _ _ _ (by simp; omega) (by simp; omega) (axis_cast_pairwise _ _ hd)
      (axis_cast_pairwise _ _ hd) (by simpa using h1) (by simpa using h2)
  · intro hno
    apply hs.small
    simp only [List.length_map, List.length_range]
    omega

/-- C99 as far as it holds: for a WCS that is affine in the plane the area lookup is the pixel
area, everywhere.  (Missing: a WCS with an area that varies over the image, see
`C99_half_pixel_shift` and `C99_area_fails`.) -/
theorem C99_constant_area_partial (spl : Spline) (hs : SplineSpec spl) (i2s : ℚ → ℚ → ℚ × ℚ)
    (cosd : ℚ → ℚ) (nrow ncol delta : Nat) (off : ℚ) (hd : 0 < delta) (hr : 2 * delta < nrow)
    (hc : 2 * delta < ncol) (a b c d e f : ℚ)
    (haff : ∀ x y, i2s x y = (a * x + b * y + e, c * x + d * y + f)) :
    ∃ A, getWcsAreaInterp spl false i2s cosd nrow ncol delta off = .ok A ∧
      ∀ x y, A x y = |a * d - b * c| := by
  obtain ⟨A, hA⟩ := (C99_too_coarse spl hs false i2s cosd nrow ncol delta off hd).1 ⟨hr, hc⟩
  refine ⟨A, hA, fun x y => ?_⟩
  obtain ⟨k, l, im, hk, hl, h1, h2, h3, h4⟩ := area_ok (spl := spl) (cel := false) (i2s := i2s)
    (cosd := cosd) (nrow := nrow) (ncol := ncol) (off := off) hd
  rw [h3] at hA
  have hconst : ∀ x y, computeWcsArea false i2s cosd x y 1 = |a * d - b * c| := by
    intro x y
    simp only [computeWcsArea, haff, Bool.false_eq_true, if_false]
    congr 1
    ring
  obtain ⟨x', y', he, hx', hy'⟩ := hs.outside _ _ _ _ hA x y
  rw [he, hs.bilinear _ _ _ _ hA |a * d - b * c| 0 0 0 ?_ x' y' hx' hy']
  · ring
  · intro i j x y hx hy
    rw [List.getElem?_map] at hx hy
    have hi : i ≤ l := by
      by_contra hc
      rw [List.getElem?_eq_none (by simp; omega)] at hx; cases hx
    have hj : j ≤ k := by
      by_contra hc
      rw [List.getElem?_eq_none (by simp; omega)] at hy; cases hy
    rw [h4 i j hi hj, hconst]
    ring

/-- Finding: the lookup holds the areas half a pixel to the lower left of where it is asked.  At
every node its value is the pixel area at the node minus one half in both coordinates; and if the
pixel area is a bilinear function of the position, the lookup at any position up to the last node
is the pixel area half a pixel to the lower left. -/
theorem C99_half_pixel_shift (spl : Spline) (hs : SplineSpec spl) (cel : Bool) (i2s : ℚ → ℚ → ℚ × ℚ)
    (cosd : ℚ → ℚ) (nrow ncol delta : Nat) (off : ℚ) (hd : 0 < delta) (A : ℚ → ℚ → ℚ)
    (h : getWcsAreaInterp spl cel i2s cosd nrow ncol delta off = .ok A) :
    (∀ i j : Nat, i * delta < ncol + delta → j * delta < nrow + delta →
      A (i * delta) (j * delta) =
        computeWcsArea cel i2s cosd (i * delta - 1/2 + off) (j * delta - 1/2 + off) 1) ∧
    (∀ p q r s : ℚ, (∀ x y, computeWcsArea cel i2s cosd (x + off) (y + off) 1 =
        p + q * x + r * y + s * x * y) →
      ∀ rx ry, IsReach ncol delta rx → IsReach nrow delta ry →
      ∀ x y : ℚ, 0 ≤ x → x ≤ rx → 0 ≤ y → y ≤ ry →
        A x y = computeWcsArea cel i2s cosd (x - 1/2 + off) (y - 1/2 + off) 1) := by
  obtain ⟨k, l, im, hk, hl, h1, h2, h3, h4⟩ := area_ok (spl := spl) (cel := cel) (i2s := i2s)
    (cosd := cosd) (nrow := nrow) (ncol := ncol) (off := off) hd
  rw [h3] at h
  constructor
  · intro i j hi hj
    have hi' : i ≤ l := by
      by_contra hc
      have : (l + 1) * delta ≤ i * delta := Nat.mul_le_mul_right _ (by omega)
      rw [Nat.add_mul] at this
      have := hl.2.1; omega
    have hj' : j ≤ k := by
      by_contra hc
      have : (k + 1) * delta ≤ j * delta := Nat.mul_le_mul_right _ (by omega)
      rw [Nat.add_mul] at this
      have := hk.2.1; omega
    have hx : (((List.range (l + 1)).map (· * delta)).map fun (n : Nat) => (n : ℚ))[i]? =
        some ((i : ℚ) * delta) := by
      rw [List.getElem?_map, axis_getElem? hi']; simp
    have hy : (((List.range (k + 1)).map (· * delta)).map fun (n : Nat) => (n : ℚ))[j]? =
        some ((j : ℚ) * delta) := by
      rw [List.getElem?_map, axis_getElem? hj']; simp
    rw [hs.node _ _ _ _ h i j _ _ hx hy, h4 i j hi' hj']
  · intro p q r s hb rx ry hrx hry x y hx0 hx1 hy0 hy1
    cases hrx.unique hl
    cases hry.unique hk
    have hmem : ∀ m : Nat, (0 : ℚ) ∈ ((List.range (m + 1)).map (· * delta)).map (fun (n : Nat) => (n : ℚ)) ∧
        ((m * delta : ℕ) : ℚ) ∈ ((List.range (m + 1)).map (· * delta)).map (fun (n : Nat) => (n : ℚ)) := by
      intro m
      constructor
      · exact List.mem_map.2 ⟨0, List.mem_map.2 ⟨0, by simp, by simp⟩, by simp⟩
      · exact List.mem_map.2 ⟨m * delta, List.mem_map.2 ⟨m, by simp, rfl⟩, rfl⟩
    rw [hb (x - 1/2) (y - 1/2),
      hs.bilinear _ _ _ _ h (p - q / 2 - r / 2 + s / 4) (q - s / 2) (r - s / 2) s ?_ x y
        ⟨_, (hmem l).1, _, (hmem l).2, hx0, hx1⟩ ⟨_, (hmem k).1, _, (hmem k).2, hy0, hy1⟩]
    · ring
    · intro i j x y hx hy
      rw [List.getElem?_map] at hx hy
      have hi : i ≤ l := by
        by_contra hc
        rw [List.getElem?_eq_none (by simp; omega)] at hx; cases hx
      have hj : j ≤ k := by
        by_contra hc
        rw [List.getElem?_eq_none (by simp; omega)] at hy; cases hy
      rw [axis_getElem? hi] at hx
      rw [axis_getElem? hj] at hy
      simp only [Option.map_some, Option.some.injEq] at hx hy
      rw [h4 i j hi hj, hb, ← hx, ← hy]
      push_cast
      ring

/-! ### C100: resampling between affine WCSs -/

theorem lanczosSum_const_area (a : Img ℚ) (k : ℚ) (n : Nat) (h : a.nrow = n ∧ a.ncol = n) (y x : ℚ) :
    lanczosSum (perArea a (fun _ _ => k) n) 3 y x = k⁻¹ * lanczosSum a 3 y x :=
  lanczosSum_scale _ _ _ _ _ h.1.symm h.2.symm fun r c => by
    simp only [perArea, div_eq_mul_inv, mul_comm]

/-- An SE image with an affine WCS resampled to a grid with an affine WCS (specification). -/
def affineWcs (A B : AffineWCS) (so co : ℚ) (seRow seCol coRow coCol : Nat) (cosd : ℚ → ℚ) : ResampleWcs where
  se := ⟨A.image2sky, A.sky2image, so⟩
  seCelestial := false
  seRow := seRow
  seCol := seCol
  coaddFwd := B.image2sky
  coaddInv := B.sky2image
  coaddCelestial := false
  coaddOff := co
  coaddRow := coRow
  coaddCol := coCol
  cosd := cosd

/-- The position in the SE image of the zero-indexed coadd position `(u, v)` (specification). -/
def sePos (A B : AffineWCS) (so co u v : ℚ) : ℚ × ℚ :=
  ((A.sky2image (B.image2sky (u + co) (v + co)).1 (B.image2sky (u + co) (v + co)).2).1 - so,
   (A.sky2image (B.image2sky (u + co) (v + co)).1 (B.image2sky (u + co) (v + co)).2).2 - so)

/-- The coadd position is an invertible affine function of the SE position. -/
theorem affine_comp {a b c d x0 y0 a' b' c' d' x0' y0' : ℚ} {A B : AffineWCS}
    (hA : AffineWCS.mk' a b c d x0 y0 = .ok A) (hB : AffineWCS.mk' a' b' c' d' x0' y0' = .ok B)
    (so co : ℚ) : ∃ m n p q e f : ℚ, m * q - n * p ≠ 0 ∧
      ∀ x y, coaddPos B.sky2image co ⟨A.image2sky, A.sky2image, so⟩ x y =
        (m * x + n * y + e, p * x + q * y + f) := by
  have hdA : a * d - c * b ≠ 0 := by
    intro h; simp [AffineWCS.mk', h] at hA
  have hdB : a' * d' - c' * b' ≠ 0 := by
    intro h; simp [AffineWCS.mk', h] at hB
  simp only [AffineWCS.mk', hdA, hdB, if_false, Except.ok.injEq] at hA hB
  subst hA hB
  obtain ⟨D, hD⟩ : ∃ D, D = a' * d' - c' * b' := ⟨_, rfl⟩
  rw [← hD] at hdB ⊢
  refine ⟨(d' * a - b' * c) / D, (d' * b - b' * d) / D, (-c' * a + a' * c) / D, (-c' * b + a' * d) / D,
    (d' * (a * (so - x0) + b * (so - y0)) - b' * (c * (so - x0) + d * (so - y0))) / D + x0' - co,
    (-c' * (a * (so - x0) + b * (so - y0)) + a' * (c * (so - x0) + d * (so - y0))) / D + y0' - co, ?_, ?_⟩
  · have : (d' * a - b' * c) / D * ((-c' * b + a' * d) / D) - (d' * b - b' * d) / D * ((-c' * a + a' * c) / D) =
        (a * d - c * b) * (a' * d' - c' * b') * (D⁻¹ * D⁻¹) := by
      simp only [div_eq_mul_inv]; ring
    rw [this, ← hD]
    exact mul_ne_zero (mul_ne_zero hdA hdB) (mul_ne_zero (inv_ne_zero hdB) (inv_ne_zero hdB))
  · intro x y
    simp only [coaddPos, AffineWCS.image2sky, AffineWCS.sky2image, Prod.mk.injEq, div_eq_mul_inv]
    constructor <;> ring

/-- C100, lookups: between affine WCSs the lookups for resampling exist, the areas are the pixel
areas, and the SE position of every coadd position is the one given by the two WCSs wherever that
is on the SE image (and on to the last node), and NaN elsewhere. -/
theorem C100_lookups (fit : Fit) (spl : Spline) (hf : FitSpec fit) (hs : SplineSpec spl)
    (a b c d x0 y0 a' b' c' d' x0' y0' : ℚ) (A B : AffineWCS)
    (hA : AffineWCS.mk' a b c d x0 y0 = .ok A) (hB : AffineWCS.mk' a' b' c' d' x0' y0' = .ok B)
    (so co : ℚ) (seRow seCol coRow coCol : Nat) (cosd : ℚ → ℚ) (seDelta coDelta : Nat)
    (hsd : 0 < seDelta) (hcd : 0 < coDelta) (h1 : 2 * seDelta < seRow) (h2 : 2 * seDelta < seCol)
    (h3 : 2 * coDelta < coRow) (h4 : 2 * coDelta < coCol) :
    ∃ L, buildLookups fit spl (affineWcs A B so co seRow seCol coRow coCol cosd) seDelta coDelta = .ok L ∧
      (∀ x y, L.areaSe x y = |a * d - b * c|) ∧ (∀ x y, L.areaCoadd x y = |a' * d' - b' * c'|) ∧
      ∀ rx ry, IsReach seCol seDelta rx → IsReach seRow seDelta ry → ∀ u v x y : ℚ,
        sePos A B so co u v = (x, y) →
        L.toSe u v = if -(1/2) ≤ x ∧ x ≤ (rx : ℚ) - 1/2 ∧ -(1/2) ≤ y ∧ y ≤ (ry : ℚ) - 1/2
          then some (x, y) else none := by
  obtain ⟨m, n, p, q, e, f, hdet, haff⟩ := affine_comp hA hB so co
  obtain ⟨toSe, toCo, hinv, hin, hout⟩ := C98_affine_exact fit hf B.sky2image co
    ⟨A.image2sky, A.sky2image, so⟩ seRow seCol seDelta hsd (by omega) (by omega) m n p q e f hdet haff
  have hdA : a * d - c * b ≠ 0 := by
    intro h; simp [AffineWCS.mk', h] at hA
  have hdB : a' * d' - c' * b' ≠ 0 := by
    intro h; simp [AffineWCS.mk', h] at hB
  obtain ⟨-, rA, -⟩ := C03_affine_roundtrip a b c d x0 y0 A hA
  obtain ⟨rB, -⟩ := C03_affine_roundtrip a' b' c' d' x0' y0' B hB
  have eA : A = ⟨a, b, c, d, x0, y0, a * d - c * b⟩ := by
    simpa [AffineWCS.mk', hdA] using hA.symm
  have eB : B = ⟨a', b', c', d', x0', y0', a' * d' - c' * b'⟩ := by
    simpa [AffineWCS.mk', hdB] using hB.symm
  obtain ⟨aSe, haSe, hcSe⟩ := C99_constant_area_partial spl hs
    (SEWcs.fwd0 ⟨A.image2sky, A.sky2image, so⟩) cosd seRow seCol seDelta 0 hsd h1 h2 a b c d
    (a * (so - x0) + b * (so - y0)) (c * (so - x0) + d * (so - y0)) (by
      intro x y
      simp only [SEWcs.fwd0, AffineWCS.image2sky, eA, Prod.mk.injEq]
      constructor <;> ring)
  obtain ⟨aCo, haCo, hcCo⟩ := C99_constant_area_partial spl hs B.image2sky cosd coRow coCol coDelta co hcd
    h3 h4 a' b' c' d' (-(a' * x0' + b' * y0')) (-(c' * x0' + d' * y0')) (by
      intro x y
      simp only [AffineWCS.image2sky, eB, Prod.mk.injEq]
      constructor <;> ring)
  refine ⟨⟨fun x y => pairUp (toSe.call x y), aSe, aCo⟩, ?_, hcSe, hcCo, ?_⟩
  · simp only [buildLookups, affineWcs, hinv, haSe, haCo, ok_bind]
    rfl
  · intro rx ry hrx hry u v x y hxy
    have huv : (m * x + n * y + e, p * x + q * y + f) = (u, v) := by
      rw [← haff x y]
      simp only [sePos, Prod.mk.injEq] at hxy
      obtain ⟨rfl, rfl⟩ := hxy
      simp only [coaddPos, sub_add_cancel]
      rw [rA, rB]
      simp
    simp only [Prod.mk.injEq] at huv
    obtain ⟨rfl, rfl⟩ := huv
    split
    · rename_i hr
      simp only [(hin rx ry hrx hry x y hr.1 hr.2.1 hr.2.2.1 hr.2.2.2).2, pairUp]
    · rename_i hr
      simp only [hout rx ry hrx hry x y hr, pairUp]

/-- C100: an SE image with an affine WCS resampled to a grid with an affine WCS.  At every
destination pixel, with `(x, y)` its true position in the SE image: if that is on the SE image
then the resampled image, noises, interp-only image and interp fraction are the ratio of the pixel
areas times the Lanczos interpolation of the slice at `(x, y)`; if it is beyond the grid of the
lookup, which is never the case on the SE image, they are zero and the pixel is flagged EDGE. -/
theorem C100_affine_resample (fit : Fit) (spl : Spline) (hf : FitSpec fit) (hs : SplineSpec spl)
    (a b c d x0 y0 a' b' c' d' x0' y0' : ℚ) (A B : AffineWCS)
    (hA : AffineWCS.mk' a b c d x0 y0 = .ok A) (hB : AffineWCS.mk' a' b' c' d' x0' y0' = .ok B)
    (so co : ℚ) (seRow seCol coRow coCol : Nat) (cosd : ℚ → ℚ) (seDelta coDelta : Nat)
    (hsd : 0 < seDelta) (hcd : 0 < coDelta) (h1 : 2 * seDelta < seRow) (h2 : 2 * seDelta < seCol)
    (h3 : 2 * coDelta < coRow) (h4 : 2 * coDelta < coCol) (L : Lookups)
    (hL : buildLookups fit spl (affineWcs A B so co seRow seCol coRow coCol cosd) seDelta coDelta = .ok L)
    (o : SEObj) (xs ys : ℚ) (box : Nat) (px py : ℚ) (pb : Nat) (out : Resampling)
    (h : o.resample L xs ys box px py pb = .ok out) (image iom frac : Img ℚ) (noises : List (Img ℚ))
    (sx sy : ℤ) (him : o.image = some image) (hiom : o.interpOnlyImage = some iom)
    (hfrac : o.interpFrac = some frac) (hno : o.noises = some noises) (hx : o.xStart = some sx)
    (hy : o.yStart = some sy) (r cl : Nat) (hr : r < box) (hc : cl < box) (x y : ℚ)
    (hxy : sePos A B so co (cl + xs) (r + ys) = (x, y)) :
    (OnImage seRow seCol x y → ∀ src dst : Img ℚ,
      (src = image ∧ dst = out.image ∨ src = iom ∧ dst = out.interpOnlyImage ∨
        src = frac ∧ dst = out.interpFrac ∨ ∃ k : Nat, noises[k]? = some src ∧ out.noises[k]? = some dst) →
      ∀ v e, Resampled src 3 (y - sy) (x - sx) v e →
        dst.px r cl = |a' * d' - b' * c'| / |a * d - b * c| * v) ∧
    (x < -(1/2) ∨ (seCol : ℚ) + seDelta - 1/2 ≤ x ∨ y < -(1/2) ∨ (seRow : ℚ) + seDelta - 1/2 ≤ y →
      (∀ dst : Img ℚ, (dst = out.image ∨ dst = out.interpOnlyImage ∨ dst = out.interpFrac ∨
        dst ∈ out.noises) → dst.px r cl = 0) ∧
      (out.bmask.px r cl).getLsbD 29 = true ∧ (out.pmask.px r cl).getLsbD 29 = true) := by
  obtain ⟨L', hL', haSe, haCo, hto⟩ := C100_lookups fit spl hf hs a b c d x0 y0 a' b' c' d' x0' y0' A B hA hB
    so co seRow seCol coRow coCol cosd seDelta coDelta hsd hcd h1 h2 h3 h4
  cases hL.symm.trans hL'
  obtain ⟨k, hk, -⟩ := mgridAxis_ok seRow hsd
  obtain ⟨l, hl, -⟩ := mgridAxis_ok seCol hsd
  have hto' := hto _ _ hl hk (cl + xs) (r + ys) x y hxy
  obtain ⟨sb', sx', sy', image', iom', frac', noises', bm', pm', F⟩ := resample_facts h
  cases hx.symm.trans F.hx; cases hy.symm.trans F.hy; cases him.symm.trans F.himage
  cases hiom.symm.trans F.hiom; cases hfrac.symm.trans F.hfrac; cases hno.symm.trans F.hnoises
  obtain ⟨e1, e2, e3, e4, e5, e6, -⟩ := F.px r hr cl hc
  have q1 : (seCol : ℚ) ≤ ((l * seDelta : ℕ) : ℚ) := by exact_mod_cast hl.2.1
  have q2 : (seRow : ℚ) ≤ ((k * seDelta : ℕ) : ℚ) := by exact_mod_cast hk.2.1
  have q3 : ((l * seDelta : ℕ) : ℚ) < (seCol : ℚ) + seDelta := by exact_mod_cast hl.2.2
  have q4 : ((k * seDelta : ℕ) : ℚ) < (seRow : ℚ) + seDelta := by exact_mod_cast hk.2.2
  constructor
  · rintro ⟨b1, b2, b3, b4⟩
    rw [if_pos ⟨b1, by linarith, b3, by linarith⟩] at hto'
    have hp : localPos L xs ys sx sy r cl = some (y - sy, x - sx) := by
      simp only [localPos, hto', Option.map_some]
    rw [hp] at e1 e3 e4
    have key : ∀ src : Img ℚ, src.nrow = sb'.toNat ∧ src.ncol = sb'.toNat → ∀ v e,
        Resampled src 3 (y - sy) (x - sx) v e →
        (lanczosAt (perArea src (fun r c => L.areaSe ((c : ℚ) + sx) ((r : ℚ) + sy)) sb'.toNat)
          (some (y - sy, x - sx))).1 * L.areaCoadd ((cl : ℚ) + xs) ((r : ℚ) + ys) =
        |a' * d' - b' * c'| / |a * d - b * c| * v := by
      intro src hsrc v e hv
      obtain ⟨-, hv, -⟩ := (resampled_iff _ _ _ _ _ _).1 hv
      simp only [haSe, haCo, lanczosAt]
      rw [lanczosSum_const_area src _ _ hsrc, ← hv, div_eq_mul_inv]
      ring
    intro src dst hsd' v e hv
    rcases hsd' with ⟨rfl, rfl⟩ | ⟨rfl, rfl⟩ | ⟨rfl, rfl⟩ | ⟨i, hi, hi'⟩
    · rw [e1]; exact key _ F.shape v e hv
    · rw [e3]; exact key _ F.shapeIom v e hv
    · rw [e4]; exact key _ F.shapeFrac v e hv
    · obtain ⟨s1, s2, -, -, hn⟩ := F.noisePx i src dst hi hi'
      rw [hn r hr cl hc, hp]
      exact key _ ⟨s1, s2⟩ v e hv
  · intro hfar
    rw [if_neg (by rintro ⟨b1, b2, b3, b4⟩; rcases hfar with g | g | g | g <;> linarith)] at hto'
    have hp : localPos L xs ys sx sy r cl = none := by
      simp only [localPos, hto', Option.map_none]
    rw [hp] at e1 e3 e4 e5 e6
    have nv : ∀ (a : Img (BitVec 32)) (n m : Nat), nearVal a none n m = BMASK_EDGE := by
      intro a n m; simp [nearVal, nearIn, truncInt64]
    refine ⟨?_, ?_, ?_⟩
    · rintro dst (rfl | rfl | rfl | hmem)
      · rw [e1]; simp [lanczosAt]
      · rw [e3]; simp [lanczosAt]
      · rw [e4]; simp [lanczosAt]
      · obtain ⟨i, hi⟩ := List.getElem?_of_mem hmem
        have hlt : i < noises.length := by
          rw [← F.lenNoises]; exact (List.getElem?_eq_some_iff.1 hi).1
        obtain ⟨-, -, -, -, hn⟩ := F.noisePx i _ dst (List.getElem?_eq_getElem hlt) hi
        rw [hn r hr cl hc, hp]
        simp [lanczosAt]
    · rw [e5, nv]; decide
    · rw [e6, nv]; split <;> decide

/-- C100, PSF: between affine WCSs, when all pixels of the destination stamp are on the SE image,
the resampled PSF is proportional to the Lanczos interpolation of the PSF image at their true SE
positions; the pixel areas drop out.  If the interpolated values do not sum to zero, the result
sums to one. -/
theorem C100_affine_psf (fit : Fit) (spl : Spline) (hf : FitSpec fit) (hs : SplineSpec spl)
    (a b c d x0 y0 a' b' c' d' x0' y0' : ℚ) (A B : AffineWCS)
    (hA : AffineWCS.mk' a b c d x0 y0 = .ok A) (hB : AffineWCS.mk' a' b' c' d' x0' y0' = .ok B)
    (so co : ℚ) (seRow seCol coRow coCol : Nat) (cosd : ℚ → ℚ) (seDelta coDelta : Nat)
    (hsd : 0 < seDelta) (hcd : 0 < coDelta) (h1 : 2 * seDelta < seRow) (h2 : 2 * seDelta < seCol)
    (h3 : 2 * coDelta < coRow) (h4 : 2 * coDelta < coCol) (L : Lookups)
    (hL : buildLookups fit spl (affineWcs A B so co seRow seCol coRow coCol cosd) seDelta coDelta = .ok L)
    (o : SEObj) (px py : ℚ) (pb : Nat) (dx dy : ℚ) (out psf : Img ℚ) (sx sy : ℤ) (n : Nat)
    (h : o.resamplePsf L px py pb dx dy = .ok out) (hpsf : o.psf = some psf)
    (hx : o.psfXStart = some sx) (hy : o.psfYStart = some sy) (hn : o.psfBoxSize = some n) (hn0 : 0 < n)
    (V : Nat → Nat → ℚ)
    (hV : ∀ r < pb, ∀ cl < pb, ∀ x y, sePos A B so co (cl + px) (r + py) = (x, y) →
      OnImage seRow seCol x y ∧ ∃ e, Resampled psf 3 (y - sy + dy) (x - sx + dx) (V r cl) e)
    (hsum : (∑ r ∈ Finset.range pb, ∑ c ∈ Finset.range pb, V r c) ≠ 0) :
    (∑ r ∈ Finset.range pb, ∑ c ∈ Finset.range pb, out.px r c) = 1 ∧
    ∀ r < pb, ∀ c < pb, out.px r c * (∑ r ∈ Finset.range pb, ∑ c ∈ Finset.range pb, V r c) = V r c := by
  obtain ⟨L', hL', haSe, haCo, hto⟩ := C100_lookups fit spl hf hs a b c d x0 y0 a' b' c' d' x0' y0' A B hA hB
    so co seRow seCol coRow coCol cosd seDelta coDelta hsd hcd h1 h2 h3 h4
  cases hL.symm.trans hL'
  have hdA : |a * d - b * c| ≠ 0 := by
    rw [abs_ne_zero]
    intro h
    have : a * d - c * b = 0 := by rw [← h]; ring
    simp [AffineWCS.mk', this] at hA
  have hdB : |a' * d' - b' * c'| ≠ 0 := by
    rw [abs_ne_zero]
    intro h
    have : a' * d' - c' * b' = 0 := by rw [← h]; ring
    simp [AffineWCS.mk', this] at hB
  obtain ⟨k, hk, -⟩ := mgridAxis_ok seRow hsd
  obtain ⟨l, hl, -⟩ := mgridAxis_ok seCol hsd
  have q1 : (seCol : ℚ) ≤ ((l * seDelta : ℕ) : ℚ) := by exact_mod_cast hl.2.1
  have q2 : (seRow : ℚ) ≤ ((k * seDelta : ℕ) : ℚ) := by exact_mod_cast hk.2.1
  obtain ⟨psf', sx', sy', n', p1, p2, p3, p4, s1, s2, -⟩ := resamplePsf_ok h
  cases hpsf.symm.trans p1; cases hx.symm.trans p2; cases hy.symm.trans p3; cases hn.symm.trans p4
  obtain ⟨-, -, raw, hraw, hnorm⟩ := C44_psf_normalised o L px py pb dx dy out psf sx sy n h hpsf hx hy hn hn0
  have hr : ∀ r < pb, ∀ cl < pb, raw r cl = |a' * d' - b' * c'| / |a * d - b * c| * V r cl := by
    intro r hr cl hc
    obtain ⟨⟨b1, b2, b3, b4⟩, e, hv⟩ := hV r hr cl hc _ _ rfl
    have hto' := hto _ _ hl hk (cl + px) (r + py) _ _ rfl
    rw [if_pos ⟨b1, by linarith, b3, by linarith⟩] at hto'
    obtain ⟨-, hv', -⟩ := (resampled_iff _ _ _ _ _ _).1 hv
    rw [((hraw r hr cl hc).2 _ _ hto').1 (|a * d - b * c|⁻¹ * V r cl) _
      ((resampled_iff _ _ _ _ _ _).2 ⟨le_rfl, ?_, rfl⟩), haCo, div_eq_mul_inv]
    · ring
    · rw [hv']
      simp only [haSe]
      exact (lanczosSum_const_area psf _ _ ⟨s1, s2⟩ _ _).symm
  have hsumr : (∑ r ∈ Finset.range pb, ∑ c ∈ Finset.range pb, raw r c) =
      |a' * d' - b' * c'| / |a * d - b * c| * ∑ r ∈ Finset.range pb, ∑ c ∈ Finset.range pb, V r c := by
    rw [Finset.mul_sum]
    refine Finset.sum_congr rfl fun r hr' => ?_
    rw [Finset.mul_sum]
    exact Finset.sum_congr rfl fun cl hc' => hr r (Finset.mem_range.1 hr') cl (Finset.mem_range.1 hc')
  have hk0 : |a' * d' - b' * c'| / |a * d - b * c| ≠ 0 := div_ne_zero hdB hdA
  obtain ⟨m1, m2⟩ := hnorm (by rw [hsumr]; exact mul_ne_zero hk0 hsum)
  refine ⟨m1, fun r hr' cl hc' => ?_⟩
  have := m2 r hr' cl hc'
  rw [hsumr, hr r hr' cl hc'] at this
  apply mul_left_cancel₀ hk0
  rw [← this]
  ring

end Pizza
