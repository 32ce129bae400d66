import Verif.Spec.WcsGrid
import Verif.Lemmas.SEObject
import Mathlib.Analysis.Convex.Combination
import Mathlib.Tactic.Linarith
import Mathlib.Tactic.Ring
import Mathlib.Tactic.FieldSimp

/-! Lemmas on the lookup grids. -/

namespace Pizza

theorem mgridAxis_ok (dim : Nat) {delta : Nat} (h : 0 < delta) :
    ∃ k : Nat, IsReach dim delta (k * delta) ∧
      mgridAxis dim delta = .ok ((List.range (k + 1)).map (· * delta)) := by
  have hd : (0 : ℚ) < delta := by exact_mod_cast h
  refine ⟨(dim + (delta - 1)) / delta, ⟨⟨_, Nat.mul_comm _ _⟩, ?_, ?_⟩, ?_⟩
  · have h1 := Nat.div_add_mod (dim + (delta - 1)) delta
    have h2 := Nat.mod_lt (dim + (delta - 1)) h
    rw [Nat.mul_comm] at h1
    omega
  · have h1 := Nat.div_mul_le_self (dim + (delta - 1)) delta
    omega
  · unfold mgridAxis
    rw [if_neg (by omega)]
    have : ⌈((dim : ℚ) + delta) / delta⌉ = (((dim + (delta - 1)) / delta + 1 : ℕ) : ℤ) := by
      rw [Int.ceil_eq_iff]
      have h1 := Nat.div_add_mod (dim + (delta - 1)) delta
      have h2 := Nat.mod_lt (dim + (delta - 1)) h
      set k := (dim + (delta - 1)) / delta
      set m := (dim + (delta - 1)) % delta
      have h3 : (delta : ℚ) * k + m + 1 = dim + delta := by
        have : delta * k + m + 1 = dim + delta := by omega
        exact_mod_cast this
      have h4 : (m : ℚ) + 1 ≤ delta := by exact_mod_cast h2
      have h5 : (0 : ℚ) ≤ m := Nat.cast_nonneg m
      constructor
      · rw [lt_div_iff₀ hd]; push_cast; nlinarith
      · rw [div_le_iff₀ hd]; push_cast; nlinarith
    rw [this, Int.toNat_natCast]

theorem mem_gridPts {ys xs : List Nat} {p : ℚ × ℚ} :
    p ∈ gridPts ys xs ↔ ∃ y ∈ ys, ∃ x ∈ xs, p = ((y : ℚ) - 1/2, (x : ℚ) - 1/2) := by
  unfold gridPts
  simp only [List.mem_flatMap, List.mem_map]
  constructor
  · rintro ⟨y, hy, x, hx, rfl⟩; exact ⟨y, hy, x, hx, rfl⟩
  · rintro ⟨y, hy, x, hx, rfl⟩; exact ⟨y, hy, x, hx, rfl⟩

theorem gridPts_nodup {ys xs : List Nat} (hy : ys.Nodup) (hx : xs.Nodup) : (gridPts ys xs).Nodup := by
  unfold gridPts
  rw [List.nodup_flatMap]
  refine ⟨fun y _ => ?_, ?_⟩
  · apply List.Nodup.map _ hx
    intro a b h
    simp only [Prod.mk.injEq, true_and, sub_left_inj, Nat.cast_inj] at h
    exact h
  · refine hy.imp ?_
    intro a b hab
    simp only [Function.onFun, List.disjoint_left, List.mem_map, not_exists, not_and]
    rintro p ⟨x, _, rfl⟩ x' _ h
    simp only [Prod.mk.injEq, sub_left_inj, Nat.cast_inj] at h
    exact hab h.1.symm

theorem axis_nodup (k delta : Nat) (h : 0 < delta) : ((List.range (k + 1)).map (· * delta)).Nodup := by
  apply List.Nodup.map _ List.nodup_range
  intro a b hab
  exact Nat.eq_of_mul_eq_mul_right h hab

/-- The convex hull of a one-dimensional axis. -/
theorem hull_axis (k delta : Nat) :
    convexHull ℚ {q : ℚ | ∃ n ∈ (List.range (k + 1)).map (· * delta), q = (n : ℚ) - 1/2} =
      Set.Icc (-(1/2) : ℚ) (((k * delta : ℕ) : ℚ) - 1/2) := by
  apply Set.Subset.antisymm
  · refine convexHull_min ?_ (convex_Icc _ _)
    rintro q ⟨n, hn, rfl⟩
    simp only [List.mem_map, List.mem_range] at hn
    obtain ⟨i, hi, rfl⟩ := hn
    have h1 : i * delta ≤ k * delta := Nat.mul_le_mul_right _ (by omega)
    have h2 : ((i * delta : ℕ) : ℚ) ≤ ((k * delta : ℕ) : ℚ) := by exact_mod_cast h1
    have h3 : (0 : ℚ) ≤ ((i * delta : ℕ) : ℚ) := Nat.cast_nonneg _
    constructor <;> linarith
  · rw [← segment_eq_Icc (by have : (0 : ℚ) ≤ ((k * delta : ℕ) : ℚ) := Nat.cast_nonneg _; linarith)]
    apply segment_subset_convexHull
    · exact ⟨0, List.mem_map.2 ⟨0, by simp, by simp⟩, by norm_num⟩
    · exact ⟨k * delta, List.mem_map.2 ⟨k, by simp, rfl⟩, rfl⟩

/-- The convex hull of the grid is the rectangle from the lower edge of the image to the last
node. -/
theorem hull_grid (k l delta : Nat) (p : ℚ × ℚ) :
    p ∈ convexHull ℚ {q | q ∈ gridPts ((List.range (k + 1)).map (· * delta))
        ((List.range (l + 1)).map (· * delta))} ↔
      -(1/2) ≤ p.1 ∧ p.1 ≤ ((k * delta : ℕ) : ℚ) - 1/2 ∧ -(1/2) ≤ p.2 ∧ p.2 ≤ ((l * delta : ℕ) : ℚ) - 1/2 := by
  have hset : {q | q ∈ gridPts ((List.range (k + 1)).map (· * delta))
        ((List.range (l + 1)).map (· * delta))} =
      {q : ℚ | ∃ n ∈ (List.range (k + 1)).map (· * delta), q = (n : ℚ) - 1/2} ×ˢ
      {q : ℚ | ∃ n ∈ (List.range (l + 1)).map (· * delta), q = (n : ℚ) - 1/2} := by
    ext ⟨a, b⟩
    simp only [Set.mem_ofPred_eq, mem_gridPts, Set.mem_prod, Prod.mk.injEq]
    constructor
    · rintro ⟨y, hy, x, hx, rfl, rfl⟩; exact ⟨⟨y, hy, rfl⟩, ⟨x, hx, rfl⟩⟩
    · rintro ⟨⟨y, hy, rfl⟩, ⟨x, hx, rfl⟩⟩; exact ⟨y, hy, x, hx, rfl, rfl⟩
  rw [hset, convexHull_prod, hull_axis, hull_axis]
  simp only [Set.mem_prod, Set.mem_Icc]
  tauto

/-- The hull of an affine image. -/
theorem mem_hull_image {s : Set (ℚ × ℚ)} {p : ℚ × ℚ} (hp : p ∈ convexHull ℚ s) (a b c d e f : ℚ) :
    (a * p.1 + b * p.2 + e, c * p.1 + d * p.2 + f) ∈
      convexHull ℚ ((fun q : ℚ × ℚ => (a * q.1 + b * q.2 + e, c * q.1 + d * q.2 + f)) '' s) := by
  refine convexHull_min (t := {q : ℚ × ℚ | (a * q.1 + b * q.2 + e, c * q.1 + d * q.2 + f) ∈
      convexHull ℚ ((fun q : ℚ × ℚ => (a * q.1 + b * q.2 + e, c * q.1 + d * q.2 + f)) '' s)}) ?_ ?_ hp
  · intro q hq
    exact subset_convexHull ℚ _ ⟨q, hq, rfl⟩
  · intro q hq r hr α β hα hβ hαβ
    simp only [Set.mem_ofPred_eq] at *
    have := (convex_convexHull ℚ ((fun q : ℚ × ℚ => (a * q.1 + b * q.2 + e, c * q.1 + d * q.2 + f)) '' s))
      hq hr hα hβ hαβ
    convert this using 1
    ext
    · simp only [Prod.fst_add, Prod.smul_fst, Prod.snd_add, Prod.smul_snd, smul_eq_mul]
      linear_combination (-e) * hαβ
    · simp only [Prod.fst_add, Prod.smul_fst, Prod.snd_add, Prod.smul_snd, smul_eq_mul]
      linear_combination (-f) * hαβ

theorem zipWith_map_self {α β γ δ : Type} (f : β → γ → δ) (g : α → β) (h : α → γ) (l : List α) :
    List.zipWith f (l.map g) (l.map h) = l.map fun a => f (g a) (h a) := by
  induction l with
  | nil => rfl
  | cons a t ih => simp [ih]

theorem image2sky_arr (se : SEWcs) (pts : List (ℚ × ℚ)) :
    se.image2sky (.arr (pts.map Prod.snd)) (.arr (pts.map Prod.fst)) =
      .ok (.arr (pts.map fun p => (se.fwd0 p.2 p.1).1), .arr (pts.map fun p => (se.fwd0 p.2 p.1).2)) := by
  simp [SEWcs.image2sky, coordCall, Arg.ndim, Arg.flat, broadcast, ok_bind, pure,
    Except.pure, Function.comp_def]

/-- `getWcsInverse` when the axes are known. -/
theorem getWcsInverse_eq (fit : Fit) (coaddInv : ℚ → ℚ → ℚ × ℚ) (off : ℚ) (se : SEWcs)
    (nrow ncol delta : Nat) (ys xs : List Nat) (hy : mgridAxis nrow delta = .ok ys)
    (hx : mgridAxis ncol delta = .ok xs) :
    getWcsInverse fit coaddInv off se nrow ncol delta = (do
      let pts := gridPts ys xs
      let a ← InvInterp.make fit (pts.map fun p => (coaddPos coaddInv off se p.2 p.1).1)
        (pts.map fun p => (coaddPos coaddInv off se p.2 p.1).2) (pts.map Prod.snd) (pts.map Prod.fst)
      let b ← InvInterp.make fit (pts.map Prod.snd) (pts.map Prod.fst)
        (pts.map fun p => (coaddPos coaddInv off se p.2 p.1).1)
        (pts.map fun p => (coaddPos coaddInv off se p.2 p.1).2)
      pure (a, b)) := by
  unfold getWcsInverse
  rw [hy, hx]
  simp only [ok_bind, image2sky_arr, Arg.flat, zipWith_map_self, List.map_map]
  rfl

theorem zip_map_self {α β γ : Type} (g : α → β) (h : α → γ) (l : List α) :
    List.zip (l.map g) (l.map h) = l.map fun a => (g a, h a) := by
  rw [List.zip, zipWith_map_self]

/-- An interpolator built from tabulated functions. -/
theorem make_ok {fit : Fit} {pts : List (ℚ × ℚ)} {u v g h : ℚ × ℚ → ℚ} {i : InvInterp}
    (hi : InvInterp.make fit (pts.map u) (pts.map v) (pts.map g) (pts.map h) = .ok i) :
    fit (pts.map fun p => (v p, u p)) (pts.map g) = .ok i.xInt ∧
    fit (pts.map fun p => (v p, u p)) (pts.map h) = .ok i.yInt := by
  unfold InvInterp.make at hi
  simp only [zip_map_self, bind_eq_ok, pure_eq_ok] at hi
  obtain ⟨a, ha, b, hb, rfl⟩ := hi
  exact ⟨ha, hb⟩

theorem make_total {fit : Fit} {pts : List (ℚ × ℚ)} {u v g h : ℚ × ℚ → ℚ} (hf : FitSpec fit)
    (hnd : (pts.map fun p => (v p, u p)).Nodup) (hsp : Spans (pts.map fun p => (v p, u p))) :
    ∃ i, InvInterp.make fit (pts.map u) (pts.map v) (pts.map g) (pts.map h) = .ok i := by
  obtain ⟨a, ha⟩ := hf.total _ (pts.map g) (by simp) hnd hsp
  obtain ⟨b, hb⟩ := hf.total _ (pts.map h) (by simp) hnd hsp
  exact ⟨⟨a, b⟩, by simp only [InvInterp.make, zip_map_self, ha, hb, ok_bind]; rfl⟩

theorem getElem?_gridPts (ys xs : List Nat) {j i y x : Nat} (hy : ys[j]? = some y) (hx : xs[i]? = some x) :
    (gridPts ys xs)[j * xs.length + i]? = some ((y : ℚ) - 1/2, (x : ℚ) - 1/2) := by
  unfold gridPts
  have hi : i < xs.length := (List.getElem?_eq_some_iff.1 hx).1
  induction ys generalizing j with
  | nil => simp at hy
  | cons a t ih =>
    rw [List.flatMap_cons]
    cases j with
    | zero =>
      simp only [List.getElem?_cons_zero, Option.some.injEq] at hy
      subst hy
      rw [List.getElem?_append_left (by simpa using hi), List.getElem?_map]
      simp [hx]
    | succ j =>
      rw [List.getElem?_append_right (by rw [List.length_map, Nat.succ_mul]; omega)]
      rw [List.length_map, show (j + 1) * xs.length + i - xs.length = j * xs.length + i by
        rw [Nat.succ_mul]; omega]
      exact ih (by simpa using hy)

/-- The spline behind an area lookup. -/
theorem getWcsAreaInterp_eq (spl : Spline) (cel : Bool) (i2s : ℚ → ℚ → ℚ × ℚ) (cosd : ℚ → ℚ)
    (nrow ncol delta : Nat) (off : ℚ) (ys xs : List Nat) (hy : mgridAxis nrow delta = .ok ys)
    (hx : mgridAxis ncol delta = .ok xs) :
    ∃ a : Img ℚ, a.nrow = xs.length ∧ a.ncol = ys.length ∧
      getWcsAreaInterp spl cel i2s cosd nrow ncol delta off =
        spl (xs.map fun (n : Nat) => (n : ℚ)) (ys.map fun (n : Nat) => (n : ℚ)) a ∧
      ∀ (i j x y : Nat), xs[i]? = some x → ys[j]? = some y →
        a.px i j = computeWcsArea cel i2s cosd ((x : ℚ) - 1/2 + off) ((y : ℚ) - 1/2 + off) 1 := by
  refine ⟨_, rfl, rfl, by unfold getWcsAreaInterp; rw [hy, hx]; rfl, ?_⟩
  intro i j x y hi hj
  simp only [reshapeT]
  rw [List.getD_eq_getElem?_getD, List.getElem?_map, getElem?_gridPts ys xs hj hi]
  rfl

/-- The nodes of an axis. -/
theorem axis_getElem? {k delta i : Nat} (hi : i ≤ k) :
    ((List.range (k + 1)).map (· * delta))[i]? = some (i * delta) := by
  rw [List.getElem?_map, List.getElem?_range (by omega)]; rfl

theorem axis_getElem?_inv {k delta i n : Nat} (h : ((List.range (k + 1)).map (· * delta))[i]? = some n) :
    i ≤ k ∧ n = i * delta := by
  rw [List.getElem?_map] at h
  by_cases hi : i < k + 1
  · rw [List.getElem?_range hi] at h
    exact ⟨by omega, by simpa using h.symm⟩
  · rw [List.getElem?_eq_none (by simpa using hi)] at h; cases h

theorem axis_cast_pairwise (k delta : Nat) (h : 0 < delta) :
    (((List.range (k + 1)).map (· * delta)).map fun (n : Nat) => (n : ℚ)).Pairwise (· < ·) := by
  rw [List.map_map, List.pairwise_map]
  refine List.pairwise_lt_range.imp ?_
  intro a b hab
  have : a * delta < b * delta := Nat.mul_lt_mul_of_pos_right hab h
  simp only [Function.comp]
  exact_mod_cast this

/-- The number of nodes of an axis is at least four iff the image is larger than two steps. -/
theorem four_nodes {dim delta k : Nat} (hk : IsReach dim delta (k * delta)) : 3 ≤ k ↔ 2 * delta < dim := by
  obtain ⟨-, h1, h2⟩ := hk
  constructor
  · intro h
    have : 3 * delta ≤ k * delta := Nat.mul_le_mul_right _ h
    omega
  · intro h
    by_contra hc
    have : k * delta ≤ 2 * delta := Nat.mul_le_mul_right _ (by omega)
    omega

end Pizza
