import Verif.Props.LanczosMove
import Verif.Props.WcsGridExamples

/-!
C142: the position lookups between WCSs that are not affine, and what they do to a pixel of the coadd.
-/

namespace Pizza

/-- Assumption on `CloughTocher2DInterpolator`, for one set `S` of nodes: of values that are within `ε` of an affine
function at the nodes it makes a function that is within `lam * ε` of it wherever it is not NaN. -/
def FitStable (fit : Fit) (lam : ℚ) (S : Set (ℚ × ℚ)) : Prop :=
  ∀ pts vals f, fit pts vals = .ok f → pts.length = vals.length → {q | q ∈ pts} = S → ∀ a b c ε : ℚ,
    (∀ (i : Nat) p v, pts[i]? = some p → vals[i]? = some v → |v - (a + b * p.1 + c * p.2)| ≤ ε) →
    ∀ p w, f p = some w → |w - (a + b * p.1 + c * p.2)| ≤ lam * ε

/-- Where `g` takes the positions half a pixel before every `delta`-th pixel of the image, as row and column
(specification). -/
def NodesOf (g : ℚ → ℚ → ℚ × ℚ) (nrow ncol delta : ℕ) : Set (ℚ × ℚ) :=
  {p | ∃ i j : ℕ, i * delta < ncol + delta ∧ j * delta < nrow + delta ∧
    p = ((g (i * delta - 1/2) (j * delta - 1/2)).2, (g (i * delta - 1/2) (j * delta - 1/2)).1)}

/-- The coadd position of every SE position up to the last node, `rx` and `ry` from the lower edge of the image, is
within `ε` along both axes of `(a x + b y + e, c x + d y + f)` (specification). -/
def MapNearAffine (coaddInv : ℚ → ℚ → ℚ × ℚ) (off : ℚ) (se : SEWcs) (rx ry : ℕ) (a b c d e f ε : ℚ) : Prop :=
  ∀ x y : ℚ, -(1/2) ≤ x → x ≤ (rx : ℚ) - 1/2 → -(1/2) ≤ y → y ≤ (ry : ℚ) - 1/2 →
    |(coaddPos coaddInv off se x y).1 - (a * x + b * y + e)| ≤ ε ∧
    |(coaddPos coaddInv off se x y).2 - (c * x + d * y + f)| ≤ ε

/-- A node is on the grid. -/
theorem node_range {k l delta : ℕ} {p : ℚ × ℚ}
    (hp : p ∈ gridPts ((List.range (k + 1)).map (· * delta)) ((List.range (l + 1)).map (· * delta))) :
    -(1/2) ≤ p.2 ∧ p.2 ≤ ((l * delta : ℕ) : ℚ) - 1/2 ∧ -(1/2) ≤ p.1 ∧ p.1 ≤ ((k * delta : ℕ) : ℚ) - 1/2 := by
  rw [mem_gridPts] at hp
  obtain ⟨y, hy, x, hx, rfl⟩ := hp
  obtain ⟨i, hi, rfl⟩ := List.mem_map.1 hy
  obtain ⟨j, hj, rfl⟩ := List.mem_map.1 hx
  rw [List.mem_range] at hi hj
  have h1 : ((j * delta : ℕ) : ℚ) ≤ ((l * delta : ℕ) : ℚ) := by
    exact_mod_cast Nat.mul_le_mul_right delta (by omega)
  have h2 : ((i * delta : ℕ) : ℚ) ≤ ((k * delta : ℕ) : ℚ) := by
    exact_mod_cast Nat.mul_le_mul_right delta (by omega)
  have h3 : (0 : ℚ) ≤ ((j * delta : ℕ) : ℚ) := by positivity
  have h4 : (0 : ℚ) ≤ ((i * delta : ℕ) : ℚ) := by positivity
  refine ⟨?_, ?_, ?_, ?_⟩ <;> dsimp only <;> linarith

theorem nodesOf_grid {nrow ncol delta k l : ℕ} (hk : IsReach nrow delta (k * delta)) (hl : IsReach ncol delta (l * delta))
    (g : ℚ → ℚ → ℚ × ℚ) :
    {q | q ∈ (gridPts ((List.range (k + 1)).map (· * delta)) ((List.range (l + 1)).map (· * delta))).map
      fun p => ((g p.2 p.1).2, (g p.2 p.1).1)} = NodesOf g nrow ncol delta := by
  ext q
  simp only [Set.mem_ofPred_eq, List.mem_map, NodesOf]
  constructor
  · rintro ⟨p, hp, rfl⟩
    rw [mem_gridPts] at hp
    obtain ⟨y, hy, x, hx, rfl⟩ := hp
    obtain ⟨j, hj, rfl⟩ := List.mem_map.1 hy
    obtain ⟨i, hi, rfl⟩ := List.mem_map.1 hx
    rw [List.mem_range] at hi hj
    have b1 : i * delta ≤ l * delta := Nat.mul_le_mul_right _ (by omega)
    have b2 : j * delta ≤ k * delta := Nat.mul_le_mul_right _ (by omega)
    have := hl.2.2
    have := hk.2.2
    exact ⟨i, j, by omega, by omega, by push_cast; rfl⟩
  · rintro ⟨i, j, hi, hj, rfl⟩
    refine ⟨((j * delta : ℕ) - 1/2, (i * delta : ℕ) - 1/2), ?_, by push_cast; rfl⟩
    rw [mem_gridPts]
    exact ⟨_, mem_axis hk ⟨j, Nat.mul_comm _ _⟩ hj, _, mem_axis hl ⟨i, Nat.mul_comm _ _⟩ hi, rfl⟩

/-- C142: the lookup from SE to coadd is as accurate as the departure of the WCSs from an affine map allows. -/
theorem C142_to_coadd (fit : Fit) (lam : ℚ) (coaddInv : ℚ → ℚ → ℚ × ℚ)
    (off : ℚ) (se : SEWcs) (nrow ncol delta : Nat) (hs : FitStable fit lam (NodesOf (fun x y => (x, y)) nrow ncol delta))
    (hd : 0 < delta) (toSe toCo : InvInterp)
    (h : getWcsInverse fit coaddInv off se nrow ncol delta = .ok (toSe, toCo))
    (rx ry : ℕ) (hrx : IsReach ncol delta rx) (hry : IsReach nrow delta ry) (a b c d e f ε : ℚ)
    (hw : MapNearAffine coaddInv off se rx ry a b c d e f ε)
    (x y : ℚ) (hx : -(1/2) ≤ x ∧ x ≤ (rx : ℚ) - 1/2) (hy : -(1/2) ≤ y ∧ y ≤ (ry : ℚ) - 1/2) (u v : ℚ)
    (hc : toCo.call x y = (some u, some v)) :
    |u - (coaddPos coaddInv off se x y).1| ≤ (1 + lam) * ε ∧ |v - (coaddPos coaddInv off se x y).2| ≤ (1 + lam) * ε := by
  obtain ⟨k, l, hk, hl, pts, hpts, hnd, f1, f2, f3, f4⟩ := inverse_fits h hd
  cases hrx.unique hl
  cases hry.unique hk
  unfold InvInterp.call at hc
  rw [Prod.mk.injEq] at hc
  have n : ∀ p ∈ pts, _ := fun p hp => hw p.2 p.1 (node_range (hpts ▸ hp)).1 (node_range (hpts ▸ hp)).2.1
    (node_range (hpts ▸ hp)).2.2.1 (node_range (hpts ▸ hp)).2.2.2
  have hS := nodesOf_grid hk hl fun x y => (x, y)
  simp only [Prod.mk.eta, List.map_id'] at hS
  rw [← hpts] at hS
  have k1 := hs _ _ _ f3 (by simp) hS e b a ε (by
    intro i p v hp hv
    rw [List.getElem?_map, hp] at hv
    cases hv
    have := (n p (List.mem_of_getElem? hp)).1
    rwa [show e + b * p.1 + a * p.2 = a * p.2 + b * p.1 + e by ring]) _ _ hc.1
  have k2 := hs _ _ _ f4 (by simp) hS f d c ε (by
    intro i p v hp hv
    rw [List.getElem?_map, hp] at hv
    cases hv
    have := (n p (List.mem_of_getElem? hp)).2
    rwa [show f + d * p.1 + c * p.2 = c * p.2 + d * p.1 + f by ring]) _ _ hc.2
  obtain ⟨m1, m2⟩ := hw x y hx.1 hx.2 hy.1 hy.2
  dsimp only at k1 k2
  simp only [abs_le] at k1 k2 m1 m2 ⊢
  constructor <;> constructor <;> linarith [k1.1, k1.2, k2.1, k2.2, m1.1, m1.2, m2.1, m2.2]

/-- C142: so is the lookup from coadd to SE: at the coadd position of an SE position it returns that position to
within the departure from an affine map, in SE pixels. -/
theorem C142_to_se (fit : Fit) (lam : ℚ) (coaddInv : ℚ → ℚ → ℚ × ℚ)
    (off : ℚ) (se : SEWcs) (nrow ncol delta : Nat)
    (hs : FitStable fit lam (NodesOf (coaddPos coaddInv off se) nrow ncol delta)) (hd : 0 < delta) (toSe toCo : InvInterp)
    (h : getWcsInverse fit coaddInv off se nrow ncol delta = .ok (toSe, toCo))
    (rx ry : ℕ) (hrx : IsReach ncol delta rx) (hry : IsReach nrow delta ry) (a b c d e f ε : ℚ)
    (hdet : a * d - b * c ≠ 0) (hw : MapNearAffine coaddInv off se rx ry a b c d e f ε)
    (x y : ℚ) (hx : -(1/2) ≤ x ∧ x ≤ (rx : ℚ) - 1/2) (hy : -(1/2) ≤ y ∧ y ≤ (ry : ℚ) - 1/2) (u v x' y' : ℚ)
    (huv : coaddPos coaddInv off se x y = (u, v)) (hc : toSe.call u v = (some x', some y')) :
    |x' - x| ≤ (1 + lam) * ((|b| + |d|) / |a * d - b * c| * ε) ∧
    |y' - y| ≤ (1 + lam) * ((|a| + |c|) / |a * d - b * c| * ε) := by
  obtain ⟨k, l, hk, hl, pts, hpts, hnd, f1, f2, f3, f4⟩ := inverse_fits h hd
  cases hrx.unique hl
  cases hry.unique hk
  unfold InvInterp.call at hc
  rw [Prod.mk.injEq] at hc
  set D := a * d - b * c with hD
  have hDp : 0 < |D| := abs_pos.2 hdet
  -- the affine map taken back, with its error
  have back : ∀ x y u v : ℚ, |u - (a * x + b * y + e)| ≤ ε → |v - (c * x + d * y + f)| ≤ ε →
      |x - ((b * f - d * e) / D + -b / D * v + d / D * u)| ≤ (|b| + |d|) / |D| * ε ∧
      |y - ((c * e - a * f) / D + a / D * v + -c / D * u)| ≤ (|a| + |c|) / |D| * ε := by
    intro x y u v h1 h2
    have e1 : x - ((b * f - d * e) / D + -b / D * v + d / D * u) =
        (b * (v - (c * x + d * y + f)) - d * (u - (a * x + b * y + e))) / D := by
      field_simp
      rw [hD]
      ring
    have e2 : y - ((c * e - a * f) / D + a / D * v + -c / D * u) =
        (c * (u - (a * x + b * y + e)) - a * (v - (c * x + d * y + f))) / D := by
      field_simp
      rw [hD]
      ring
    rw [e1, e2, abs_div, abs_div, div_mul_eq_mul_div, div_mul_eq_mul_div]
    have t : ∀ p q s t : ℚ, |s| ≤ ε → |t| ≤ ε → |p * s - q * t| ≤ (|p| + |q|) * ε := by
      intro p q s t hs ht
      refine (abs_sub _ _).trans ?_
      rw [abs_mul, abs_mul, add_mul]
      exact add_le_add (mul_le_mul_of_nonneg_left hs (abs_nonneg _)) (mul_le_mul_of_nonneg_left ht (abs_nonneg _))
    refine ⟨div_le_div_of_nonneg_right (t _ _ _ _ h2 h1) hDp.le, div_le_div_of_nonneg_right ?_ hDp.le⟩
    rw [add_comm |a|]
    exact t _ _ _ _ h1 h2
  have n : ∀ p ∈ pts, _ := fun p hp => hw p.2 p.1 (node_range (hpts ▸ hp)).1 (node_range (hpts ▸ hp)).2.1
    (node_range (hpts ▸ hp)).2.2.1 (node_range (hpts ▸ hp)).2.2.2
  have hS := nodesOf_grid hk hl (coaddPos coaddInv off se)
  rw [← hpts] at hS
  have k1 := hs _ _ _ f1 (by simp) hS ((b * f - d * e) / D) (-b / D) (d / D) ((|b| + |d|) / |D| * ε) (by
    intro i p v hp hv
    rw [List.getElem?_map] at hp hv
    obtain ⟨q, hq, rfl⟩ := Option.map_eq_some_iff.1 hp
    rw [hq] at hv
    cases hv
    exact (back _ _ _ _ (n q (List.mem_of_getElem? hq)).1 (n q (List.mem_of_getElem? hq)).2).1) _ _ hc.1
  have k2 := hs _ _ _ f2 (by simp) hS ((c * e - a * f) / D) (a / D) (-c / D) ((|a| + |c|) / |D| * ε) (by
    intro i p v hp hv
    rw [List.getElem?_map] at hp hv
    obtain ⟨q, hq, rfl⟩ := Option.map_eq_some_iff.1 hp
    rw [hq] at hv
    cases hv
    exact (back _ _ _ _ (n q (List.mem_of_getElem? hq)).1 (n q (List.mem_of_getElem? hq)).2).2) _ _ hc.2
  obtain ⟨m1, m2⟩ := hw x y hx.1 hx.2 hy.1 hy.2
  rw [huv] at m1 m2
  obtain ⟨b1, b2⟩ := back x y u v m1 m2
  dsimp only at k1 k2
  rw [abs_le] at k1 k2 b1 b2
  rw [abs_le, abs_le]
  constructor <;> constructor <;> linarith [k1.1, k1.2, k2.1, k2.2, b1.1, b1.2, b2.1, b2.2]

/-- The computed position of an epoch comes from the lookup at the coadd position `(X, Y)`, the place itself is the SE
position that belongs to `(X, Y)`, and the departure of the WCSs from an affine map is at most `δ` SE pixels in
effect (specification). -/
def LookedUp (fit : Fit) (lam : ℚ) (coaddInv : ℚ → ℚ → ℚ × ℚ) (off : ℚ) (X Y δ : ℚ) (n : EpochNear) : Prop :=
  ∃ (se : SEWcs) (delta : ℕ) (toSe toCo : InvInterp) (rx ry : ℕ) (a b c d e f ε x y : ℚ), 0 < delta ∧
    FitStable fit lam (NodesOf (coaddPos coaddInv off se) n.1.nrow n.1.ncol delta) ∧
    getWcsInverse fit coaddInv off se n.1.nrow n.1.ncol delta = .ok (toSe, toCo) ∧
    IsReach n.1.ncol delta rx ∧ IsReach n.1.nrow delta ry ∧ a * d - b * c ≠ 0 ∧
    MapNearAffine coaddInv off se rx ry a b c d e f ε ∧
    (1 + lam) * ((|b| + |d|) / |a * d - b * c| * ε) ≤ δ ∧ (1 + lam) * ((|a| + |c|) / |a * d - b * c| * ε) ≤ δ ∧
    (-(1/2) ≤ x ∧ x ≤ (rx : ℚ) - 1/2) ∧ (-(1/2) ≤ y ∧ y ≤ (ry : ℚ) - 1/2) ∧
    coaddPos coaddInv off se x y = (X, Y) ∧ toSe.call X Y = (some n.2.1.2, some n.2.1.1) ∧
    n.2.2 = ((y : ℝ), (x : ℝ))

/-- C142: with WCSs that depart from affine maps a pixel of the coadd at `(X, Y)` is the weighted mean of the Lanczos
sums of the epochs at the SE positions that belong to `(X, Y)`, to the effect of the departure and of rounding. -/
theorem C142_coadd {rnd rs : ℚ → ℚ} {ps : ℕ} (hr : Rounds 53 rnd) (hps : 24 ≤ ps) (hrs : Rounds ps rs)
    (fit : Fit) (lam : ℚ) (coaddInv : ℚ → ℚ → ℚ × ℚ) (off X Y δ : ℚ)
    (es : List EpochNear) (vs l l'' : List ℚ)
    (hv : List.Forall₂ (fun e v => EpochRuns rnd (e.1, e.2.1) v) es vs)
    (hpos : ∀ e ∈ es, LookedUp fit lam coaddInv off X Y δ e) (hlen : es.length = l.length)
    (hne : es ≠ []) (h100 : es.length ≤ 100) (hl : ∀ w ∈ l, IsFloat 53 w ∧ 0 < w) (hn : WeightRuns rnd l l'') :
    |(coaddPixelD rnd rnd rs 0 (vs.zip l'') : ℝ) - epochMean nearLanczos es l| ≤
      (8.1e-6 + 4.2 * δ) * epochMean nearAbs es l := by
  refine C140_coadd hr hps hrs δ es vs l l'' hv (fun n hn => ?_) hlen hne h100 hl hn
  obtain ⟨se, delta, toSe, toCo, rx, ry, a, b, c, d, e, f, ε, x, y, hd, hs, hg, hrx, hry, hdet, hw, d1, d2, hx, hy, hp, hcall, ht⟩ :=
    hpos n hn
  obtain ⟨b1, b2⟩ := C142_to_se fit lam coaddInv off se _ _ delta hs hd toSe toCo hg rx ry hrx hry a b c d e f ε hdet hw
    x y hx hy X Y _ _ hp hcall
  rw [ht]
  have b1' := b1.trans d1
  have b2' := b2.trans d2
  refine ⟨?_, ?_⟩ <;> dsimp only
  · exact_mod_cast b2'
  · exact_mod_cast b1'

/-! ### The assumptions can be met -/

open Classical in
/-- An interpolator with weights of a mean (not the one of scipy). -/
noncomputable def meanFit : Fit := fun pts vals =>
  if Spans pts ∧ pts.Nodup then
    .ok fun p =>
      if h : p ∈ convexHull ℚ (pts.toFinset : Set (ℚ × ℚ)) then
        if p ∈ pts then some (vals.getD (pts.idxOf p) 0)
        else some (∑ q ∈ pts.toFinset, (Finset.mem_convexHull'.1 h).choose q * vals.getD (pts.idxOf q) 0)
      else none
  else .error .valueError

theorem meanFit_stable (S : Set (ℚ × ℚ)) : FitStable meanFit 1 S := by
  intro pts vals f h hlen _ a b c ε hv p w hp
  unfold meanFit at h
  split_ifs at h with hc
  have := (Except.ok.inj h).symm
  subst this
  have hv' : ∀ q ∈ pts, |vals.getD (pts.idxOf q) 0 - (a + b * q.1 + c * q.2)| ≤ ε := by
    intro q hq
    have hi : pts.idxOf q < pts.length := List.idxOf_lt_length_iff.2 hq
    refine hv (pts.idxOf q) q _ ?_ ?_
    · rw [List.getElem?_eq_getElem hi, List.getElem_idxOf]
    · rw [List.getD_eq_getElem?_getD, List.getElem?_eq_getElem (hlen ▸ hi)]
      rfl
  rw [one_mul]
  dsimp only at hp
  split_ifs at hp with h1 h2
  · cases hp
    exact hv' p h2
  · cases hp
    obtain ⟨w0, w1, w2⟩ := (Finset.mem_convexHull'.1 h1).choose_spec
    set ω := (Finset.mem_convexHull'.1 h1).choose
    have e1 : p.1 = ∑ q ∈ pts.toFinset, ω q * q.1 := by
      conv_lhs => rw [← w2]
      rw [Prod.fst_sum]
      rfl
    have e2 : p.2 = ∑ q ∈ pts.toFinset, ω q * q.2 := by
      conv_lhs => rw [← w2]
      rw [Prod.snd_sum]
      rfl
    have e : (∑ q ∈ pts.toFinset, ω q * vals.getD (pts.idxOf q) 0) - (a + b * p.1 + c * p.2) =
        ∑ q ∈ pts.toFinset, ω q * (vals.getD (pts.idxOf q) 0 - (a + b * q.1 + c * q.2)) := by
      rw [e1, e2]
      simp only [mul_sub, mul_add, Finset.sum_sub_distrib, Finset.sum_add_distrib, Finset.mul_sum]
      rw [← Finset.sum_mul, w1, one_mul]
      congr 2
      · congr 1
        exact Finset.sum_congr rfl fun q _ => by ring
      · exact Finset.sum_congr rfl fun q _ => by ring
    rw [e]
    refine (Finset.abs_sum_le_sum_abs _ _).trans ?_
    calc _ ≤ ∑ q ∈ pts.toFinset, ω q * ε := by
          refine Finset.sum_le_sum fun q hq => ?_
          rw [abs_mul, abs_of_nonneg (w0 q hq)]
          exact mul_le_mul_of_nonneg_left (hv' q (List.mem_toFinset.1 hq)) (w0 q hq)
      _ = ε := by rw [← Finset.sum_mul, w1, one_mul]

theorem meanFit_spec : FitSpec meanFit := by
  have unf : ∀ {pts vals f}, meanFit pts vals = .ok f → Spans pts ∧ pts.Nodup := by
    intro pts vals f h
    unfold meanFit at h
    split_ifs at h with hc
    exact hc
  have hset : ∀ pts : List (ℚ × ℚ), (pts.toFinset : Set (ℚ × ℚ)) = {q | q ∈ pts} := by
    intro pts
    ext q
    simp
  have hhull : ∀ pts vals f, meanFit pts vals = .ok f → ∀ p, f p = none ↔ p ∉ convexHull ℚ {q | q ∈ pts} := by
    intro pts vals f h p
    unfold meanFit at h
    split_ifs at h with hc
    have := (Except.ok.inj h).symm
    subst this
    dsimp only
    rw [← hset]
    by_cases hp : p ∈ convexHull ℚ (pts.toFinset : Set (ℚ × ℚ))
    · rw [dif_pos hp]
      refine ⟨fun h0 => ?_, fun h0 => absurd hp h0⟩
      split_ifs at h0
    · rw [dif_neg hp]
      exact ⟨fun _ => hp, fun _ => rfl⟩
  refine ⟨?_, hhull, ?_, ?_⟩
  · intro pts vals _ hnd hsp
    exact ⟨_, by unfold meanFit; rw [if_pos ⟨hsp, hnd⟩]⟩
  · intro pts vals f h hnd i p v hp hv
    have hmem := List.mem_of_getElem? hp
    unfold meanFit at h
    split_ifs at h with hc
    have := (Except.ok.inj h).symm
    subst this
    dsimp only
    have hin : p ∈ convexHull ℚ (pts.toFinset : Set (ℚ × ℚ)) := subset_convexHull ℚ _ (by simpa using hmem)
    rw [dif_pos hin, if_pos hmem]
    obtain ⟨hi, hpi⟩ := List.getElem?_eq_some_iff.1 hp
    rw [← hpi, hnd.idxOf_getElem i hi, List.getD_eq_getElem?_getD, hv]
    rfl
  · intro pts vals f h a b c hag hlen p hp
    obtain ⟨w, hw⟩ := some_of_ne_none (mt (hhull pts vals f h p).1 (not_not.2 hp))
    have := meanFit_stable _ pts vals f h hlen rfl a b c 0 (fun i p v h1 h2 => by rw [hag i p v h1 h2]; simp) p w hw
    rw [mul_zero] at this
    rw [hw, sub_eq_zero.1 (abs_nonpos_iff.1 this)]

/-- `C142_to_coadd`, `C142_to_se` and `C142_coadd`: an SE image of 8 by 8 pixels whose columns are displaced along
themselves by a parabola, looked up between nodes. -/
theorem exDistorted : ∃ x' y' : ℚ, ∀ px, LookedUp meanFit 1 (fun u v => (u, v + u * u / 1000)) 1 (7/2) (2 + 81/4000) (0.15)
    (⟨8, 8, px⟩, (y', x'), ((2 : ℚ) : ℝ), ((7/2 : ℚ) : ℝ)) := by
  set W : ℚ → ℚ → ℚ × ℚ := fun u v => (u, v + u * u / 1000) with hW
  set se : SEWcs := ⟨fun x y => (x, y), fun u v => (u, v), 1⟩ with hse
  have hco : ∀ x y, coaddPos W 1 se x y = (x, y + (x + 1) * (x + 1) / 1000) := by
    intro x y
    simp only [coaddPos, hW, hse, Prod.mk.injEq]
    constructor <;> ring
  have hinj : ∀ x y x' y' : ℚ, coaddPos W 1 se x y = coaddPos W 1 se x' y' → x = x' ∧ y = y' := by
    intro x y x' y' h
    rw [hco, hco, Prod.mk.injEq] at h
    obtain ⟨h1, h2⟩ := h
    subst h1
    exact ⟨rfl, by linarith⟩
  obtain ⟨k, hk, ek⟩ := mgridAxis_ok 8 (delta := 4) (by norm_num)
  have hk2 : k = 2 := by have := hk.2; omega
  subst hk2
  set pts := gridPts ((List.range (2 + 1)).map (· * 4)) ((List.range (2 + 1)).map (· * 4)) with hpts
  have m : ∀ i j : Nat, i ≤ 2 → j ≤ 2 → (((i * 4 : ℕ) : ℚ) - 1/2, ((j * 4 : ℕ) : ℚ) - 1/2) ∈ pts := by
    intro i j hi hj
    rw [hpts, mem_gridPts]
    exact ⟨_, List.mem_map.2 ⟨i, by simp; omega, rfl⟩, _, List.mem_map.2 ⟨j, by simp; omega, rfl⟩, rfl⟩
  have hnd : pts.Nodup := gridPts_nodup (axis_nodup 2 4 (by norm_num)) (axis_nodup 2 4 (by norm_num))
  obtain ⟨toSe, hA⟩ := make_total (u := fun p => (coaddPos W 1 se p.2 p.1).1) (v := fun p => (coaddPos W 1 se p.2 p.1).2)
    (g := Prod.snd) (h := Prod.fst) meanFit_spec (pts := pts)
    (hnd.map (by
      intro p q hpq
      simp only [Prod.mk.injEq] at hpq
      obtain ⟨e1, e2⟩ := hinj p.2 p.1 q.2 q.1 (Prod.ext hpq.2 hpq.1)
      exact Prod.ext e2 e1))
    (by
      refine ⟨_, List.mem_map_of_mem (m 0 0 (by omega) (by omega)), _,
        List.mem_map_of_mem (m 1 0 (by omega) (by omega)), _, List.mem_map_of_mem (m 0 1 (by omega) (by omega)), ?_⟩
      simp only [hco]
      norm_num)
  obtain ⟨toCo, hB⟩ := make_total (u := Prod.snd) (v := Prod.fst) (g := fun p => (coaddPos W 1 se p.2 p.1).1)
    (h := fun p => (coaddPos W 1 se p.2 p.1).2) meanFit_spec (pts := pts) (by simpa using hnd)
    (by
      refine ⟨_, List.mem_map_of_mem (m 0 0 (by omega) (by omega)), _,
        List.mem_map_of_mem (m 1 0 (by omega) (by omega)), _, List.mem_map_of_mem (m 0 1 (by omega) (by omega)), ?_⟩
      norm_num)
  have hget : getWcsInverse meanFit W 1 se 8 8 4 = .ok (toSe, toCo) := by
    rw [getWcsInverse_eq _ _ _ _ _ _ _ _ _ ek ek]
    simp only [← hpts, hA, hB, ok_bind]
    rfl
  obtain ⟨x', y', hcall⟩ := (C98_nan_to_se meanFit meanFit_spec W 1 se 8 8 4 (by norm_num) toSe toCo hget
    (7/2) (2 + 81/4000)).2 (by
      have q0 := subset_convexHull ℚ {p | ∃ i j : Nat, i * 4 < 8 + 4 ∧ j * 4 < 8 + 4 ∧
        p = coaddPos W 1 se (i * (4 : ℕ) - 1/2) (j * (4 : ℕ) - 1/2)} ⟨1, 0, by norm_num, by norm_num, rfl⟩
      have q1 := subset_convexHull ℚ {p | ∃ i j : Nat, i * 4 < 8 + 4 ∧ j * 4 < 8 + 4 ∧
        p = coaddPos W 1 se (i * (4 : ℕ) - 1/2) (j * (4 : ℕ) - 1/2)} ⟨1, 1, by norm_num, by norm_num, rfl⟩
      refine (convex_convexHull ℚ _).segment_subset q0 q1 ⟨3/8, 5/8, by norm_num, by norm_num, by norm_num, ?_⟩
      rw [hco, hco]
      norm_num)
  refine ⟨x', y', fun px => ⟨se, 4, toSe, toCo, 8, 8, 1, 0, 0, 1, 0, 0, 0.07225, 7/2, 2, by norm_num, meanFit_stable _, hget,
    ⟨⟨2, rfl⟩, by norm_num, by norm_num⟩, ⟨⟨2, rfl⟩, by norm_num, by norm_num⟩, by norm_num, ?_, by norm_num, by norm_num,
    by norm_num, by norm_num, by rw [hco]; norm_num, hcall, rfl⟩⟩
  intro x y h1 h2 h3 h4
  push_cast at h2
  rw [hco]
  refine ⟨by norm_num, ?_⟩
  dsimp only
  rw [abs_le]
  constructor <;> nlinarith

example : ∃ rnd, Rounds 53 rnd ∧ ∃ v l'' x' y', WeightRuns rnd [1, 3] l'' ∧
    |(coaddPixelD rnd rnd rnd 0 ([v, v].zip l'') : ℝ) - epochMean nearLanczos
      [(⟨8, 8, fun _ _ => 7⟩, (y', x'), ((2 : ℚ) : ℝ), ((7/2 : ℚ) : ℝ)),
        (⟨8, 8, fun _ _ => 7⟩, (y', x'), ((2 : ℚ) : ℝ), ((7/2 : ℚ) : ℝ))] [1, 3]| ≤
      (8.1e-6 + 4.2 * ((0.15 : ℚ) : ℝ)) * epochMean nearAbs
      [(⟨8, 8, fun _ _ => 7⟩, (y', x'), ((2 : ℚ) : ℝ), ((7/2 : ℚ) : ℝ)),
        (⟨8, 8, fun _ _ => 7⟩, (y', x'), ((2 : ℚ) : ℝ), ((7/2 : ℚ) : ℝ))] [1, 3] := by
  obtain ⟨rnd, hr⟩ := exists_rounds 53 (by norm_num)
  obtain ⟨l'', hn⟩ := exists_weightRuns rnd [1, 3]
  obtain ⟨x', y', hlook⟩ := exDistorted
  obtain ⟨v, h1⟩ := exEpochRuns hr ⟨8, 8, fun _ _ => 7⟩ (fun r h c h' => exFlatFloat r (h.trans (by norm_num)) c
    (h'.trans (by norm_num))) y' x'
  refine ⟨rnd, hr, v, l'', x', y', hn, ?_⟩
  refine C142_coadd hr (by norm_num) hr meanFit 1 _ 1 (7/2) (2 + 81/4000) 0.15 _ [v, v] [1, 3] l''
    (.cons h1 (.cons h1 .nil)) (by
      intro e he
      simp only [List.mem_cons, List.not_mem_nil, or_false, or_self] at he
      subst he
      exact hlook _) rfl (by simp) (by simp) exWeights13 hn

end Pizza
