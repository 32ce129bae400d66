import Verif.Props.WcsDistorted

/-!
C143: where the lookup from coadd to SE has a value when the WCSs are not affine.
-/

namespace Pizza

/-- Errors of `ε` coadd pixels along both axes are errors of at most `δx` SE columns and `δy` SE rows (specification). -/
def InSePixels (a b c d ε δx δy : ℚ) : Prop :=
  a * d - b * c ≠ 0 ∧ (|b| + |d|) * ε ≤ δx * |a * d - b * c| ∧ (|a| + |c|) * ε ≤ δy * |a * d - b * c|

/-- The affine map taken back at a coadd position. -/
def takeBack (a b c d e f u v : ℚ) : ℚ × ℚ :=
  ((d * (u - e) - b * (v - f)) / (a * d - b * c), (a * (v - f) - c * (u - e)) / (a * d - b * c))

theorem takeBack_fwd {a b c d : ℚ} (hdet : a * d - b * c ≠ 0) (e f u v : ℚ) :
    a * (takeBack a b c d e f u v).1 + b * (takeBack a b c d e f u v).2 + e = u ∧
    c * (takeBack a b c d e f u v).1 + d * (takeBack a b c d e f u v).2 + f = v := by
  unfold takeBack
  constructor
  · have : (a * (d * (u - e) - b * (v - f)) + b * (a * (v - f) - c * (u - e))) / (a * d - b * c) = u - e := by
      rw [div_eq_iff hdet]
      ring
    rw [add_div, mul_div_assoc, mul_div_assoc] at this
    linarith
  · have : (c * (d * (u - e) - b * (v - f)) + d * (a * (v - f) - c * (u - e))) / (a * d - b * c) = v - f := by
      rw [div_eq_iff hdet]
      ring
    rw [add_div, mul_div_assoc, mul_div_assoc] at this
    linarith

theorem takeBack_near {a b c d ε δx δy : ℚ} (hs : InSePixels a b c d ε δx δy) (e f x y u v : ℚ)
    (h1 : |u - (a * x + b * y + e)| ≤ ε) (h2 : |v - (c * x + d * y + f)| ≤ ε) :
    |(takeBack a b c d e f u v).1 - x| ≤ δx ∧ |(takeBack a b c d e f u v).2 - y| ≤ δy := by
  obtain ⟨hdet, k1, k2⟩ := hs
  have hD : 0 < |a * d - b * c| := abs_pos.2 hdet
  have t : ∀ p q s t : ℚ, |s| ≤ ε → |t| ≤ ε → |p * s - q * t| ≤ (|p| + |q|) * ε := by
    intro p q s t hs ht
    refine (abs_sub _ _).trans ?_
    rw [abs_mul, abs_mul, add_mul]
    exact add_le_add (mul_le_mul_of_nonneg_left hs (abs_nonneg _)) (mul_le_mul_of_nonneg_left ht (abs_nonneg _))
  have e1 : (takeBack a b c d e f u v).1 - x =
      (d * (u - (a * x + b * y + e)) - b * (v - (c * x + d * y + f))) / (a * d - b * c) := by
    unfold takeBack
    rw [eq_div_iff hdet, sub_mul, div_mul_cancel₀ _ hdet]
    ring
  have e2 : (takeBack a b c d e f u v).2 - y =
      (a * (v - (c * x + d * y + f)) - c * (u - (a * x + b * y + e))) / (a * d - b * c) := by
    unfold takeBack
    rw [eq_div_iff hdet, sub_mul, div_mul_cancel₀ _ hdet]
    ring
  rw [e1, e2, abs_div, abs_div, div_le_iff₀ hD, div_le_iff₀ hD]
  refine ⟨(t _ _ _ _ h1 h2).trans ?_, (t _ _ _ _ h2 h1).trans k2⟩
  rw [add_comm |d|]
  exact k1

/-! ### Convex sets in the plane -/

/-- The preimage of a convex set under an affine map. -/
theorem convex_pre {T : Set (ℚ × ℚ)} (hT : Convex ℚ T) (a b c d e f : ℚ) :
    Convex ℚ {p : ℚ × ℚ | (a * p.1 + b * p.2 + e, c * p.1 + d * p.2 + f) ∈ T} := by
  intro q hq r hr α β hα hβ hαβ
  simp only [Set.mem_ofPred_eq] at *
  have := hT hq hr hα hβ hαβ
  convert this using 1
  ext
  · simp only [Prod.fst_add, Prod.smul_fst, Prod.snd_add, Prod.smul_snd, smul_eq_mul]
    linear_combination (-e) * hαβ
  · simp only [Prod.fst_add, Prod.smul_fst, Prod.snd_add, Prod.smul_snd, smul_eq_mul]
    linear_combination (-f) * hαβ

/-- Between two points of a convex set, one to the left and one to the right, there is one in the middle, between them
in height. -/
theorem convex_between {S : Set (ℚ × ℚ)} (hS : Convex ℚ S) {p q : ℚ × ℚ} (hp : p ∈ S) (hq : q ∈ S) {x : ℚ}
    (h1 : p.1 ≤ x) (h2 : x ≤ q.1) :
    ∃ z, (x, z) ∈ S ∧ (∀ B, p.2 ≤ B → q.2 ≤ B → z ≤ B) ∧ (∀ B, B ≤ p.2 → B ≤ q.2 → B ≤ z) := by
  rcases eq_or_lt_of_le (h1.trans h2) with h | h
  · have : x = p.1 := le_antisymm (h2.trans h.ge) h1
    subst this
    exact ⟨p.2, hp, fun _ h _ => h, fun _ h _ => h⟩
  · have hw : 0 < q.1 - p.1 := by linarith
    set t := (x - p.1) / (q.1 - p.1) with ht
    have t0 : 0 ≤ t := div_nonneg (by linarith) hw.le
    have t1 : t ≤ 1 := by rw [ht, div_le_one hw]; linarith
    have hx : p.1 + t * (q.1 - p.1) = x := by rw [ht, div_mul_cancel₀ _ hw.ne']; ring
    refine ⟨(1 - t) * p.2 + t * q.2, ?_, fun B hB hB' => ?_, fun B hB hB' => ?_⟩
    · have := hS hp hq (sub_nonneg.2 t1) t0 (by ring)
      convert this using 1
      ext
      · simp only [Prod.fst_add, Prod.smul_fst, smul_eq_mul]
        linarith
      · simp only [Prod.snd_add, Prod.smul_snd, smul_eq_mul]
    · nlinarith
    · nlinarith

/-- A convex set with points near the corners of a rectangle contains the middle of the rectangle. -/
theorem convex_quad {S : Set (ℚ × ℚ)} (hS : Convex ℚ S) {p00 p10 p01 p11 : ℚ × ℚ} (h00 : p00 ∈ S) (h10 : p10 ∈ S)
    (h01 : p01 ∈ S) (h11 : p11 ∈ S) {xl xh yl yh : ℚ} (x00 : p00.1 ≤ xl) (y00 : p00.2 ≤ yl) (x10 : xh ≤ p10.1)
    (y10 : p10.2 ≤ yl) (x01 : p01.1 ≤ xl) (y01 : yh ≤ p01.2) (x11 : xh ≤ p11.1) (y11 : yh ≤ p11.2) {x y : ℚ}
    (hx : xl ≤ x) (hx' : x ≤ xh) (hy : yl ≤ y) (hy' : y ≤ yh) : (x, y) ∈ S := by
  obtain ⟨z, hz, hz1, -⟩ := convex_between hS h00 h10 (x00.trans hx) (hx'.trans x10)
  obtain ⟨w, hw, -, hw1⟩ := convex_between hS h01 h11 (x01.trans hx) (hx'.trans x11)
  have b1 := hz1 yl y00 y10
  have b2 := hw1 yh y01 y11
  have hS' : Convex ℚ {p : ℚ × ℚ | (p.2, p.1) ∈ S} := by
    have := convex_pre hS 0 1 1 0 0 0
    simpa using this
  obtain ⟨v, hv, hv1, hv2⟩ := convex_between (p := (z, x)) (q := (w, x)) hS' hz hw (x := y) (b1.trans hy) (hy'.trans b2)
  have := le_antisymm (hv1 x le_rfl le_rfl) (hv2 x le_rfl le_rfl)
  subst this
  exact hv

/-! ### The lookups -/

/-- C143: the lookups exist: where the departure from an affine map is less than a quarter of the spacing of the nodes, the
interpolators are built. -/
theorem C143_exists (fit : Fit) (hf : FitSpec fit) (coaddInv : ℚ → ℚ → ℚ × ℚ) (off : ℚ) (se : SEWcs)
    (nrow ncol delta : Nat) (hd : 0 < delta) (hr : 0 < nrow) (hc : 0 < ncol)
    (rx ry : ℕ) (hrx : IsReach ncol delta rx) (hry : IsReach nrow delta ry) (a b c d e f ε δx δy : ℚ)
    (hw : MapNearAffine coaddInv off se rx ry a b c d e f ε) (hs : InSePixels a b c d ε δx δy)
    (h4x : 4 * δx < delta) (h4y : 4 * δy < delta) :
    ∃ toSe toCo, getWcsInverse fit coaddInv off se nrow ncol delta = .ok (toSe, toCo) := by
  obtain ⟨k, hk, ek⟩ := mgridAxis_ok nrow hd
  obtain ⟨l, hl, el⟩ := mgridAxis_ok ncol hd
  cases hrx.unique hl
  cases hry.unique hk
  have hk1 : 1 ≤ k := by
    by_contra h0
    have : k = 0 := by omega
    subst this; have := hk.2.1; omega
  have hl1 : 1 ≤ l := by
    by_contra h0
    have : l = 0 := by omega
    subst this; have := hl.2.1; omega
  set pts := gridPts ((List.range (k + 1)).map (· * delta)) ((List.range (l + 1)).map (· * delta)) with hpts
  have hnd : pts.Nodup := gridPts_nodup (axis_nodup _ _ hd) (axis_nodup _ _ hd)
  have hd' : (0 : ℚ) < delta := by exact_mod_cast hd
  have m : ∀ i j : Nat, i ≤ k → j ≤ l → (((i * delta : ℕ) : ℚ) - 1/2, ((j * delta : ℕ) : ℚ) - 1/2) ∈ pts := by
    intro i j hi hj
    rw [hpts, mem_gridPts]
    exact ⟨_, List.mem_map.2 ⟨i, by simp; omega, rfl⟩, _, List.mem_map.2 ⟨j, by simp; omega, rfl⟩, rfl⟩
  have hsp : Spans pts := by
    refine ⟨_, m 0 0 (by omega) (by omega), _, m 1 0 hk1 (by omega), _, m 0 1 (by omega) hl1, ?_⟩
    push_cast
    ring_nf
    exact pow_ne_zero 2 hd'.ne'
  set C := coaddPos coaddInv off se with hC
  -- the nodes taken back
  have near : ∀ p ∈ pts, |(takeBack a b c d e f (C p.2 p.1).1 (C p.2 p.1).2).1 - p.2| ≤ δx ∧
      |(takeBack a b c d e f (C p.2 p.1).1 (C p.2 p.1).2).2 - p.1| ≤ δy := by
    intro p hp
    have hn := node_range (hpts ▸ hp)
    obtain ⟨n1, n2⟩ := hw p.2 p.1 hn.1 hn.2.1 hn.2.2.1 hn.2.2.2
    exact takeBack_near hs e f _ _ _ _ n1 n2
  have far : ∀ i j : ℕ, |((i * delta : ℕ) : ℚ) - ((j * delta : ℕ) : ℚ)| < delta → i = j := by
    intro i j h
    by_contra hij
    have : (delta : ℚ) ≤ |((i * delta : ℕ) : ℚ) - ((j * delta : ℕ) : ℚ)| := by
      rcases Nat.lt_or_gt_of_ne hij with h' | h'
      · have h1 : (i + 1) * delta ≤ j * delta := Nat.mul_le_mul_right _ h'
        have h2 : (((i + 1) * delta : ℕ) : ℚ) ≤ ((j * delta : ℕ) : ℚ) := by exact_mod_cast h1
        push_cast at h2 ⊢
        rw [abs_sub_comm, abs_of_nonneg (by linarith)]
        linarith
      · have h1 : (j + 1) * delta ≤ i * delta := Nat.mul_le_mul_right _ h'
        have h2 : (((j + 1) * delta : ℕ) : ℚ) ≤ ((i * delta : ℕ) : ℚ) := by exact_mod_cast h1
        push_cast at h2 ⊢
        rw [abs_of_nonneg (by linarith)]
        linarith
    linarith
  have hnd' : (pts.map fun p => ((C p.2 p.1).2, (C p.2 p.1).1)).Nodup := by
    refine hnd.map_on ?_
    intro p hp q hq hpq
    rw [Prod.mk.injEq] at hpq
    obtain ⟨p1, p2⟩ := near p hp
    obtain ⟨q1, q2⟩ := near q hq
    rw [hpq.1, hpq.2] at p1 p2
    rw [hpts, mem_gridPts] at hp hq
    obtain ⟨y, hy, x, hx, rfl⟩ := hp
    obtain ⟨i, hi, rfl⟩ := List.mem_map.1 hy
    obtain ⟨j, hj, rfl⟩ := List.mem_map.1 hx
    obtain ⟨y', hy', x', hx', rfl⟩ := hq
    obtain ⟨i', hi', rfl⟩ := List.mem_map.1 hy'
    obtain ⟨j', hj', rfl⟩ := List.mem_map.1 hx'
    dsimp only at p1 p2 q1 q2
    rw [abs_le] at p1 p2 q1 q2
    have e1 := far i i' (by rw [abs_lt]; constructor <;> linarith [p1.1, p1.2, q1.1, q1.2, p2.1, p2.2, q2.1, q2.2])
    have e2 := far j j' (by rw [abs_lt]; constructor <;> linarith [p1.1, p1.2, q1.1, q1.2, p2.1, p2.2, q2.1, q2.2])
    rw [e1, e2]
  have hsp' : Spans (pts.map fun p => ((C p.2 p.1).2, (C p.2 p.1).1)) := by
    refine ⟨_, List.mem_map_of_mem (m 0 0 (by omega) (by omega)), _,
      List.mem_map_of_mem (m 1 0 hk1 (by omega)), _, List.mem_map_of_mem (m 0 1 (by omega) hl1), ?_⟩
    obtain ⟨a1, a2⟩ := near _ (m 0 0 (by omega) (by omega))
    obtain ⟨b1, b2⟩ := near _ (m 1 0 hk1 (by omega))
    obtain ⟨c1, c2⟩ := near _ (m 0 1 (by omega) hl1)
    dsimp only at a1 a2 b1 b2 c1 c2 ⊢
    set P := C (((0 * delta : ℕ) : ℚ) - 1/2) (((0 * delta : ℕ) : ℚ) - 1/2)
    set Q := C (((0 * delta : ℕ) : ℚ) - 1/2) (((1 * delta : ℕ) : ℚ) - 1/2)
    set R := C (((1 * delta : ℕ) : ℚ) - 1/2) (((0 * delta : ℕ) : ℚ) - 1/2)
    obtain ⟨p1, p2⟩ := takeBack_fwd hs.1 e f P.1 P.2
    obtain ⟨q1, q2⟩ := takeBack_fwd hs.1 e f Q.1 Q.2
    obtain ⟨r1, r2⟩ := takeBack_fwd hs.1 e f R.1 R.2
    set P' := takeBack a b c d e f P.1 P.2
    set Q' := takeBack a b c d e f Q.1 Q.2
    set R' := takeBack a b c d e f R.1 R.2
    rw [← p1, ← p2, ← q1, ← q2, ← r1, ← r2]
    rw [abs_le] at a1 a2 b1 b2 c1 c2
    push_cast at a1 a2 b1 b2 c1 c2
    intro h0
    have key : (a * d - b * c) * ((Q'.2 - P'.2) * (R'.1 - P'.1) - (Q'.1 - P'.1) * (R'.2 - P'.2)) = 0 := by
      linear_combination h0
    have key := (mul_eq_zero.1 key).resolve_left hs.1
    have k1 : delta - 2 * δy ≤ Q'.2 - P'.2 := by linarith [a1.1, a1.2, a2.1, a2.2, b1.1, b1.2, b2.1, b2.2]
    have k2 : delta - 2 * δx ≤ R'.1 - P'.1 := by linarith [a1.1, a1.2, a2.1, a2.2, c1.1, c1.2, c2.1, c2.2]
    have k3 : |Q'.1 - P'.1| ≤ 2 * δx := by
      rw [abs_le]; constructor <;> linarith [a1.1, a1.2, b1.1, b1.2]
    have k4 : |R'.2 - P'.2| ≤ 2 * δy := by
      rw [abs_le]; constructor <;> linarith [a2.1, a2.2, c2.1, c2.2]
    have hδx : 0 ≤ δx := by linarith [abs_nonneg (Q'.1 - P'.1)]
    have hδy : 0 ≤ δy := by linarith [abs_nonneg (R'.2 - P'.2)]
    have m1 : (delta - 2 * δy) * (delta - 2 * δx) ≤ (Q'.2 - P'.2) * (R'.1 - P'.1) :=
      mul_le_mul k1 k2 (by linarith) (by linarith)
    have m2 : (Q'.1 - P'.1) * (R'.2 - P'.2) ≤ 2 * δx * (2 * δy) := by
      refine (le_abs_self _).trans ?_
      rw [abs_mul]
      exact mul_le_mul k3 k4 (abs_nonneg _) (by linarith)
    have m3 : 2 * δx * (2 * δy) < (delta - 2 * δy) * (delta - 2 * δx) := by nlinarith
    linarith
  obtain ⟨toSe, hSe⟩ := make_total (g := Prod.snd) (h := Prod.fst) (pts := pts)
    (u := fun p => (C p.2 p.1).1) (v := fun p => (C p.2 p.1).2) hf hnd' hsp'
  obtain ⟨toCo, hCo⟩ := make_total (u := Prod.snd) (v := Prod.fst) (pts := pts)
    (g := fun p => (C p.2 p.1).1) (h := fun p => (C p.2 p.1).2) hf
    (by simpa using hnd) (by simpa using hsp)
  refine ⟨toSe, toCo, ?_⟩
  rw [getWcsInverse_eq _ _ _ _ _ _ _ _ _ ek el, ← hpts]
  simp only [← hC, hSe, hCo, ok_bind]
  rfl

/-- C143: inside of the image, away from its edges by twice the departure, the lookup from coadd to SE has a value, and it
is right to the departure from an affine map; towards the upper edges the image may reach on to the last node. -/
theorem C143_inside (fit : Fit) (hf : FitSpec fit) (lam : ℚ) (hlam : 0 ≤ lam)
    (coaddInv : ℚ → ℚ → ℚ × ℚ) (off : ℚ) (se : SEWcs) (nrow ncol delta : Nat)
    (hst : FitStable fit lam (NodesOf (coaddPos coaddInv off se) nrow ncol delta)) (hd : 0 < delta) (toSe toCo : InvInterp)
    (h : getWcsInverse fit coaddInv off se nrow ncol delta = .ok (toSe, toCo))
    (rx ry : ℕ) (hrx : IsReach ncol delta rx) (hry : IsReach nrow delta ry) (a b c d e f ε δx δy : ℚ)
    (hw : MapNearAffine coaddInv off se rx ry a b c d e f ε) (hs : InSePixels a b c d ε δx δy)
    (x y : ℚ) (hx : -(1/2) + 2 * δx ≤ x ∧ x ≤ (rx : ℚ) - 1/2 - 2 * δx)
    (hy : -(1/2) + 2 * δy ≤ y ∧ y ≤ (ry : ℚ) - 1/2 - 2 * δy) (u v : ℚ) (huv : coaddPos coaddInv off se x y = (u, v)) :
    ∃ x' y', toSe.call u v = (some x', some y') ∧ |x' - x| ≤ (1 + lam) * δx ∧ |y' - y| ≤ (1 + lam) * δy := by
  have hD : 0 < |a * d - b * c| := abs_pos.2 hs.1
  obtain ⟨k, hk⟩ := hry.1
  obtain ⟨l, hl⟩ := hrx.1
  have hkc : (ry : ℚ) = k * delta := by rw [hk]; push_cast; ring
  have hlc : (rx : ℚ) = l * delta := by rw [hl]; push_cast; ring
  have hdq : (0 : ℚ) < delta := by exact_mod_cast hd
  have rx0 : (0 : ℚ) ≤ rx := by positivity
  have ry0 : (0 : ℚ) ≤ ry := by positivity
  -- the departure is not negative
  have hε : 0 ≤ ε := (abs_nonneg _).trans (hw (-(1/2)) (-(1/2)) le_rfl (by linarith) le_rfl (by linarith)).1
  have hδx : 0 ≤ δx := by
    by_contra hn
    have h1 : δx * |a * d - b * c| < 0 := mul_neg_of_neg_of_pos (by linarith) hD
    have h2 : 0 ≤ (|b| + |d|) * ε := by positivity
    linarith [hs.2.1]
  have hδy : 0 ≤ δy := by
    by_contra hn
    have h1 : δy * |a * d - b * c| < 0 := mul_neg_of_neg_of_pos (by linarith) hD
    have h2 : 0 ≤ (|a| + |c|) * ε := by positivity
    linarith [hs.2.2]
  set T := convexHull ℚ {p | ∃ i j : Nat, i * delta < ncol + delta ∧
      j * delta < nrow + delta ∧ p = coaddPos coaddInv off se (i * delta - 1/2) (j * delta - 1/2)} with hT
  have node : ∀ i j : ℕ, i ≤ l → j ≤ k → ∃ q : ℚ × ℚ, q ∈ {p : ℚ × ℚ | (a * p.1 + b * p.2 + e, c * p.1 + d * p.2 + f) ∈ T} ∧
      |q.1 - (i * delta - 1/2)| ≤ δx ∧ |q.2 - (j * delta - 1/2)| ≤ δy := by
    intro i j hi hj
    have g1 : ((i : ℚ)) * delta ≤ l * delta := mul_le_mul_of_nonneg_right (by exact_mod_cast hi) hdq.le
    have g2 : ((j : ℚ)) * delta ≤ k * delta := mul_le_mul_of_nonneg_right (by exact_mod_cast hj) hdq.le
    have g3 : (0 : ℚ) ≤ (i : ℚ) * delta := by positivity
    have g4 : (0 : ℚ) ≤ (j : ℚ) * delta := by positivity
    obtain ⟨w1, w2⟩ := hw (i * delta - 1/2) (j * delta - 1/2) (by linarith) (by linarith) (by linarith) (by linarith)
    set P := coaddPos coaddInv off se (i * delta - 1/2) (j * delta - 1/2) with hP
    refine ⟨takeBack a b c d e f P.1 P.2, ?_, takeBack_near hs e f _ _ _ _ w1 w2⟩
    obtain ⟨t1, t2⟩ := takeBack_fwd hs.1 e f P.1 P.2
    change (_, _) ∈ T
    rw [t1, t2]
    refine subset_convexHull ℚ _ ⟨i, j, ?_, ?_, rfl⟩
    · have : i * delta ≤ delta * l := by rw [Nat.mul_comm delta]; exact Nat.mul_le_mul_right _ hi
      have := hrx.2.2
      omega
    · have : j * delta ≤ delta * k := by rw [Nat.mul_comm delta]; exact Nat.mul_le_mul_right _ hj
      have := hry.2.2
      omega
  obtain ⟨q00, m00, x00, y00⟩ := node 0 0 (by omega) (by omega)
  obtain ⟨q10, m10, x10, y10⟩ := node l 0 le_rfl (by omega)
  obtain ⟨q01, m01, x01, y01⟩ := node 0 k (by omega) le_rfl
  obtain ⟨q11, m11, x11, y11⟩ := node l k le_rfl le_rfl
  obtain ⟨w1, w2⟩ := hw x y (by linarith [hx.1]) (by linarith [hx.2]) (by linarith [hy.1]) (by linarith [hy.2])
  rw [huv] at w1 w2
  obtain ⟨n1, n2⟩ := takeBack_near hs e f x y u v w1 w2
  obtain ⟨t1, t2⟩ := takeBack_fwd hs.1 e f u v
  rw [abs_le] at x00 y00 x10 y10 x01 y01 x11 y11 n1 n2
  push_cast at x00 y00 x10 y10 x01 y01 x11 y11
  have hin : (takeBack a b c d e f u v) ∈ {p : ℚ × ℚ | (a * p.1 + b * p.2 + e, c * p.1 + d * p.2 + f) ∈ T} := by
    refine convex_quad (convex_pre (convex_convexHull ℚ _) a b c d e f) m00 m10 m01 m11
      (xl := -(1/2) + δx) (xh := rx - 1/2 - δx) (yl := -(1/2) + δy) (yh := ry - 1/2 - δy)
      (x := (takeBack a b c d e f u v).1) (y := (takeBack a b c d e f u v).2) ?_ ?_ ?_ ?_ ?_ ?_ ?_ ?_ ?_ ?_ ?_ ?_ <;>
    linarith [x00.1, x00.2, y00.1, y00.2, x10.1, x10.2, y10.1, y10.2, x01.1, x01.2, y01.1, y01.2, x11.1, x11.2, y11.1,
      y11.2, n1.1, n1.2, n2.1, n2.2, hx.1, hx.2, hy.1, hy.2]
  change (_, _) ∈ T at hin
  rw [t1, t2] at hin
  obtain ⟨x', y', hcall⟩ := (C98_nan_to_se fit hf coaddInv off se nrow ncol delta hd toSe toCo h u v).2 hin
  obtain ⟨b1, b2⟩ := C142_to_se fit lam coaddInv off se nrow ncol delta hst hd toSe toCo h rx ry hrx hry a b c d e f ε hs.1
    hw x y ⟨by linarith [hx.1], by linarith [hx.2]⟩ ⟨by linarith [hy.1], by linarith [hy.2]⟩ u v x' y' huv hcall
  refine ⟨x', y', hcall, b1.trans (mul_le_mul_of_nonneg_left ?_ (by linarith)),
    b2.trans (mul_le_mul_of_nonneg_left ?_ (by linarith))⟩
  · rw [div_mul_eq_mul_div, div_le_iff₀ hD]
    exact hs.2.1
  · rw [div_mul_eq_mul_div, div_le_iff₀ hD]
    exact hs.2.2

/-- C143: outside of the grid by more than the departure the lookup from coadd to SE is NaN: no coadd pixel is filled from
an SE image it is not on. -/
theorem C143_outside (fit : Fit) (hf : FitSpec fit) (coaddInv : ℚ → ℚ → ℚ × ℚ) (off : ℚ)
    (se : SEWcs) (nrow ncol delta : Nat) (hd : 0 < delta) (toSe toCo : InvInterp)
    (h : getWcsInverse fit coaddInv off se nrow ncol delta = .ok (toSe, toCo))
    (rx ry : ℕ) (hrx : IsReach ncol delta rx) (hry : IsReach nrow delta ry) (a b c d e f ε δx δy : ℚ)
    (hw : MapNearAffine coaddInv off se rx ry a b c d e f ε) (hs : InSePixels a b c d ε δx δy) (x y u v : ℚ)
    (hu : |u - (a * x + b * y + e)| ≤ ε) (hv : |v - (c * x + d * y + f)| ≤ ε)
    (hout : x < -(1/2) - 2 * δx ∨ (rx : ℚ) - 1/2 + 2 * δx < x ∨ y < -(1/2) - 2 * δy ∨ (ry : ℚ) - 1/2 + 2 * δy < y) :
    toSe.call u v = (none, none) := by
  refine (C98_nan_to_se fit hf coaddInv off se nrow ncol delta hd toSe toCo h u v).1 fun hin => ?_
  obtain ⟨n1, n2⟩ := takeBack_near hs e f x y u v hu hv
  rw [abs_le] at n1 n2
  have hconv : Convex ℚ {p : ℚ × ℚ | -(1/2) - δx ≤ (takeBack a b c d e f p.1 p.2).1 ∧
      (takeBack a b c d e f p.1 p.2).1 ≤ (rx : ℚ) - 1/2 + δx ∧ -(1/2) - δy ≤ (takeBack a b c d e f p.1 p.2).2 ∧
      (takeBack a b c d e f p.1 p.2).2 ≤ (ry : ℚ) - 1/2 + δy} := by
    have := convex_pre (T := Set.Icc (-(1/2) - δx) ((rx : ℚ) - 1/2 + δx) ×ˢ Set.Icc (-(1/2) - δy) ((ry : ℚ) - 1/2 + δy))
      ((convex_Icc _ _).prod (convex_Icc _ _)) (d / (a * d - b * c)) (-b / (a * d - b * c)) (-c / (a * d - b * c))
      (a / (a * d - b * c)) ((b * f - d * e) / (a * d - b * c)) ((c * e - a * f) / (a * d - b * c))
    convert this using 1
    ext p
    have e1 : d / (a * d - b * c) * p.1 + -b / (a * d - b * c) * p.2 + (b * f - d * e) / (a * d - b * c) =
        (takeBack a b c d e f p.1 p.2).1 := by unfold takeBack; ring
    have e2 : -c / (a * d - b * c) * p.1 + a / (a * d - b * c) * p.2 + (c * e - a * f) / (a * d - b * c) =
        (takeBack a b c d e f p.1 p.2).2 := by unfold takeBack; ring
    simp only [Set.mem_ofPred_eq, e1, e2, Set.mem_prod, Set.mem_Icc, and_assoc]
  have hsub := convexHull_min (s := {p | ∃ i j : Nat, i * delta < ncol + delta ∧
      j * delta < nrow + delta ∧ p = coaddPos coaddInv off se (i * delta - 1/2) (j * delta - 1/2)}) (by
    rintro p ⟨i, j, hi, hj, rfl⟩
    have key : ∀ {dim r n : ℕ}, IsReach dim delta r → n * delta < dim + delta → ((n : ℚ)) * delta ≤ r := by
      intro dim r n ⟨⟨m, hm⟩, h1, h2⟩ hn
      have : n ≤ m := by
        by_contra hc
        have : delta * (m + 1) ≤ delta * n := Nat.mul_le_mul_left _ (by omega)
        rw [Nat.mul_add, Nat.mul_comm delta n] at this
        omega
      have : n * delta ≤ r := by rw [hm, Nat.mul_comm]; exact Nat.mul_le_mul_left _ this
      exact_mod_cast this
    have g1 := key hrx hi
    have g2 := key hry hj
    have g3 : (0 : ℚ) ≤ (i : ℚ) * delta := by positivity
    have g4 : (0 : ℚ) ≤ (j : ℚ) * delta := by positivity
    obtain ⟨w1, w2⟩ := hw (i * delta - 1/2) (j * delta - 1/2) (by linarith) (by linarith) (by linarith) (by linarith)
    obtain ⟨k1, k2⟩ := takeBack_near hs e f _ _ _ _ w1 w2
    rw [abs_le] at k1 k2
    exact ⟨by linarith [k1.1], by linarith [k1.2], by linarith [k2.1], by linarith [k2.2]⟩) hconv hin
  obtain ⟨s1, s2, s3, s4⟩ := hsub
  dsimp only at s1 s2 s3 s4
  rcases hout with ho | ho | ho | ho <;> linarith [n1.1, n1.2, n2.1, n2.2]

/-! ### An example -/

/-- A coadd WCS that displaces columns along themselves by a parabola. -/
def exParabola : ℚ → ℚ → ℚ × ℚ := fun u v => (u, v + u * u / 1000)

/-- An SE WCS with FITS positions as sky positions. -/
def exPlain : SEWcs := ⟨fun x y => (x, y), fun u v => (u, v), 1⟩

theorem exParabola_pos (x y : ℚ) : coaddPos exParabola 1 exPlain x y = (x, y + (x + 1) * (x + 1) / 1000) := by
  simp only [coaddPos, exParabola, exPlain, Prod.mk.injEq]
  constructor <;> ring

theorem exParabola_near : MapNearAffine exParabola 1 exPlain 8 8 1 0 0 1 0 0 0.07225 := by
  intro x y h1 h2 h3 h4
  push_cast at h2
  rw [exParabola_pos]
  refine ⟨by norm_num, ?_⟩
  dsimp only
  rw [abs_le]
  constructor <;> nlinarith

theorem exParabola_pixels : InSePixels 1 0 0 1 0.07225 0.07225 0.07225 := by
  unfold InSePixels
  norm_num

/-- `C143_exists`. -/
theorem exParabola_lookups : ∃ toSe toCo, getWcsInverse meanFit exParabola 1 exPlain 8 8 4 = .ok (toSe, toCo) :=
  C143_exists meanFit meanFit_spec exParabola 1 exPlain 8 8 4 (by norm_num) (by norm_num) (by norm_num) 8 8
    ⟨⟨2, rfl⟩, by norm_num, by norm_num⟩ ⟨⟨2, rfl⟩, by norm_num, by norm_num⟩ 1 0 0 1 0 0 0.07225 0.07225 0.07225
    exParabola_near exParabola_pixels (by norm_num) (by norm_num)

/-- `C143_inside` and `C143_outside`; the margin is needed: at the lower edge of the image the lookup can be NaN. -/
example : ∃ toSe toCo, getWcsInverse meanFit exParabola 1 exPlain 8 8 4 = .ok (toSe, toCo) ∧
    (∃ x' y', toSe.call 3 (1 + 16/1000) = (some x', some y') ∧ |x' - 3| ≤ 0.15 ∧ |y' - 1| ≤ 0.15) ∧
    toSe.call 3 (-1) = (none, none) ∧
    OnImage 8 8 (3/2) (-1/2) ∧ coaddPos exParabola 1 exPlain (3/2) (-1/2) = (3/2, -1/2 + 6.25/1000) ∧
    toSe.call (3/2) (-1/2 + 6.25/1000) = (none, none) := by
  obtain ⟨toSe, toCo, h⟩ := exParabola_lookups
  refine ⟨toSe, toCo, h, ?_, ?_, ?_, ?_, ?_⟩
  · obtain ⟨x', y', h1, h2, h3⟩ := C143_inside meanFit meanFit_spec 1 (by norm_num) exParabola 1 exPlain 8 8 4 (meanFit_stable _)
      (by norm_num) toSe toCo h 8 8 ⟨⟨2, rfl⟩, by norm_num, by norm_num⟩ ⟨⟨2, rfl⟩, by norm_num, by norm_num⟩
      1 0 0 1 0 0 0.07225 0.07225 0.07225 exParabola_near exParabola_pixels 3 1 (by norm_num) (by norm_num)
      3 (1 + 16/1000) (by rw [exParabola_pos]; norm_num)
    exact ⟨x', y', h1, h2.trans (by norm_num), h3.trans (by norm_num)⟩
  · exact C143_outside meanFit meanFit_spec exParabola 1 exPlain 8 8 4
      (by norm_num) toSe toCo h 8 8 ⟨⟨2, rfl⟩, by norm_num, by norm_num⟩ ⟨⟨2, rfl⟩, by norm_num, by norm_num⟩
      1 0 0 1 0 0 0.07225 0.07225 0.07225 exParabola_near exParabola_pixels 3 (-1) 3 (-1) (by norm_num) (by norm_num)
      (.inr (.inr (.inl (by norm_num))))
  · unfold OnImage
    norm_num
  · rw [exParabola_pos]
    norm_num
  · refine (C98_nan_to_se meanFit meanFit_spec exParabola 1 exPlain 8 8 4 (by norm_num) toSe toCo h _ _).1 fun hin => ?_
    have hconv : Convex ℚ {p : ℚ × ℚ | -1/2 + 0.00025 + 0.005 * (p.1 + 1/2) ≤ p.2} := by
      have := convex_pre (T := Set.univ ×ˢ Set.Ici (0 : ℚ)) (convex_univ.prod (convex_Ici _)) 1 0 (-0.005) 1 0
        (1/2 - 0.00025 - 0.0025)
      convert this using 1
      ext p
      simp only [Set.mem_ofPred_eq, Set.mem_prod, Set.mem_univ, true_and, Set.mem_Ici]
      constructor <;> intro h <;> linarith
    have := convexHull_min (s := {p | ∃ i j : Nat, i * 4 < 8 + 4 ∧
      j * 4 < 8 + 4 ∧ p = coaddPos exParabola 1 exPlain (i * (4 : ℕ) - 1/2) (j * (4 : ℕ) - 1/2)}) (by
      rintro p ⟨i, j, hi, hj, rfl⟩
      rw [exParabola_pos]
      have h0 : (0 : ℚ) ≤ j := by positivity
      have : i = 0 ∨ i = 1 ∨ i = 2 := by omega
      rcases this with rfl | rfl | rfl <;> · simp only [Set.mem_ofPred_eq]; push_cast; linarith) hconv hin
    norm_num at this

end Pizza
