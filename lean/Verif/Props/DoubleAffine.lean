import Verif.Model.DoubleAffine
import Verif.Props.DoubleStore

/-! C136: the affine WCS in floating point arithmetic. -/

namespace Pizza

section
variable {p : ℕ} {rnd : ℚ → ℚ}

theorem Near.sub {u s t T s' t' T' : ℚ} {e : ℕ} (h : Near u e s t T) (h' : Near u e s' t' T') :
    Near u e (s - s') (t - t') (T + T') := by
  have hn : Near u e (-s') (-t') T' := by
    refine ⟨?_, by rw [abs_neg]; exact h'.2⟩
    rw [show -s' - -t' = -(s' - t') by ring, abs_neg]
    exact h'.1
  simpa only [sub_eq_add_neg] using h.add hn

theorem Rounds.eq_zero (h : Rounds p rnd) (hp : 1 ≤ p) {x : ℚ} (hx : rnd x = 0) : x = 0 := by
  have h1 := h.err hp x
  have h2 := unitOf_le hp
  rw [hx, zero_sub, abs_neg] at h1
  by_contra h0
  have := abs_pos.2 h0
  nlinarith

theorem unitOf_ten (hp : 10 ≤ p) : unitOf p ≤ 1 / 1024 := by
  unfold unitOf
  have : (1024 : ℚ) ≤ 2 ^ p := by
    calc (1024 : ℚ) = 2 ^ 10 := by norm_num
      _ ≤ 2 ^ p := pow_le_pow_right₀ (by norm_num) hp
  gcongr

/-- C136: a transformation that is not invertible is refused: both products round alike. -/
theorem C136_singular (rnd : ℚ → ℚ) (h0 : Rounds p rnd) (a b c d x0 y0 : ℚ) (h : a * d - b * c = 0) :
    AffineWCS.mkD rnd a b c d x0 y0 = .error .valueError := by
  have e : a * d = c * b := by linarith
  simp [AffineWCS.mkD, e, h0.zero]

/-- C136: a transformation whose determinant is not lost in the rounding of the products is accepted, with its
parameters. -/
theorem C136_accepted (hp : 1 ≤ p) (rnd : ℚ → ℚ) (h0 : Rounds p rnd) (a b c d x0 y0 : ℚ)
    (h : (|a * d| + |b * c|) / 2 ^ p < |a * d - b * c|) :
    ∃ w, AffineWCS.mkD rnd a b c d x0 y0 = .ok w ∧
      w.dudx = a ∧ w.dudy = b ∧ w.dvdx = c ∧ w.dvdy = d ∧ w.x0 = x0 ∧ w.y0 = y0 := by
  have hne : rnd (rnd (a * d) - rnd (c * b)) ≠ 0 := by
    intro hz
    have hz := h0.eq_zero hp hz
    have e1 := h0.err hp (a * d)
    have e2 := h0.err hp (c * b)
    have e3 := abs_sub_le (rnd (a * d) - a * d) 0 (rnd (c * b) - c * b)
    rw [sub_zero, zero_sub, abs_neg,
      show rnd (a * d) - a * d - (rnd (c * b) - c * b) = -(a * d - b * c) by linarith, abs_neg] at e3
    rw [mul_comm c b] at e2 e3
    have : (|a * d| + |b * c|) / 2 ^ p = unitOf p * |a * d| + unitOf p * |b * c| := by unfold unitOf; ring
    linarith
  exact ⟨⟨a, b, c, d, x0, y0, rnd (rnd (a * d) - rnd (c * b))⟩, by simp [AffineWCS.mkD, hne], rfl, rfl, rfl, rfl, rfl, rfl⟩

/-- A rotation by 45 degrees with a scale of 1/4 in double precision. -/
example : ∃ rnd, Rounds 53 rnd ∧ ∃ w, AffineWCS.mkD rnd (1 / 4) (1 / 4) (-1 / 4) (1 / 4) 1024 2048 = .ok w := by
  obtain ⟨rnd, h⟩ := exists_rounds 53 (by norm_num)
  obtain ⟨w, hw, -⟩ := C136_accepted (by norm_num) rnd h (1 / 4) (1 / 4) (-1 / 4) (1 / 4) 1024 2048 (by
    norm_num [abs_of_pos, abs_of_neg])
  exact ⟨rnd, h, w, hw⟩

/-- C136: the condition is needed.  A transformation that is invertible can be refused, if its determinant is
lost in the rounding. -/
theorem C136_accepted_sharp (rnd : ℚ → ℚ) (h : Rounds 53 rnd) :
    ∃ a b c d : ℚ, IsFloat 53 a ∧ IsFloat 53 b ∧ IsFloat 53 c ∧ IsFloat 53 d ∧ a * d - b * c ≠ 0 ∧
      AffineWCS.mkD rnd a b c d 0 0 = .error .valueError := by
  have fa : IsFloat 53 (1 + 1 / 2 ^ 52) := ⟨2 ^ 52 + 1, -52, by norm_num, by norm_num⟩
  have fc : IsFloat 53 (1 + 1 / 2 ^ 51) := ⟨2 ^ 51 + 1, -51, by norm_num, by norm_num⟩
  have f1 : IsFloat 53 1 := ⟨1, 0, by norm_num, by norm_num⟩
  refine ⟨1 + 1 / 2 ^ 52, 1, 1 + 1 / 2 ^ 51, 1 + 1 / 2 ^ 52, fa, f1, fc, fa, by norm_num, ?_⟩
  have e : rnd ((1 + 1 / 2 ^ 52) * (1 + 1 / 2 ^ 52)) = 1 + 1 / 2 ^ 51 :=
    (h.eq (x := (1 + 1 / 2 ^ 52) * (1 + 1 / 2 ^ 52)) (by norm_num) (2 ^ 52 + 2) (-52) (by norm_num) (by norm_num)
      (by norm_num [abs_of_pos])).trans (by norm_num)
  simp only [AffineWCS.mkD, mul_one, e, h.exact fc, sub_self, h.zero, if_true]

/-- `C136_accepted_sharp`: there is such a rounding. -/
example : ∃ rnd, Rounds 53 rnd ∧ ∃ a b c d : ℚ, a * d - b * c ≠ 0 ∧ AffineWCS.mkD rnd a b c d 0 0 = .error .valueError := by
  obtain ⟨rnd, h⟩ := exists_rounds 53 (by norm_num)
  obtain ⟨a, b, c, d, -, -, -, -, h1, h2⟩ := C136_accepted_sharp rnd h
  exact ⟨rnd, h, a, b, c, d, h1, h2⟩

theorem affine_forward (h : Rounds p rnd) (hp : 1 ≤ p) (a b X Y : ℚ) :
    Near (unitOf p) 3 (rnd (rnd (a * rnd X) + rnd (b * rnd Y))) (a * X + b * Y) (|a| * |X| + |b| * |Y|) := by
  have hu := (unitOf_pos p).le
  have key : ∀ a X : ℚ, Near (unitOf p) 2 (rnd (a * rnd X)) (a * X) (|a| * |X|) := fun a X =>
    (((Near.refl (unitOf p) a).mul hu (Near.round' h hp X)).round h hp)
  exact ((key a X).add (key b Y)).round h hp

theorem affine_solve (h : Rounds p rnd) (hp : 10 ≤ p) {n δ D X x0 A T : ℚ} (hn : Near (unitOf p) 5 n (D * X) A)
    (hd : Near (unitOf p) 2 δ D T) (hA : T * |X| ≤ A) (hD : D ≠ 0) (hc : 8 * unitOf p * T ≤ |D|) :
    |rnd (rnd (n / δ) + x0) - (X + x0)| ≤ unitOf p * (12 * (A / |D|) + |X + x0|) := by
  have hp1 : 1 ≤ p := by omega
  obtain ⟨u, hu⟩ : ∃ u, u = unitOf p := ⟨_, rfl⟩
  have hu0 : 0 < u := hu ▸ unitOf_pos p
  have hu1 : u ≤ 1 / 1024 := hu ▸ unitOf_ten hp
  have herr : ∀ x, |rnd x - x| ≤ u * |x| := fun x => hu ▸ h.err hp1 x
  rw [← hu] at hn hd hc ⊢
  have hDp : 0 < |D| := abs_pos.2 hD
  have hT0 := hd.nonneg
  have hA0 := hn.nonneg
  have hTD := hd.2
  have q5 : (1 + u) ^ 5 - 1 ≤ 5.02 * u := by
    have e : (1 + u) ^ 5 - 1 = u * (5 + u * (10 + u * (10 + u * (5 + u)))) := by ring
    have i1 : u * (5 + u) ≤ 1 := by nlinarith
    have i2 : u * (10 + u * (5 + u)) ≤ 1 := by nlinarith
    have i3 : u * (10 + u * (10 + u * (5 + u))) ≤ 0.02 := by nlinarith
    rw [e]
    nlinarith
  have q2 : (1 + u) ^ 2 - 1 ≤ 2.01 * u := by nlinarith
  have n1 : |n - D * X| ≤ 5.02 * u * A := hn.1.trans (mul_le_mul_of_nonneg_right q5 hA0)
  have d1 : |δ - D| ≤ 2.01 * u * T := hd.1.trans (mul_le_mul_of_nonneg_right q2 hT0)
  have dl : 0.74 * |D| ≤ |δ| := by
    have := abs_sub_abs_le_abs_sub D δ
    rw [abs_sub_comm] at this
    linarith
  have hδ : 0 < |δ| := by linarith
  have hδ0 : δ ≠ 0 := abs_pos.1 hδ
  obtain ⟨B, hB⟩ : ∃ B, B = A / |D| := ⟨_, rfl⟩
  have hBA : A = B * |D| := by rw [hB]; field_simp
  have hB0 : 0 ≤ B := hB ▸ div_nonneg hA0 hDp.le
  have hXB : |X| ≤ B := by
    rw [hB, le_div_iff₀ hDp]
    calc |X| * |D| ≤ |X| * T := mul_le_mul_of_nonneg_left hTD (abs_nonneg _)
      _ ≤ A := by linarith
  rw [← hB]
  have quo : |n / δ - X| ≤ 9.6 * u * B := by
    have e : n / δ - X = (n - D * X - X * (δ - D)) / δ := by field_simp; ring
    rw [e, abs_div, div_le_iff₀ hδ]
    have t1 : |n - D * X - X * (δ - D)| ≤ |n - D * X| + |X| * |δ - D| := by
      have := abs_sub (n - D * X) (X * (δ - D))
      rwa [abs_mul] at this
    have t2 : |X| * |δ - D| ≤ 2.01 * u * A := by
      calc |X| * |δ - D| ≤ |X| * (2.01 * u * T) := mul_le_mul_of_nonneg_left d1 (abs_nonneg _)
        _ = 2.01 * u * (T * |X|) := by ring
        _ ≤ 2.01 * u * A := mul_le_mul_of_nonneg_left hA (by positivity)
    have t3 : 9.6 * u * B * (0.74 * |D|) ≤ 9.6 * u * B * |δ| := mul_le_mul_of_nonneg_left dl (by positivity)
    have t4 : 0 ≤ u * A := by positivity
    have t5 : 9.6 * u * B * (0.74 * |D|) = 7.104 * (u * A) := by rw [hBA]; ring
    linarith
  have hq : |n / δ| ≤ 1.01 * B := by
    have := abs_add_le (n / δ - X) X
    rw [sub_add_cancel] at this
    nlinarith
  have r1 : |rnd (n / δ) - X| ≤ 10.7 * u * B := by
    have := abs_sub_le (rnd (n / δ)) (n / δ) X
    have e2 := herr (n / δ)
    have e3 : u * |n / δ| ≤ u * (1.01 * B) := mul_le_mul_of_nonneg_left hq hu0.le
    nlinarith
  obtain ⟨z, hz⟩ : ∃ z, z = rnd (n / δ) + x0 := ⟨_, rfl⟩
  have hz1 : |z - (X + x0)| ≤ 10.7 * u * B := by rw [hz, show rnd (n / δ) + x0 - (X + x0) = rnd (n / δ) - X by ring]; exact r1
  rw [← hz]
  have s1 := herr z
  have s2 := abs_sub_le (rnd z) z (X + x0)
  have s3 : |z| ≤ 10.7 * u * B + |X + x0| := by
    have := abs_add_le (z - (X + x0)) (X + x0)
    rw [sub_add_cancel] at this
    linarith
  have s4 : u * |z| ≤ u * (10.7 * u * B + |X + x0|) := mul_le_mul_of_nonneg_left s3 hu0.le
  have s5 : u * (10.7 * u * B) ≤ 1 * (u * B) := by
    have : 0 ≤ u * B := by positivity
    nlinarith
  nlinarith [mul_nonneg hu0.le hB0]

/-- C136: sky coordinates to four units of rounding, relative to the terms of the sum; the position of the origin is
exact in both directions. -/
theorem C136_image2sky (hp : 10 ≤ p) (rnd : ℚ → ℚ) (h : Rounds p rnd) (a b c d x0 y0 : ℚ) (hx0 : IsFloat p x0)
    (hy0 : IsFloat p y0) (w : AffineWCS) (hw : AffineWCS.mkD rnd a b c d x0 y0 = .ok w) :
    (∀ x y, |(w.image2skyD rnd x y).1 - (a * (x - x0) + b * (y - y0))| ≤ 4 / 2 ^ p * (|a * (x - x0)| + |b * (y - y0)|) ∧
      |(w.image2skyD rnd x y).2 - (c * (x - x0) + d * (y - y0))| ≤ 4 / 2 ^ p * (|c * (x - x0)| + |d * (y - y0)|)) ∧
    w.image2skyD rnd x0 y0 = (0, 0) ∧ w.sky2imageD rnd 0 0 = (x0, y0) := by
  have hp1 : 1 ≤ p := by omega
  have hu0 := unitOf_pos p
  have hu1 := unitOf_ten hp
  simp only [AffineWCS.mkD] at hw
  split at hw
  · cases hw
  rename_i hdet
  cases hw
  refine ⟨fun x y => ?_, ?_, ?_⟩
  · have q3 : (1 + unitOf p) ^ 3 - 1 ≤ 4 / 2 ^ p := by
      have : (4 : ℚ) / 2 ^ p = 4 * unitOf p := by unfold unitOf; ring
      rw [this, show (1 + unitOf p) ^ 3 - 1 = unitOf p * (3 + unitOf p * (3 + unitOf p)) by ring]
      have : unitOf p * (3 + unitOf p) ≤ 1 := by nlinarith
      nlinarith
    have key : ∀ a b : ℚ, |rnd (rnd (a * rnd (x - x0)) + rnd (b * rnd (y - y0))) - (a * (x - x0) + b * (y - y0))| ≤
        4 / 2 ^ p * (|a * (x - x0)| + |b * (y - y0)|) := fun a b => by
      rw [abs_mul, abs_mul]
      exact (affine_forward h hp1 a b (x - x0) (y - y0)).1.trans (mul_le_mul_of_nonneg_right q3 (by positivity))
    exact ⟨key a b, key c d⟩
  · simp [AffineWCS.image2skyD, h.zero]
  · simp [AffineWCS.sky2imageD, h.zero, h.exact hx0, h.exact hy0]

/-- C136: a position taken to the sky and back is the position to rounding, with the condition of the matrix as a
factor. -/
theorem C136_roundtrip (hp : 10 ≤ p) (rnd : ℚ → ℚ) (h : Rounds p rnd) (a b c d x0 y0 : ℚ)
    (hc : (|a * d| + |b * c|) / 2 ^ p ≤ |a * d - b * c| / 8) (w : AffineWCS)
    (hw : AffineWCS.mkD rnd a b c d x0 y0 = .ok w) (x y : ℚ) :
    let s := w.image2skyD rnd x y
    let t := w.sky2imageD rnd s.1 s.2
    let D := |a * d - b * c|
    |t.1 - x| ≤ (12 * (((|a * d| + |b * c|) * |x - x0| + 2 * |b * d| * |y - y0|) / D) + |x|) / 2 ^ p ∧
    |t.2 - y| ≤ (12 * (((|a * d| + |b * c|) * |y - y0| + 2 * |a * c| * |x - x0|) / D) + |y|) / 2 ^ p := by
  have hp1 : 1 ≤ p := by omega
  have hu := (unitOf_pos p).le
  have hpu : ∀ z : ℚ, z / 2 ^ p = unitOf p * z := fun z => by unfold unitOf; ring
  rw [hpu] at hc
  simp only [AffineWCS.mkD] at hw
  split at hw
  · cases hw
  rename_i hdet
  cases hw
  intro s t D
  have hD : a * d - b * c ≠ 0 := by
    intro h0
    have e : a * d = c * b := by linarith
    exact hdet (by rw [e, sub_self, h.zero])
  have nd : Near (unitOf p) 2 (rnd (rnd (a * d) - rnd (c * b))) (a * d - b * c) (|a * d| + |b * c|) := by
    have := ((Near.round' h hp1 (a * d)).sub (Near.round' h hp1 (c * b))).round h hp1
    rwa [mul_comm c b] at this ⊢
  have nu := affine_forward h hp1 a b (x - x0) (y - y0)
  have nv := affine_forward h hp1 c d (x - x0) (y - y0)
  have hs : s = (rnd (rnd (a * rnd (x - x0)) + rnd (b * rnd (y - y0))),
    rnd (rnd (c * rnd (x - x0)) + rnd (d * rnd (y - y0)))) := rfl
  have mulc : ∀ (k : ℚ) {s t T : ℚ}, Near (unitOf p) 3 s t T → Near (unitOf p) 4 (rnd (k * s)) (k * t) (|k| * T) :=
    fun k _ _ _ hn => by
      have := ((Near.refl (unitOf p) k).mul hu hn).round h hp1
      simpa using this
  rw [hpu, hpu]
  constructor
  · have nn := ((mulc d nu).sub (mulc b nv)).round h hp1
    have := affine_solve h hp (X := x - x0) (x0 := x0) (D := a * d - b * c) (T := |a * d| + |b * c|)
      (A := (|a * d| + |b * c|) * |x - x0| + 2 * |b * d| * |y - y0|) (by
        convert nn using 1
        · ring
        · rw [abs_mul, abs_mul, abs_mul]; ring) nd (by
        have : 0 ≤ 2 * |b * d| * |y - y0| := by positivity
        linarith) hD (by linarith)
    rw [sub_add_cancel] at this
    exact this
  · have nn := ((mulc (-c) nu).add (mulc a nv)).round h hp1
    have := affine_solve h hp (X := y - y0) (x0 := y0) (D := a * d - b * c) (T := |a * d| + |b * c|)
      (A := (|a * d| + |b * c|) * |y - y0| + 2 * |a * c| * |x - x0|) (by
        convert nn using 1
        · ring
        · rw [abs_mul, abs_mul, abs_mul, abs_neg]; ring) nd (by
        have : 0 ≤ 2 * |a * c| * |x - x0| := by positivity
        linarith) hD (by linarith)
    rw [sub_add_cancel] at this
    exact this

/-- The rotated frame above: a pixel of a DES image comes back to 1e-10. -/
example : ∃ rnd, Rounds 53 rnd ∧ ∃ w, AffineWCS.mkD rnd (1 / 4) (1 / 4) (-1 / 4) (1 / 4) 1024 2048 = .ok w ∧
    ∀ x y, |x - 1024| ≤ 4096 → |y - 2048| ≤ 4096 → |x| ≤ 4096 →
      |(w.sky2imageD rnd (w.image2skyD rnd x y).1 (w.image2skyD rnd x y).2).1 - x| ≤ 1 / 10 ^ 10 := by
  obtain ⟨rnd, h⟩ := exists_rounds 53 (by norm_num)
  obtain ⟨w, hw, -⟩ := C136_accepted (by norm_num) rnd h (1 / 4) (1 / 4) (-1 / 4) (1 / 4) 1024 2048 (by
    norm_num [abs_of_pos, abs_of_neg])
  refine ⟨rnd, h, w, hw, fun x y hx hy hx' => ?_⟩
  have := (C136_roundtrip (by norm_num) rnd h (1 / 4) (1 / 4) (-1 / 4) (1 / 4) 1024 2048 (by
    norm_num [abs_of_pos, abs_of_neg]) w hw x y).1
  refine this.trans ?_
  norm_num [abs_of_pos, abs_of_neg]
  rw [div_le_div_iff₀ (by norm_num) (by norm_num)]
  linarith

/-- `C136_singular` on a matrix of two proportional rows. -/
example : ∃ rnd, Rounds 53 rnd ∧ AffineWCS.mkD rnd (1 / 3) (2 / 3) (1 / 7) (2 / 7) 5 6 = .error .valueError := by
  obtain ⟨rnd, h⟩ := exists_rounds 53 (by norm_num)
  exact ⟨rnd, h, C136_singular rnd h _ _ _ _ _ _ (by norm_num)⟩

/-- `C136_image2sky` on the rotated frame: sky coordinates of a DES image to 1e-12. -/
example : ∃ rnd, Rounds 53 rnd ∧ ∃ w, AffineWCS.mkD rnd (1 / 4) (1 / 4) (-1 / 4) (1 / 4) 1024 2048 = .ok w ∧
    |(w.image2skyD rnd 3 5).1 - (1 / 4 * (3 - 1024) + 1 / 4 * (5 - 2048))| ≤ 1 / 10 ^ 12 := by
  obtain ⟨rnd, h⟩ := exists_rounds 53 (by norm_num)
  obtain ⟨w, hw, -⟩ := C136_accepted (by norm_num) rnd h (1 / 4) (1 / 4) (-1 / 4) (1 / 4) 1024 2048 (by
    norm_num [abs_of_pos, abs_of_neg])
  refine ⟨rnd, h, w, hw, ?_⟩
  have := ((C136_image2sky (by norm_num) rnd h _ _ _ _ 1024 2048 ⟨1024, 0, by norm_num, by norm_num⟩
    ⟨2048, 0, by norm_num, by norm_num⟩ w hw).1 3 5).1
  refine this.trans ?_
  norm_num [abs_of_pos, abs_of_neg]

end

end Pizza
