import Verif.Model.DoubleJac
import Verif.Props.DoubleWrap
import Verif.Props.DoubleGeom
import Verif.Props.DoubleCoadd
import Verif.Lemmas.DoubleLanczos

/-! C135: Jacobians and pixel areas in double precision. -/

namespace Pizza

/-- Near the pixel position `x`, `y` the sky is affine up to whole turns of RA and an error of `ε` degrees. -/
structure SkyNear (image2sky : ℚ → ℚ → ℚ × ℚ) (x y r0 rx ry d0 dx dy ε : ℚ) : Prop where
  ra : ∀ x' y', |x' - x| ≤ 2 → |y' - y| ≤ 2 → 0 ≤ (image2sky x' y').1 ∧ (image2sky x' y').1 ≤ 360 ∧
    ∃ k : ℤ, |(image2sky x' y').1 - (r0 + rx * x' + ry * y' + 360 * k)| ≤ ε
  dec : ∀ x' y', |x' - x| ≤ 2 → |y' - y| ≤ 2 → |(image2sky x' y').2 - (d0 + dx * x' + dy * y')| ≤ ε

section
variable {rnd : ℚ → ℚ}

/-- A step of about two pixels of RA, wrapped. -/
theorem ra_step (h : Rounds 53 rnd) {a b D ε : ℚ} (ha : 0 ≤ a ∧ a ≤ 360) (hb : 0 ≤ b ∧ b ≤ 360)
    (hD : ∃ k : ℤ, |a - b - (D + 360 * k)| ≤ ε) (h1 : |D| ≤ 1) (h2 : ε ≤ 100) :
    (∃ w, DiffRuns rnd a b (.fin w)) ∧ ∀ w, DiffRuns rnd a b (.fin w) → |w - D| ≤ ε + 360 / 2 ^ 53 := by
  obtain ⟨r, hr, hr1, k, hk⟩ := C129_of_two 53 (by norm_num) rnd h a b ha.1 ha.2 hb.1 hb.2
  refine ⟨⟨r, hr⟩, fun w hw => ?_⟩
  have : w = r := by
    have := C129_one_result rnd _ _ _ hw hr
    exact Flt.fin.inj this
  subst this
  obtain ⟨k', hk'⟩ := hD
  rw [abs_le] at hk hk' hr1 h1
  have hm : (k + k' : ℤ) = 0 := by
    have e1 : ((k + k' : ℤ) : ℚ) < 1 := by push_cast; norm_num at hk; linarith [hk.1, hk.2, hk'.1, hk'.2]
    have e2 : (-1 : ℚ) < ((k + k' : ℤ) : ℚ) := by push_cast; norm_num at hk; linarith [hk.1, hk.2, hk'.1, hk'.2]
    have e1 : (k + k' : ℤ) < 1 := by exact_mod_cast e1
    have e2 : (-1 : ℤ) < k + k' := by exact_mod_cast e2
    omega
  have hm' : (k : ℚ) + k' = 0 := by exact_mod_cast hm
  rw [abs_le]
  constructor <;> nlinarith [hk.1, hk.2, hk'.1, hk'.2]

/-- The positions one step ahead and behind. -/
theorem step_pos (h : Rounds 53 rnd) {x : ℚ} (hx : |x| ≤ 2 ^ 16) (s : ℚ) (hs : |s| ≤ 1) :
    |rnd (x + s) - (x + s)| ≤ 1 / 10 ^ 11 := by
  refine (h.err (by norm_num) _).trans ?_
  have := abs_add_le x s
  unfold unitOf
  have h1 : |x + s| ≤ 2 ^ 16 + 1 := by linarith
  calc 1 / 2 ^ 53 * |x + s| ≤ 1 / 2 ^ 53 * (2 ^ 16 + 1) := by gcongr
    _ ≤ _ := by norm_num

/-- The differences over two pixels along one axis; `X`, `Y` are the positions ahead and behind, `P` and `M`. -/
theorem sky_steps (h : Rounds 53 rnd) {f : ℚ → ℚ → ℚ × ℚ} {x y r0 rx ry d0 dx dy ε : ℚ}
    (hsky : SkyNear f x y r0 rx ry d0 dx dy ε) (hx : |x| ≤ 2 ^ 16) (hy : |y| ≤ 2 ^ 16)
    (b1 : |rx| ≤ 1 / 1000) (b2 : |ry| ≤ 1 / 1000) (b3 : |dx| ≤ 1 / 1000) (b4 : |dy| ≤ 1 / 1000) (he : ε ≤ 1) :
    ((∃ w, DiffRuns rnd (f (rnd (x + 1)) y).1 (f (rnd (x - 1)) y).1 (.fin w)) ∧
      ∀ w, DiffRuns rnd (f (rnd (x + 1)) y).1 (f (rnd (x - 1)) y).1 (.fin w) → |w - 2 * rx| ≤ 2 * ε + 6 / 10 ^ 14) ∧
    ((∃ w, DiffRuns rnd (f x (rnd (y + 1))).1 (f x (rnd (y - 1))).1 (.fin w)) ∧
      ∀ w, DiffRuns rnd (f x (rnd (y + 1))).1 (f x (rnd (y - 1))).1 (.fin w) → |w - 2 * ry| ≤ 2 * ε + 6 / 10 ^ 14) ∧
    |rnd ((f (rnd (x + 1)) y).2 - (f (rnd (x - 1)) y).2) - 2 * dx| ≤ 2 * ε + 6 / 10 ^ 14 ∧
    |rnd ((f x (rnd (y + 1))).2 - (f x (rnd (y - 1))).2) - 2 * dy| ≤ 2 * ε + 6 / 10 ^ 14 := by
  have key : ∀ z, |z| ≤ (2 : ℚ) ^ 16 → |rnd (z + 1) - z| ≤ 2 ∧ |rnd (z - 1) - z| ≤ 2 ∧
      ∀ s : ℚ, |s| ≤ 1 / 1000 → |s * (rnd (z + 1) - rnd (z - 1)) - 2 * s| ≤ 2 / 10 ^ 14 := by
    intro z hz
    have p1 := step_pos h hz 1 (by norm_num)
    have p2 := step_pos h hz (-1) (by norm_num)
    rw [← sub_eq_add_neg] at p2
    refine ⟨?_, ?_, ?_⟩
    · rw [abs_le] at p1 ⊢
      constructor <;> linarith [p1.1, p1.2]
    · rw [abs_le] at p2 ⊢
      constructor <;> linarith [p2.1, p2.2]
    · intro s hs
      rw [show s * (rnd (z + 1) - rnd (z - 1)) - 2 * s = s * (rnd (z + 1) - rnd (z - 1) - 2) by ring, abs_mul]
      have : |rnd (z + 1) - rnd (z - 1) - 2| ≤ 2 / 10 ^ 11 := by
        rw [abs_le] at p1 p2 ⊢
        constructor <;> linarith [p1.1, p1.2, p2.1, p2.2]
      calc |s| * |rnd (z + 1) - rnd (z - 1) - 2| ≤ 1 / 1000 * (2 / 10 ^ 11) :=
            mul_le_mul hs this (abs_nonneg _) (by norm_num)
        _ = _ := by norm_num
  have rakey : ∀ a b p q s : ℚ, |s| ≤ (1 : ℚ) / 1000 → (0 ≤ a ∧ a ≤ 360 ∧ ∃ k : ℤ, |a - (p + 360 * k)| ≤ ε) →
      (0 ≤ b ∧ b ≤ 360 ∧ ∃ k : ℤ, |b - (q + 360 * k)| ≤ ε) → |p - q - 2 * s| ≤ 2 / 10 ^ 14 →
      (∃ w, DiffRuns rnd a b (.fin w)) ∧ ∀ w, DiffRuns rnd a b (.fin w) → |w - 2 * s| ≤ 2 * ε + 6 / 10 ^ 14 := by
    rintro a b p q s hs ⟨a1, a2, k, hk⟩ ⟨c1, c2, l, hl⟩ hpq
    have hD : ∃ j : ℤ, |a - b - (2 * s + 360 * j)| ≤ 2 * ε + 2 / 10 ^ 14 := by
      refine ⟨k - l, ?_⟩
      push_cast
      rw [abs_le] at hk hl hpq ⊢
      constructor <;> linarith [hk.1, hk.2, hl.1, hl.2, hpq.1, hpq.2]
    obtain ⟨e1, e2⟩ := ra_step h ⟨a1, a2⟩ ⟨c1, c2⟩ hD (by rw [abs_mul, abs_two]; linarith) (by norm_num; linarith)
    refine ⟨e1, fun w hw => (e2 w hw).trans ?_⟩
    norm_num
    linarith
  have deckey : ∀ a b p q s : ℚ, |s| ≤ (1 : ℚ) / 1000 → |a - p| ≤ ε → |b - q| ≤ ε → |p - q - 2 * s| ≤ 2 / 10 ^ 14 →
      |rnd (a - b) - 2 * s| ≤ 2 * ε + 6 / 10 ^ 14 := by
    intro a b p q s hs ha hb hpq
    have hd : |a - b - 2 * s| ≤ 2 * ε + 2 / 10 ^ 14 := by
      rw [abs_le] at ha hb hpq ⊢
      constructor <;> linarith [ha.1, ha.2, hb.1, hb.2, hpq.1, hpq.2]
    have hr := h.err (by norm_num) (a - b)
    have hab : |a - b| ≤ 3 := by
      rw [abs_le] at hd hs ⊢
      constructor <;> norm_num at hd <;> linarith [hd.1, hd.2, hs.1, hs.2]
    have hr2 : |rnd (a - b) - (a - b)| ≤ 1 / 2 ^ 53 * 3 := hr.trans (mul_le_mul_of_nonneg_left hab (unitOf_pos 53).le)
    by_cases hsm : ε ≤ 0
    · rw [abs_le] at hr2 hd ⊢
      norm_num at hr2 hd ⊢
      constructor <;> linarith [hr2.1, hr2.2, hd.1, hd.2]
    · rw [abs_le] at hr2 hd ⊢
      norm_num at hr2 hd ⊢
      constructor <;> linarith [hr2.1, hr2.2, hd.1, hd.2]
  obtain ⟨x1, x2, x3⟩ := key x hx
  obtain ⟨y1, y2, y3⟩ := key y hy
  have z2 : |x - x| ≤ 2 := by simp
  have w2 : |y - y| ≤ 2 := by simp
  refine ⟨?_, ?_, ?_, ?_⟩
  · refine rakey _ _ _ _ rx b1 (hsky.ra _ _ x1 w2) (hsky.ra _ _ x2 w2) ?_
    convert x3 rx b1 using 2
    ring
  · refine rakey _ _ _ _ ry b2 (hsky.ra _ _ z2 y1) (hsky.ra _ _ z2 y2) ?_
    convert y3 ry b2 using 2
    ring
  · refine deckey _ _ _ _ dx b3 (hsky.dec _ _ x1 w2) (hsky.dec _ _ x2 w2) ?_
    convert x3 dx b3 using 2
    ring
  · refine deckey _ _ _ _ dy b4 (hsky.dec _ _ z2 y1) (hsky.dec _ _ z2 y2) ?_
    convert y3 dy b4 using 2
    ring

/-- Some roundings of an element of the Jacobian. -/
theorem elem_err {z w r c ε : ℚ} (hz : Near (unitOf 53) 4 z (1800 * w * c) (1800 * |w| * |c|))
    (hw : |w - 2 * r| ≤ 2 * ε + 6 / 10 ^ 14) (hr : |r| ≤ 1 / 1000) (hc : |c| ≤ 1) :
    |z - 3600 * r * c| ≤ 3601 * ε + 11 / 10 ^ 11 := by
  have he : 0 ≤ 2 * ε + 6 / 10 ^ 14 := (abs_nonneg _).trans hw
  have h1 := hz.1
  have hw2 : |w| ≤ 1 / 500 + (2 * ε + 6 / 10 ^ 14) := by
    have := abs_add_le (w - 2 * r) (2 * r)
    rw [sub_add_cancel, abs_mul, abs_two] at this
    linarith
  have h2 : ((1 + unitOf 53) ^ 4 - 1) * (1800 * |w| * |c|) ≤ 1 / 10 ^ 15 * (1800 * (1 / 500 + (2 * ε + 6 / 10 ^ 14)) * 1) := by
    have : (1 + unitOf 53) ^ 4 - 1 ≤ 1 / 10 ^ 15 := by unfold unitOf; norm_num
    gcongr
  have h3 : |1800 * w * c - 3600 * r * c| ≤ 1800 * (2 * ε + 6 / 10 ^ 14) := by
    rw [show 1800 * w * c - 3600 * r * c = 1800 * (w - 2 * r) * c by ring, abs_mul, abs_mul, abs_of_pos (by norm_num : (0 : ℚ) < 1800)]
    calc 1800 * |w - 2 * r| * |c| ≤ 1800 * (2 * ε + 6 / 10 ^ 14) * 1 := by gcongr
      _ = _ := by ring
  have h4 := abs_add_le (z - 1800 * w * c) (1800 * w * c - 3600 * r * c)
  rw [sub_add_sub_cancel] at h4
  refine h4.trans ?_
  refine (add_le_add (h1.trans h2) h3).trans ?_
  norm_num
  norm_num at he
  linarith

end

/-- C135: on a sky that is affine up to an error of `ε` degrees (and up to whole turns of RA) every element of the Jacobian
computed in double precision is within `3601 ε` and 1.1e-10 arcsec per pixel of the derivative, in which `c` is the
cosine of the declination as the computer has it. -/
theorem C135_jacobian (rnd : ℚ → ℚ) (h : Rounds 53 rnd) (image2sky : ℚ → ℚ → ℚ × ℚ) (cosd : ℚ → ℚ)
    (x y r0 rx ry d0 dx dy ε c : ℚ) (hsky : SkyNear image2sky x y r0 rx ry d0 dx dy ε) (hx : |x| ≤ 2 ^ 16)
    (hy : |y| ≤ 2 ^ 16) (b1 : |rx| ≤ 1 / 1000) (b2 : |ry| ≤ 1 / 1000) (b3 : |dx| ≤ 1 / 1000) (b4 : |dy| ≤ 1 / 1000)
    (he : ε ≤ 1) (hc : c = cosd (image2sky x y).2) (hc1 : |c| ≤ 1) :
    (∃ j, JacRuns rnd image2sky cosd x y 1 j) ∧
    ∀ j, JacRuns rnd image2sky cosd x y 1 j →
      |j.1 - -c * (3600 * rx)| ≤ 3601 * ε + 11 / 10 ^ 11 ∧ |j.2.1 - -c * (3600 * ry)| ≤ 3601 * ε + 11 / 10 ^ 11 ∧
      |j.2.2.1 - 3600 * dx| ≤ 3601 * ε + 11 / 10 ^ 11 ∧ |j.2.2.2 - 3600 * dy| ≤ 3601 * ε + 11 / 10 ^ 11 := by
  obtain ⟨⟨e1, s1⟩, ⟨e2, s2⟩, s3, s4⟩ := sky_steps h hsky hx hy b1 b2 b3 b4 he
  obtain ⟨wx, hwx⟩ := e1
  obtain ⟨wy, hwy⟩ := e2
  refine ⟨⟨_, wx, wy, hwx, hwy, rfl⟩, ?_⟩
  rintro j ⟨ux, uy, hux, huy, rfl⟩
  have r2 : rnd (2 * 1) = 2 := by
    have := h.int (n := 2) (by norm_num)
    norm_num at this ⊢
    exact this
  have rh : rnd (1 / 2) = 1 / 2 := by
    have := h.half (n := 1) (by norm_num)
    norm_num at this ⊢
    exact this
  have r1800 : rnd (1 / 2 * 3600) = 1800 := by
    have := h.int (n := 1800) (by norm_num)
    norm_num at this ⊢
    exact this
  simp only [r2, rh, r1800, ← hc]
  have hu := (unitOf_pos 53).le
  have two : ∀ w r c : ℚ, |w - 2 * r| ≤ 2 * ε + 6 / 10 ^ 14 → |r| ≤ 1 / 1000 → |c| ≤ 1 →
      |rnd (rnd (1800 * w) * c) - 3600 * r * c| ≤ 3601 * ε + 11 / 10 ^ 11 := by
    intro w r c hw hr hc
    refine elem_err ?_ hw hr hc
    have := (((Near.round' h (by norm_num) (1800 * w)).mul hu (Near.refl (unitOf 53) c)).round h (by norm_num)).mono
      (e' := 4) hu (by norm_num)
    rwa [abs_mul, abs_of_pos (by norm_num : (0 : ℚ) < 1800)] at this
  have one : ∀ w r : ℚ, |w - 2 * r| ≤ 2 * ε + 6 / 10 ^ 14 → |r| ≤ 1 / 1000 →
      |rnd (1800 * w) - 3600 * r| ≤ 3601 * ε + 11 / 10 ^ 11 := by
    intro w r hw hr
    have := elem_err (z := rnd (1800 * w)) (c := 1) (w := w) ?_ hw hr (by norm_num)
    · rwa [mul_one] at this
    · have := (Near.round' h (by norm_num) (1800 * w)).mono (e' := 4) hu (by norm_num)
      rw [abs_mul, abs_of_pos (by norm_num : (0 : ℚ) < 1800)] at this
      simpa using this
  refine ⟨?_, ?_, one _ _ s3 b3, one _ _ s4 b4⟩
  · have := two ux rx (-c) (s1 _ hux) b1 (by rwa [abs_neg])
    rwa [show -c * (3600 * rx) = 3600 * rx * -c by ring]
  · have := two uy ry (-c) (s2 _ huy) b2 (by rwa [abs_neg])
    rwa [show -c * (3600 * ry) = 3600 * ry * -c by ring]

/-- C135: the pixel area. -/
theorem C135_area (rnd : ℚ → ℚ) (h : Rounds 53 rnd) (image2sky : ℚ → ℚ → ℚ × ℚ) (cosd : ℚ → ℚ)
    (x y r0 rx ry d0 dx dy ε c : ℚ) (hsky : SkyNear image2sky x y r0 rx ry d0 dx dy ε) (hx : |x| ≤ 2 ^ 16)
    (hy : |y| ≤ 2 ^ 16) (b1 : |rx| ≤ 1 / 1000) (b2 : |ry| ≤ 1 / 1000) (b3 : |dx| ≤ 1 / 1000) (b4 : |dy| ≤ 1 / 1000)
    (he : ε ≤ 1 / 1000) (hc : c = cosd (image2sky x y).2) (hc1 : |c| ≤ 1) :
    (∃ a, AreaRuns rnd image2sky cosd x y a) ∧
    ∀ a, AreaRuns rnd image2sky cosd x y a → 0 ≤ a ∧
      abs (a - 3600 ^ 2 * |c| * |rx * dy - ry * dx|) ≤ 22 * (3601 * ε + 11 / 10 ^ 11) := by
  obtain ⟨⟨e1, s1⟩, ⟨e2, s2⟩, s3, s4⟩ := sky_steps h hsky hx hy b1 b2 b3 b4 (he.trans (by norm_num))
  obtain ⟨wx, hwx⟩ := e1
  obtain ⟨wy, hwy⟩ := e2
  refine ⟨⟨_, wx, wy, hwx, hwy, rfl⟩, ?_⟩
  rintro a ⟨ux, uy, hux, huy, rfl⟩
  refine ⟨abs_nonneg _, ?_⟩
  simp only [← hc]
  have hu := (unitOf_pos 53).le
  have four : ∀ w r c : ℚ, |w - 2 * r| ≤ 2 * ε + 6 / 10 ^ 14 → |r| ≤ 1 / 1000 → |c| ≤ 1 →
      |rnd (rnd (rnd (rnd (-(1 / 2) * w) / 1) * c) * 3600) - 3600 * r * -c| ≤ 3601 * ε + 11 / 10 ^ 11 := by
    intro w r c hw hr hc
    refine elem_err ?_ hw hr (by rwa [abs_neg])
    have := ((((((Near.round' h (by norm_num) (-(1 / 2) * w)).round h (by norm_num)).mul hu (Near.refl (unitOf 53) c)).round h
      (by norm_num)).mul hu (Near.refl (unitOf 53) 3600)).round h (by norm_num))
    rw [div_one]
    convert this using 1
    · ring
    · rw [abs_mul, abs_neg, abs_neg]
      norm_num
      ring
  have three : ∀ w r : ℚ, |w - 2 * r| ≤ 2 * ε + 6 / 10 ^ 14 → |r| ≤ 1 / 1000 →
      |rnd (rnd (rnd (1 / 2 * w) / 1) * 3600) - 3600 * r| ≤ 3601 * ε + 11 / 10 ^ 11 := by
    intro w r hw hr
    have := elem_err (z := rnd (rnd (rnd (1 / 2 * w) / 1) * 3600)) (c := 1) (w := w) ?_ hw hr (by norm_num)
    · rwa [mul_one] at this
    · have := ((((Near.round' h (by norm_num) (1 / 2 * w)).round h (by norm_num)).mul hu
        (Near.refl (unitOf 53) 3600)).round h (by norm_num)).mono (e' := 4) hu (by norm_num)
      rw [div_one]
      convert this using 1
      · ring
      · rw [abs_mul]
        norm_num
        ring
  have he0 : 0 ≤ ε := (abs_nonneg _).trans (hsky.dec x y (by simp) (by simp))
  have hA := four ux rx c (s1 _ hux) b1 hc1
  have hB := four uy ry c (s2 _ huy) b2 hc1
  have hC := three _ dx s3 b3
  have hD := three _ dy s4 b4
  generalize rnd (rnd (rnd (rnd (-(1 / 2) * ux) / 1) * c) * 3600) = A at hA ⊢
  generalize rnd (rnd (rnd (rnd (-(1 / 2) * uy) / 1) * c) * 3600) = B at hB ⊢
  generalize rnd (rnd (rnd (1 / 2 * rnd ((image2sky (rnd (x + 1)) y).2 - (image2sky (rnd (x - 1)) y).2)) / 1) * 3600) = C at hC ⊢
  generalize rnd (rnd (rnd (1 / 2 * rnd ((image2sky x (rnd (y + 1))).2 - (image2sky x (rnd (y - 1))).2)) / 1) * 3600) = D at hD ⊢
  obtain ⟨η, hη⟩ : ∃ η, η = 3601 * ε + 11 / 10 ^ 11 := ⟨_, rfl⟩
  rw [← hη] at hA hB hC hD ⊢
  have η1 : 11 / 10 ^ 11 ≤ η := by rw [hη]; linarith
  have η2 : η ≤ 361 / 100 := by rw [hη]; norm_num; linarith
  have small : ∀ r c : ℚ, |r| ≤ 1 / 1000 → |c| ≤ 1 → |3600 * r * -c| ≤ 18 / 5 := by
    intro r c hr hc
    rw [abs_mul, abs_mul, abs_neg, abs_of_pos (by norm_num : (0 : ℚ) < 3600)]
    calc 3600 * |r| * |c| ≤ 3600 * (1 / 1000) * 1 := by gcongr
      _ = _ := by norm_num
  have prod : ∀ P Q P0 Q0 : ℚ, |P - P0| ≤ η → |Q - Q0| ≤ η → |P0| ≤ 18 / 5 → |Q0| ≤ 18 / 5 →
      |rnd (P * Q) - P0 * Q0| ≤ 1081 / 100 * η + 52 / 2 ^ 53 ∧ |rnd (P * Q)| ≤ 53 := by
    intro P Q P0 Q0 hP hQ hP0 hQ0
    have nP : |P| ≤ 721 / 100 := by
      have := abs_add_le (P - P0) P0
      rw [sub_add_cancel] at this
      linarith
    have nQ : |Q| ≤ 721 / 100 := by
      have := abs_add_le (Q - Q0) Q0
      rw [sub_add_cancel] at this
      linarith
    have nPQ : |P * Q| ≤ 52 := by
      rw [abs_mul]
      calc |P| * |Q| ≤ 721 / 100 * (721 / 100) := by gcongr
        _ ≤ _ := by norm_num
    have hr : |rnd (P * Q) - P * Q| ≤ 52 / 2 ^ 53 := by
      refine (h.err (by norm_num) _).trans ?_
      calc unitOf 53 * |P * Q| ≤ unitOf 53 * 52 := by gcongr
        _ = _ := by unfold unitOf; norm_num
    have hd : |P * Q - P0 * Q0| ≤ 1081 / 100 * η := by
      rw [show P * Q - P0 * Q0 = (P - P0) * Q + P0 * (Q - Q0) by ring]
      refine (abs_add_le _ _).trans ?_
      rw [abs_mul, abs_mul]
      have η0 : 0 ≤ η := (abs_nonneg _).trans hP
      calc |P - P0| * |Q| + |P0| * |Q - Q0| ≤ η * (721 / 100) + 18 / 5 * η := by gcongr
        _ = _ := by ring
    constructor
    · have := abs_add_le (rnd (P * Q) - P * Q) (P * Q - P0 * Q0)
      rw [sub_add_sub_cancel] at this
      linarith
    · have := abs_add_le (rnd (P * Q) - P * Q) (P * Q)
      rw [sub_add_cancel] at this
      norm_num at hr
      linarith
  have sdx : |3600 * dx| ≤ 18 / 5 := by simpa using small dx 1 b3 (by norm_num)
  have sdy : |3600 * dy| ≤ 18 / 5 := by simpa using small dy 1 b4 (by norm_num)
  obtain ⟨q1, q2⟩ := prod A D _ _ hA hD (small rx c b1 hc1) sdy
  obtain ⟨q3, q4⟩ := prod C B _ _ hC hB sdx (small ry c b2 hc1)
  have hr : |rnd (rnd (A * D) - rnd (C * B)) - (rnd (A * D) - rnd (C * B))| ≤ 106 / 2 ^ 53 := by
    refine (h.err (by norm_num) _).trans ?_
    have : |rnd (A * D) - rnd (C * B)| ≤ 106 := by
      rw [abs_le] at q2 q4 ⊢
      constructor <;> linarith [q2.1, q2.2, q4.1, q4.2]
    calc unitOf 53 * |rnd (A * D) - rnd (C * B)| ≤ unitOf 53 * 106 := by gcongr
      _ = _ := by unfold unitOf; norm_num
  have hval : 3600 ^ 2 * |c| * |rx * dy - ry * dx| = |3600 * rx * -c * (3600 * dy) - 3600 * dx * (3600 * ry * -c)| := by
    rw [show 3600 * rx * -c * (3600 * dy) - 3600 * dx * (3600 * ry * -c) = 3600 ^ 2 * -c * (rx * dy - ry * dx) by ring,
      abs_mul, abs_mul, abs_neg, abs_of_pos (by norm_num : (0 : ℚ) < 3600 ^ 2)]
  rw [hval]
  refine (abs_abs_sub_abs_le_abs_sub _ _).trans ?_
  rw [abs_le] at hr q1 q3 ⊢
  norm_num at hr q1 q3 η1 ⊢
  constructor <;> linarith [hr.1, hr.2, q1.1, q1.2, q3.1, q3.2]

/-- A sky on which RA 0 runs through the image: the hypotheses are met at the seam, with pixels of 0.36 arcsec. -/
def seamSky (x y : ℚ) : ℚ × ℚ := (if x < 0 then 360 + x / 10000 else x / 10000, y / 10000)

theorem seamSky_near : SkyNear seamSky 0 0 0 (1 / 10000) 0 0 0 (1 / 10000) 0 := by
  constructor
  · intro x y hx _
    rw [sub_zero, abs_le] at hx
    unfold seamSky
    dsimp only
    split
    · exact ⟨by linarith, by linarith, 1, by push_cast; rw [abs_le]; constructor <;> linarith⟩
    · exact ⟨by linarith, by linarith, 0, by push_cast; rw [abs_le]; constructor <;> linarith⟩
  · intro x y _ _
    unfold seamSky
    dsimp only
    rw [abs_le]
    constructor <;> linarith

/-- The hypotheses of C135 are met there, and the conclusions give 0.36 arcsec per pixel. -/
example : ∃ rnd, Rounds 53 rnd ∧ SkyNear seamSky 0 0 0 (1 / 10000) 0 0 0 (1 / 10000) 0 ∧
    (∃ j, JacRuns rnd seamSky (fun _ => 1) 0 0 1 j ∧ |j.1 - -(36 / 100)| ≤ 11 / 10 ^ 11) ∧
    ∃ a, AreaRuns rnd seamSky (fun _ => 1) 0 0 a ∧ |a - (36 / 100) ^ 2| ≤ 3 / 10 ^ 9 := by
  obtain ⟨rnd, h⟩ := exists_rounds 53 (by norm_num)
  refine ⟨rnd, h, seamSky_near, ?_, ?_⟩
  · obtain ⟨⟨j, hj⟩, hall⟩ := C135_jacobian rnd h seamSky (fun _ => 1) 0 0 0 (1 / 10000) 0 0 0 (1 / 10000) 0 1 seamSky_near
      (by norm_num) (by norm_num) (by rw [abs_of_pos] <;> norm_num) (by norm_num) (by norm_num)
      (by rw [abs_of_pos] <;> norm_num) (by norm_num) rfl (by norm_num)
    refine ⟨j, hj, ?_⟩
    have := (hall j hj).1
    norm_num at this ⊢
    exact this
  · obtain ⟨⟨a, ha⟩, hall⟩ := C135_area rnd h seamSky (fun _ => 1) 0 0 0 (1 / 10000) 0 0 0 (1 / 10000) 0 1 seamSky_near
      (by norm_num) (by norm_num) (by rw [abs_of_pos] <;> norm_num) (by norm_num) (by norm_num)
      (by rw [abs_of_pos] <;> norm_num) (by norm_num) rfl (by norm_num)
    refine ⟨a, ha, ?_⟩
    have := (hall a ha).2
    norm_num at this ⊢
    linarith

end Pizza
