import Verif.Model.DoubleGeom
import Verif.Lemmas.Double

/-! C130: the pixel geometry in floating point arithmetic. -/

namespace Pizza

section
variable {p : ℕ} {rnd : ℚ → ℚ}

theorem Rounds.int (h : Rounds p rnd) {n : ℤ} (hn : |n| ≤ 2 ^ p) : rnd n = n := h.exact (isFloat_int hn)

theorem Rounds.half (h : Rounds p rnd) {n : ℤ} (hn : |n| ≤ 2 ^ p) : rnd ((n : ℚ) / 2) = (n : ℚ) / 2 := h.exact (isFloat_half hn)

/-- `rnd` leaves a number alone that is half of a small integer. -/
theorem Rounds.half' (h : Rounds p rnd) {x : ℚ} (n : ℤ) (hx : x = n / 2) (hn : |n| ≤ 2 ^ p) : rnd x = x := by
  rw [hx]
  exact h.half hn

/-- The rounded quotient of two integers is an integer only if the quotient is. -/
theorem Rounds.quot (h : Rounds p rnd) (hp : 1 ≤ p) {a b n : ℤ} (ha : |a| < 2 ^ p) (hb : b ≠ 0) :
    rnd ((a : ℚ) / b) = n ↔ (a : ℚ) / b = n := by
  have hb' : (b : ℚ) ≠ 0 := by exact_mod_cast hb
  have hbp : (0 : ℚ) < |(b : ℚ)| := abs_pos.2 hb'
  have ha' : |(a : ℚ)| < 2 ^ p := by exact_mod_cast ha
  constructor
  · intro he
    have h1 := h.rel hp ((a : ℚ) / b)
    rw [he] at h1
    have h2 : |(a : ℚ) - n * b| < 1 := by
      have e : (a : ℚ) - n * b = ((a : ℚ) / b - n) * b := by field_simp
      rw [e, abs_mul]
      calc |(a : ℚ) / b - n| * |(b : ℚ)| ≤ |(a : ℚ) / b| / 2 ^ p * |(b : ℚ)| := by gcongr
        _ = |(a : ℚ)| / 2 ^ p := by rw [abs_div]; field_simp
        _ < 1 := by rw [div_lt_one (by positivity)]; exact ha'
    have h3 : |a - n * b| < 1 := by exact_mod_cast h2
    have h4 : a = n * b := by
      have := Int.abs_lt_one_iff.1 h3
      omega
    rw [h4]
    push_cast
    field_simp
  · intro he
    rw [he]
    refine h.int ?_
    have h1 : (a : ℚ) = n * b := by rw [← he]; field_simp
    have h2 : a = n * b := by exact_mod_cast h1
    have h3 : 1 ≤ |b| := Int.one_le_abs hb
    have h4 : |n| ≤ |a| := by
      rw [h2, abs_mul]
      exact le_mul_of_one_le_right (abs_nonneg n) h3
    exact h4.trans ha.le

theorem truncQ_int (n : ℤ) : truncQ (n : ℚ) = n := by
  unfold truncQ
  split <;> simp

theorem truncQ_eq_self_iff (q : ℚ) : ((truncQ q : ℤ) : ℚ) = q ↔ ∃ n : ℤ, q = n := by
  constructor
  · intro h
    exact ⟨_, h.symm⟩
  · rintro ⟨n, rfl⟩
    rw [truncQ_int]

/-- C130: the slices are where they are in exact arithmetic, and a tile is refused in the same cases, for all
sizes up to `2 ^ (p - 3)` (1e15 for doubles). -/
theorem C130_locations (p : ℕ) (hp : 3 ≤ p) (rnd : ℚ → ℚ) (h : Rounds p rnd) (central buffer width : ℤ)
    (hc : |central| ≤ 2 ^ (p - 3)) (hb : |buffer| ≤ 2 ^ (p - 3)) (hw : |width| ≤ 2 ^ (p - 3)) :
    buildSliceLocationsD rnd central buffer width = buildSliceLocations central buffer width := by
  obtain ⟨P, hP⟩ : ∃ P : ℤ, P = 2 ^ (p - 3) := ⟨_, rfl⟩
  have hPp : (2 : ℤ) ^ p = 8 * P := by
    obtain ⟨q, rfl⟩ : ∃ q, p = q + 3 := ⟨p - 3, by omega⟩
    rw [hP, Nat.add_sub_cancel, pow_add]
    ring
  rw [← hP] at hc hb hw
  have hP1 : 1 ≤ P := by rw [hP]; exact one_le_pow₀ (by norm_num)
  obtain ⟨hc1, hc2⟩ := abs_le.1 hc
  obtain ⟨hb1, hb2⟩ := abs_le.1 hb
  obtain ⟨hw1, hw2⟩ := abs_le.1 hw
  unfold buildSliceLocationsD buildSliceLocations
  by_cases hc0 : central = 0
  · rw [if_pos hc0, if_pos hc0]
  rw [if_neg hc0, if_neg hc0]
  have hcen : rnd (((central - 1 : ℤ) : ℚ) / 2) = ((central : ℚ) - 1) / 2 := by
    rw [h.half (by rw [hPp, abs_le]; constructor <;> omega)]
    push_cast
    ring
  have hnum : |width - 2 * buffer| < 2 ^ p := by rw [hPp, abs_lt]; constructor <;> omega
  simp only [hcen]
  have hq : ∀ n : ℤ, rnd (((width - 2 * buffer : ℤ) : ℚ) / central) = n ↔
      ((width - 2 * buffer : ℤ) : ℚ) / central = n := fun n => h.quot (by omega) hnum hc0
  by_cases hint : ∃ n : ℤ, ((width - 2 * buffer : ℤ) : ℚ) / central = n
  · obtain ⟨n, hn⟩ := hint
    have hn' := (hq n).2 hn
    rw [hn', hn]
    simp only [truncQ_int, ne_eq, not_true_eq_false, if_false]
    -- the positions are halves of integers
    have hmul : width - 2 * buffer = n * central := by
      have hc0' : (central : ℚ) ≠ 0 := by exact_mod_cast hc0
      have : ((width - 2 * buffer : ℤ) : ℚ) = n * central := by rw [← hn]; field_simp
      exact_mod_cast this
    have hc3 : 1 ≤ |central| := Int.one_le_abs hc0
    obtain ⟨hc4, hc5⟩ := abs_le.1 (le_refl |central|)
    have hi : ∀ i : ℕ, i < n.toNat → |(i : ℤ) * central| ≤ 3 * P - |central| := by
      intro i hin
      rw [abs_mul]
      have h1 : |(i : ℤ)| + 1 ≤ |n| := by
        rw [abs_of_nonneg (by omega), abs_of_nonneg (by omega)]
        omega
      have h2 : (|(i : ℤ)| + 1) * |central| ≤ 3 * P := by
        calc (|(i : ℤ)| + 1) * |central| ≤ |n| * |central| := by gcongr
          _ = |width - 2 * buffer| := by rw [hmul, abs_mul]
          _ ≤ 3 * P := by rw [abs_le]; constructor <;> omega
      linarith
    have hloc : ∀ i ∈ List.range n.toNat, rnd (rnd ((((i : ℕ) : ℤ) * central + buffer : ℤ) : ℚ) + ((central : ℚ) - 1) / 2) =
        (i : ℚ) * central + buffer + ((central : ℚ) - 1) / 2 := by
      intro i hir
      obtain ⟨g1, g2⟩ := abs_le.1 (hi i (List.mem_range.1 hir))
      rw [h.int (n := (i : ℤ) * central + buffer) (by rw [hPp, abs_le]; constructor <;> linarith)]
      rw [h.half' (2 * ((i : ℤ) * central + buffer) + (central - 1)) (by push_cast; ring)
        (by rw [hPp, abs_le]; constructor <;> linarith)]
      push_cast
      ring
    have hstart : ∀ i : ℕ, i < n.toNat → ∀ x : ℚ, x = (i : ℚ) * central + buffer + ((central : ℚ) - 1) / 2 →
        rnd (rnd (x - buffer) - ((central : ℚ) - 1) / 2) = x - buffer - ((central : ℚ) - 1) / 2 := by
      intro i hin x hx
      obtain ⟨g1, g2⟩ := abs_le.1 (hi i hin)
      rw [h.half' (x := x - buffer) (2 * ((i : ℤ) * central) + (central - 1)) (by rw [hx]; push_cast; ring)
        (by rw [hPp, abs_le]; constructor <;> linarith)]
      rw [h.half' (x := x - buffer - ((central : ℚ) - 1) / 2) (2 * ((i : ℤ) * central)) (by rw [hx]; push_cast; ring)
        (by rw [hPp, abs_le]; constructor <;> linarith)]
    rw [List.map_congr_left hloc]
    congr 1
    simp only [List.flatMap_def, List.map_map]
    congr 1
    refine List.map_congr_left fun i hir => ?_
    simp only [Function.comp]
    refine List.map_congr_left fun j hjr => ?_
    rw [Function.comp, hstart i (List.mem_range.1 hir) _ rfl, hstart j (List.mem_range.1 hjr) _ rfl]
    rfl
  · rw [if_pos, if_pos]
    · rw [ne_eq, truncQ_eq_self_iff]
      exact hint
    · rw [ne_eq, truncQ_eq_self_iff]
      rintro ⟨n, hn⟩
      exact hint ⟨n, (hq n).1 hn⟩

/-- The DES tile: 10000 pixels, 100 for each slice and a buffer of 50. -/
example : ∃ rnd, Rounds 53 rnd ∧ buildSliceLocationsD rnd 100 50 10000 = buildSliceLocations 100 50 10000 := by
  obtain ⟨rnd, h⟩ := exists_rounds 53 (by norm_num)
  exact ⟨rnd, h, C130_locations 53 (by norm_num) rnd h 100 50 10000 (by norm_num) (by norm_num) (by norm_num)⟩

/-- C130: the pixel taken is the nearest one, up to the rounding of one sum. -/
theorem C130_nearest (p : ℕ) (hp : 1 ≤ p) (rnd : ℚ → ℚ) (h : Rounds p rnd) (x : ℚ) :
    |x - nearestPixelD rnd x| ≤ 1 / 2 + |x + 1 / 2| / 2 ^ p := by
  have h1 := h.rel hp (x + 1 / 2)
  obtain ⟨h2, h3⟩ := abs_le.1 h1
  have h4 := Int.floor_le (rnd (x + 1 / 2))
  have h5 := Int.lt_floor_add_one (rnd (x + 1 / 2))
  unfold nearestPixelD
  rw [abs_le]
  constructor <;> linarith

/-- The pixel nearest to 1234.3. -/
example : ∃ rnd, Rounds 53 rnd ∧ nearestPixelD rnd (12343 / 10) = 1234 := by
  obtain ⟨rnd, h⟩ := exists_rounds 53 (by norm_num)
  refine ⟨rnd, h, ?_⟩
  have := C130_nearest 53 (by norm_num) rnd h (12343 / 10)
  obtain ⟨h1, h2⟩ := abs_le.1 this
  rw [abs_of_nonneg (by norm_num)] at h1 h2
  have h3 : ((1233 : ℤ) : ℚ) < nearestPixelD rnd (12343 / 10) := by norm_num at h1 h2 ⊢; linarith
  have h4 : (nearestPixelD rnd (12343 / 10) : ℚ) < (1235 : ℤ) := by norm_num at h1 h2 ⊢; linarith
  have h5 : 1233 < nearestPixelD rnd (12343 / 10) := by exact_mod_cast h3
  have h6 : nearestPixelD rnd (12343 / 10) < 1235 := by exact_mod_cast h4
  omega

/-- C130: the pixel and the offset within it give back the position, with nothing lost to rounding. -/
theorem C130_sub_pixel (p : ℕ) (hp : 2 ≤ p) (rnd : ℚ → ℚ) (h : Rounds p rnd) (x : ℚ) (hx : IsFloat p x)
    (hb : |x| ≤ 2 ^ (p - 1)) (hn : |x - nearestPixelD rnd x| ≤ 1 / 2) :
    (nearestPixelD rnd x : ℚ) + psfSubPixelD rnd x = x := by
  have hpp : (2 : ℚ) ^ p = 2 * 2 ^ (p - 1) := by
    obtain ⟨q, rfl⟩ : ∃ q, p = q + 1 := ⟨p - 1, by omega⟩
    rw [Nat.add_sub_cancel, pow_succ]
    ring
  have hone : (1 : ℚ) ≤ 2 ^ (p - 1) := one_le_pow₀ (by norm_num)
  unfold psfSubPixelD
  generalize nearestPixelD rnd x = n at hn
  obtain ⟨h1, h2⟩ := abs_le.1 hn
  obtain ⟨h3, h4⟩ := abs_le.1 hb
  have hnf : IsFloat p (n : ℚ) := by
    refine isFloat_int ?_
    have : |(n : ℚ)| ≤ 2 ^ p := abs_le.2 ⟨by linarith, by linarith⟩
    exact_mod_cast this
  have hex : rnd (x - n) = x - n := by
    refine h.exact ?_
    rcases lt_trichotomy n 0 with hneg | rfl | hpos
    · have h5 : (n : ℚ) ≤ -1 := by exact_mod_cast (by omega : n ≤ -1)
      have := (hx.neg.sub_exact hnf.neg (by linarith) (by linarith)).neg
      rwa [show -(-x - -(n : ℚ)) = x - n by ring] at this
    · simpa using hx
    · have h5 : (1 : ℚ) ≤ n := by exact_mod_cast hpos
      exact hx.sub_exact hnf (by linarith) (by linarith)
  rw [hex]
  ring

/-- The position 1234.625 is pixel 1235 and an offset of −0.375. -/
example : ∃ rnd, Rounds 53 rnd ∧ psfSubPixelD rnd (1234 + 5 / 8) = -(3 / 8) := by
  obtain ⟨rnd, h⟩ := exists_rounds 53 (by norm_num)
  refine ⟨rnd, h, ?_⟩
  have e : nearestPixelD rnd (1234 + 5 / 8) = 1235 := by
    unfold nearestPixelD
    rw [h.exact ⟨9881, -3, by norm_num, by norm_num⟩]
    norm_num
  have := C130_sub_pixel 53 (by norm_num) rnd h (1234 + 5 / 8) ⟨9877, -3, by norm_num, by norm_num⟩
    (by rw [abs_of_nonneg] <;> norm_num) (by rw [e, abs_le]; norm_num)
  rw [e] at this
  push_cast at this
  linarith

/-- C130: the SE box is square, of the parity and at least the size of the coadd box, and its centre is within
half a pixel of the position, up to the rounding of two sums. -/
theorem C130_slice_bounds (p : ℕ) (hp : 2 ≤ p) (rnd : ℚ → ℚ) (h : Rounds p rnd) (col row fracBuffer : ℚ) (boxSize : ℤ)
    (hf : 0 ≤ fracBuffer) (hbox : 0 ≤ boxSize) (hbs : boxSize ≤ 2 ^ p) (hfb : fracBuffer * boxSize ≤ 2 ^ (p - 1)) :
    ∃ side : ℤ, ∃ b, computeSliceBoundsD rnd col row boxSize fracBuffer = b ∧
      b.rowmax - b.rowmin + 1 = side ∧ b.colmax - b.colmin + 1 = side ∧
      side % 2 = boxSize % 2 ∧
      |(side : ℚ) - fracBuffer * boxSize| ≤ 1 + fracBuffer * boxSize / 2 ^ p ∧
      (1 ≤ fracBuffer → boxSize ≤ side) ∧
      (fracBuffer = 1 → side = boxSize) ∧
      |((b.rowmin : ℚ) + b.rowmax) / 2 - row| ≤ 1 / 2 + (2 * |row - ((side : ℚ) - 1) / 2| + 1) / 2 ^ (p - 1) ∧
      |((b.colmin : ℚ) + b.colmax) / 2 - col| ≤ 1 / 2 + (2 * |col - ((side : ℚ) - 1) / 2| + 1) / 2 ^ (p - 1) := by
  have hpp : (2 : ℤ) ^ p = 2 * 2 ^ (p - 1) := by
    obtain ⟨q, rfl⟩ : ∃ q, p = q + 1 := ⟨p - 1, by omega⟩
    rw [Nat.add_sub_cancel, pow_succ]
    ring
  have hone : (1 : ℤ) ≤ 2 ^ (p - 1) := one_le_pow₀ (by norm_num)
  have hbq : (0 : ℚ) ≤ boxSize := by exact_mod_cast hbox
  have hprod : 0 ≤ fracBuffer * boxSize := mul_nonneg hf hbq
  obtain ⟨side, hside⟩ : ∃ s, s = buffBoxSizeD rnd boxSize fracBuffer := ⟨_, rfl⟩
  -- the size before the parity is mended
  obtain ⟨t, ht⟩ : ∃ t, t = truncQ (rnd (fracBuffer * boxSize)) := ⟨_, rfl⟩
  have hr0 : 0 ≤ rnd (fracBuffer * boxSize) := h.nonneg hprod
  have ht' : t = ⌊rnd (fracBuffer * boxSize)⌋ := by rw [ht, truncQ, if_pos hr0]
  have hst : side = if t % 2 ≠ boxSize % 2 then t + 1 else t := by rw [hside, buffBoxSizeD, ← ht]
  have hrel := h.rel (by omega) (fracBuffer * boxSize)
  rw [abs_of_nonneg hprod] at hrel
  obtain ⟨g1, g2⟩ := abs_le.1 hrel
  have hfl := Int.floor_le (rnd (fracBuffer * boxSize))
  have hlt := Int.lt_floor_add_one (rnd (fracBuffer * boxSize))
  rw [← ht'] at hfl hlt
  have hpar : side % 2 = boxSize % 2 := by
    rw [hst]
    split <;> omega
  have hsize : (t : ℚ) ≤ side ∧ (side : ℚ) ≤ t + 1 := by
    rw [hst]
    split
    · push_cast; constructor <;> linarith
    · constructor <;> linarith
  have ht0 : 0 ≤ t := by rw [ht']; exact Int.floor_nonneg.2 hr0
  have htp : t ≤ 2 ^ (p - 1) := by
    have h1 : rnd (fracBuffer * boxSize) ≤ 2 ^ (p - 1) := by
      have := h.mono hfb
      have e : rnd ((2 : ℚ) ^ (p - 1)) = 2 ^ (p - 1) := by
        have := h.int (n := 2 ^ (p - 1)) (by rw [abs_of_nonneg (by positivity), hpp]; omega)
        push_cast at this
        exact this
      rwa [e] at this
    have h2 : (t : ℚ) ≤ 2 ^ (p - 1) := hfl.trans h1
    exact_mod_cast h2
  have hsp : |side - 1| ≤ 2 ^ p := by
    rw [hpp, abs_le, hst]
    split <;> constructor <;> omega
  have hcen : rnd (((side - 1 : ℤ) : ℚ) / 2) = ((side : ℚ) - 1) / 2 := by
    rw [h.half hsp]
    push_cast
    ring
  -- one coordinate
  have hco : ∀ x : ℚ, |((⌊rnd (rnd (x - ((side : ℚ) - 1) / 2) + 1 / 2)⌋ : ℤ) : ℚ) + ((side : ℚ) - 1) / 2 - x| ≤
      1 / 2 + (2 * |x - ((side : ℚ) - 1) / 2| + 1) / 2 ^ (p - 1) := by
    intro x
    generalize ((side : ℚ) - 1) / 2 = c
    have h1 := h.rel (by omega) (x - c)
    have h2 := C130_nearest p (by omega) rnd h (rnd (x - c))
    unfold nearestPixelD at h2
    have hP : (0 : ℚ) < 2 ^ (p - 1) := by positivity
    have hP2 : (2 : ℚ) ^ p = 2 * 2 ^ (p - 1) := by exact_mod_cast hpp
    have hone' : (1 : ℚ) ≤ 2 ^ (p - 1) := by exact_mod_cast hone
    have h3 : |rnd (x - c)| ≤ 2 * |x - c| := by
      have e1 : |rnd (x - c)| ≤ |x - c| + |x - c - rnd (x - c)| := by
        have := abs_sub (x - c) (x - c - rnd (x - c))
        rwa [show x - c - (x - c - rnd (x - c)) = rnd (x - c) by ring] at this
      have e2 : |x - c| / 2 ^ p ≤ |x - c| := div_le_self (abs_nonneg _) (by rw [hP2]; linarith)
      linarith
    have h4 : |rnd (x - c) + 1 / 2| ≤ 2 * |x - c| + 1 / 2 := by
      have := abs_add_le (rnd (x - c)) (1 / 2)
      rw [abs_of_nonneg (by norm_num : (0 : ℚ) ≤ 1 / 2)] at this
      linarith
    have h5 : |rnd (x - c) + 1 / 2| / 2 ^ p ≤ (2 * |x - c| + 1 / 2) / 2 ^ p := by gcongr
    have h6 : |x - c| / 2 ^ p + (2 * |x - c| + 1 / 2) / 2 ^ p ≤ (2 * |x - c| + 1) / 2 ^ (p - 1) := by
      rw [hP2, ← add_div, div_le_div_iff₀ (by positivity) hP]
      nlinarith [abs_nonneg (x - c)]
    obtain ⟨a1, a2⟩ := abs_le.1 h1
    obtain ⟨b1, b2⟩ := abs_le.1 h2
    rw [abs_le]
    constructor <;> linarith
  refine ⟨side, _, rfl, ?_, ?_, hpar, ?_, ?_, ?_, ?_, ?_⟩
  · show ⌊_⌋ + buffBoxSizeD rnd boxSize fracBuffer - 1 - ⌊_⌋ + 1 = side
    rw [← hside]
    ring
  · show ⌊_⌋ + buffBoxSizeD rnd boxSize fracBuffer - 1 - ⌊_⌋ + 1 = side
    rw [← hside]
    ring
  · rw [abs_le]
    constructor <;> linarith [hsize.1, hsize.2]
  · intro h1
    have h2 : (boxSize : ℚ) ≤ rnd (fracBuffer * boxSize) := by
      have := h.mono (show (boxSize : ℚ) ≤ fracBuffer * boxSize by nlinarith)
      rwa [h.int (by rwa [abs_of_nonneg hbox])] at this
    have h3 : boxSize ≤ t := by rw [ht']; exact Int.le_floor.2 h2
    have h4 : t ≤ side := by exact_mod_cast hsize.1
    omega
  · intro h1
    have h2 : t = boxSize := by
      rw [ht', h1, one_mul, h.int (by rwa [abs_of_nonneg hbox]), Int.floor_intCast]
    rw [hst, h2]
    simp
  · have := hco row
    show |((⌊rnd (rnd (row - rnd (((buffBoxSizeD rnd boxSize fracBuffer - 1 : ℤ) : ℚ) / 2)) + 1 / 2)⌋ : ℤ) +
      (((⌊rnd (rnd (row - rnd (((buffBoxSizeD rnd boxSize fracBuffer - 1 : ℤ) : ℚ) / 2)) + 1 / 2)⌋ : ℤ) +
        buffBoxSizeD rnd boxSize fracBuffer - 1 : ℤ) : ℚ)) / 2 - row| ≤ _
    rw [← hside, hcen]
    refine le_trans (le_of_eq ?_) this
    congr 1
    push_cast
    ring
  · have := hco col
    show |((⌊rnd (rnd (col - rnd (((buffBoxSizeD rnd boxSize fracBuffer - 1 : ℤ) : ℚ) / 2)) + 1 / 2)⌋ : ℤ) +
      (((⌊rnd (rnd (col - rnd (((buffBoxSizeD rnd boxSize fracBuffer - 1 : ℤ) : ℚ) / 2)) + 1 / 2)⌋ : ℤ) +
        buffBoxSizeD rnd boxSize fracBuffer - 1 : ℤ) : ℚ)) / 2 - col| ≤ _
    rw [← hside, hcen]
    refine le_trans (le_of_eq ?_) this
    congr 1
    push_cast
    ring

/-- A box of 200 pixels enlarged by 1.05, around (1000.3, 2000.7). -/
example : ∃ rnd, Rounds 53 rnd ∧ ∃ side : ℤ, ∃ b, computeSliceBoundsD rnd (10003 / 10) (20007 / 10) 200 (105 / 100) = b ∧
    b.rowmax - b.rowmin + 1 = side ∧ 200 ≤ side ∧ side % 2 = 0 := by
  obtain ⟨rnd, h⟩ := exists_rounds 53 (by norm_num)
  obtain ⟨side, b, h1, h2, -, h3, -, h4, -⟩ := C130_slice_bounds 53 (by norm_num) rnd h (10003 / 10) (20007 / 10)
    (105 / 100) 200 (by norm_num) (by norm_num) (by norm_num) (by norm_num)
  exact ⟨rnd, h, side, b, h1, h2, h4 (by norm_num), h3⟩

theorem nearestPixelD_bound (h : Rounds p rnd) (hp : 3 ≤ p) {x : ℚ} (hx : |x| ≤ 2 ^ (p - 3)) :
    |nearestPixelD rnd x| ≤ 2 * 2 ^ (p - 3) + 1 := by
  have h1 := C130_nearest p (by omega) rnd h x
  have hP : (1 : ℚ) ≤ 2 ^ (p - 3) := one_le_pow₀ (by norm_num)
  have hP2 : (2 : ℚ) ^ p = 8 * 2 ^ (p - 3) := by
    obtain ⟨q, rfl⟩ : ∃ q, p = q + 3 := ⟨p - 3, by omega⟩
    rw [Nat.add_sub_cancel, pow_add]
    ring
  have h2 : |x + 1 / 2| ≤ 2 ^ (p - 3) + 1 / 2 := by
    have := abs_add_le x (1 / 2)
    rw [abs_of_nonneg (by norm_num : (0 : ℚ) ≤ 1 / 2)] at this
    linarith
  have h3 : |x + 1 / 2| / 2 ^ p ≤ 1 / 2 := by
    rw [div_le_iff₀ (by positivity), hP2]
    linarith
  have h4 : |(nearestPixelD rnd x : ℚ)| ≤ 2 * 2 ^ (p - 3) + 1 := by
    obtain ⟨a1, a2⟩ := abs_le.1 h1
    obtain ⟨b1, b2⟩ := abs_le.1 hx
    rw [abs_le]
    constructor <;> linarith
  exact_mod_cast h4

/-- C130: the corner of the PSF stamp is the nearest pixel less half of the stamp; a stamp of even size is refused. -/
theorem C130_stamp (p : ℕ) (hp : 3 ≤ p) (rnd : ℚ → ℚ) (h : Rounds p rnd) (x y : ℚ) (dim : ℤ) (hx : |x| ≤ 2 ^ (p - 3))
    (hy : |y| ≤ 2 ^ (p - 3)) (hd : 0 ≤ dim) (hd' : dim ≤ 2 ^ (p - 3)) :
    (∀ k, dim = 2 * k + 1 → psfStampBoundsD rnd x y dim = .ok (nearestPixelD rnd x - k, nearestPixelD rnd y - k)) ∧
    (∀ k, dim = 2 * k → psfStampBoundsD rnd x y dim = .error .assertionError) := by
  have hxb := nearestPixelD_bound h hp hx
  have hyb := nearestPixelD_bound h hp hy
  obtain ⟨P, hP⟩ : ∃ P : ℤ, P = 2 ^ (p - 3) := ⟨_, rfl⟩
  have hPp : (2 : ℤ) ^ p = 8 * P := by
    obtain ⟨q, rfl⟩ : ∃ q, p = q + 3 := ⟨p - 3, by omega⟩
    rw [hP, Nat.add_sub_cancel, pow_add]
    ring
  have hP1 : 1 ≤ P := by rw [hP]; exact one_le_pow₀ (by norm_num)
  rw [← hP] at hd' hxb hyb
  have hhalf : rnd (((dim - 1 : ℤ) : ℚ) / 2) = ((dim : ℚ) - 1) / 2 := by
    rw [h.half (by rw [hPp, abs_le]; constructor <;> omega)]
    push_cast
    ring
  have hdiff : ∀ n : ℤ, |n| ≤ 2 * P + 1 → rnd ((n : ℚ) - ((dim : ℚ) - 1) / 2) = (n : ℚ) - ((dim : ℚ) - 1) / 2 := by
    intro n hn
    obtain ⟨a1, a2⟩ := abs_le.1 hn
    exact h.half' (2 * n - (dim - 1)) (by push_cast; ring) (by rw [hPp, abs_le]; constructor <;> omega)
  unfold psfStampBoundsD
  simp only [hhalf, hdiff _ hxb, hdiff _ hyb]
  generalize nearestPixelD rnd x = a
  generalize nearestPixelD rnd y = b
  constructor
  · rintro k rfl
    have e : ∀ n : ℤ, (n : ℚ) - (((2 * k + 1 : ℤ) : ℚ) - 1) / 2 = ((n - k : ℤ) : ℚ) := by
      intro n
      push_cast
      ring
    simp only [e, truncQ_int, ne_eq, not_true_eq_false, if_false]
  · rintro k rfl
    rw [if_pos]
    intro he
    have h1 : ∃ n : ℤ, (b : ℚ) - (((2 * k : ℤ) : ℚ) - 1) / 2 = n := (truncQ_eq_self_iff _).1 he.symm
    obtain ⟨n, hn⟩ := h1
    have h2 : (2 : ℚ) * b - (2 * k - 1) = 2 * n := by push_cast at hn; linarith
    have h3 : 2 * b - (2 * k - 1) = 2 * n := by exact_mod_cast h2
    omega

/-- A stamp of 51 pixels at (100.25, 7). -/
example : ∃ rnd, Rounds 53 rnd ∧ psfStampBoundsD rnd (100 + 1 / 4) 7 51 = .ok (75, -18) ∧
    psfStampBoundsD rnd (100 + 1 / 4) 7 50 = .error .assertionError := by
  obtain ⟨rnd, h⟩ := exists_rounds 53 (by norm_num)
  have e1 : nearestPixelD rnd (100 + 1 / 4) = 100 := by
    unfold nearestPixelD
    rw [h.exact ⟨403, -2, by norm_num, by norm_num⟩]
    norm_num
  have e2 : nearestPixelD rnd 7 = 7 := by
    unfold nearestPixelD
    rw [h.exact ⟨15, -1, by norm_num, by norm_num⟩]
    norm_num
  refine ⟨rnd, h, ?_, ?_⟩
  · rw [(C130_stamp 53 (by norm_num) rnd h (100 + 1 / 4) 7 51 (by rw [abs_of_nonneg] <;> norm_num) (by norm_num)
      (by norm_num) (by norm_num)).1 25 (by norm_num), e1, e2]
    norm_num
  · exact (C130_stamp 53 (by norm_num) rnd h (100 + 1 / 4) 7 50 (by rw [abs_of_nonneg] <;> norm_num) (by norm_num)
      (by norm_num) (by norm_num)).2 25 (by norm_num)

/-- C130: the corner of the coadd PSF stamp is a whole pixel; a stamp of even size is refused. -/
theorem C130_layout (p : ℕ) (hp : 3 ≤ p) (rnd : ℚ → ℚ) (h : Rounds p rnd) (fwd inv : ℚ → ℚ → ℚ × ℚ) (ra dec : ℚ)
    (boxSize offset : ℤ) (hx : |(inv ra dec).1| ≤ 2 ^ (p - 3)) (hy : |(inv ra dec).2| ≤ 2 ^ (p - 3)) (hd : 0 ≤ boxSize)
    (hd' : boxSize ≤ 2 ^ (p - 3)) (ho : |offset| ≤ 2 ^ (p - 3)) :
    (∀ k, boxSize = 2 * k + 1 → ∃ lay, coaddPsfLayoutD rnd fwd inv ra dec boxSize offset = .ok lay ∧
      lay.startCol = ((nearestPixelD rnd (inv ra dec).1 - offset - k : ℤ) : ℚ) ∧
      lay.startRow = ((nearestPixelD rnd (inv ra dec).2 - offset - k : ℤ) : ℚ) ∧
      (lay.raPsf, lay.decPsf) = fwd (nearestPixelD rnd (inv ra dec).1) (nearestPixelD rnd (inv ra dec).2)) ∧
    (∀ k, boxSize = 2 * k → coaddPsfLayoutD rnd fwd inv ra dec boxSize offset = .error .assertionError) := by
  have hxb := nearestPixelD_bound h hp hx
  have hyb := nearestPixelD_bound h hp hy
  obtain ⟨P, hP⟩ : ∃ P : ℤ, P = 2 ^ (p - 3) := ⟨_, rfl⟩
  have hPp : (2 : ℤ) ^ p = 8 * P := by
    obtain ⟨q, rfl⟩ : ∃ q, p = q + 3 := ⟨p - 3, by omega⟩
    rw [hP, Nat.add_sub_cancel, pow_add]
    ring
  have hP1 : 1 ≤ P := by rw [hP]; exact one_le_pow₀ (by norm_num)
  rw [← hP] at hd' ho hxb hyb
  obtain ⟨o1, o2⟩ := abs_le.1 ho
  have hhalf : rnd (((boxSize - 1 : ℤ) : ℚ) / 2) = ((boxSize : ℚ) - 1) / 2 := by
    rw [h.half (by rw [hPp, abs_le]; constructor <;> omega)]
    push_cast
    ring
  unfold coaddPsfLayoutD
  simp only [hhalf]
  generalize nearestPixelD rnd (inv ra dec).1 = a at hxb
  generalize nearestPixelD rnd (inv ra dec).2 = b at hyb
  constructor
  · rintro k rfl
    have e : (((2 * k + 1 : ℤ) : ℚ) - 1) / 2 = (k : ℚ) := by push_cast; ring
    have e2 : ∀ n : ℤ, |n| ≤ 2 * P + 1 → rnd (((n - offset : ℤ) : ℚ) - k) = ((n - offset - k : ℤ) : ℚ) := by
      intro n hn
      obtain ⟨a1, a2⟩ := abs_le.1 hn
      rw [← Int.cast_sub]
      exact h.int (by rw [hPp, abs_le]; constructor <;> omega)
    rw [e, truncQ_int, if_neg (by simp)]
    exact ⟨_, rfl, e2 a hxb, e2 b hyb, rfl⟩
  · rintro k rfl
    rw [if_pos]
    intro he
    obtain ⟨n, hn⟩ := (truncQ_eq_self_iff _).1 he
    have h2 : (2 : ℚ) * k - 1 = 2 * n := by push_cast at hn; linarith
    have h3 : 2 * k - 1 = 2 * n := by exact_mod_cast h2
    omega

/-- The layout of a stamp of 51 pixels with offset 1, for the WCS that is the identity. -/
example : ∃ rnd, Rounds 53 rnd ∧ ∃ lay, coaddPsfLayoutD rnd (fun x y => (x, y)) (fun x y => (x, y)) (100 + 1 / 4) 7 51 1 = .ok lay ∧
    lay.startCol = 74 := by
  obtain ⟨rnd, h⟩ := exists_rounds 53 (by norm_num)
  have e1 : nearestPixelD rnd (100 + 1 / 4) = 100 := by
    unfold nearestPixelD
    rw [h.exact ⟨403, -2, by norm_num, by norm_num⟩]
    norm_num
  obtain ⟨lay, h1, h2, -⟩ := (C130_layout 53 (by norm_num) rnd h (fun x y => (x, y)) (fun x y => (x, y)) (100 + 1 / 4) 7 51 1
    (by rw [abs_of_nonneg] <;> norm_num) (by norm_num) (by norm_num) (by norm_num) (by norm_num)).1 25 (by norm_num)
  refine ⟨rnd, h, lay, h1, ?_⟩
  rw [h2]
  show ((nearestPixelD rnd (100 + 1 / 4) - 1 - 25 : ℤ) : ℚ) = 74
  rw [e1]
  norm_num

/-- C130: the grid over the CCD begins at the first pixel, ends at the last one exactly, and stays between them. -/
theorem C130_grid_axis (p : ℕ) (hp : 1 ≤ p) (rnd : ℚ → ℚ) (h : Rounds p rnd) (n dim : ℕ) (hn : 0 < n) (hd : 0 < dim)
    (hb : (n : ℤ) * dim ≤ 2 ^ p) :
    (gridAxisD rnd n dim).length = n + 1 ∧ (gridAxisD rnd n dim).head? = some 0 ∧
    (gridAxisD rnd n dim).getLast? = some ((dim : ℚ) - 1) ∧
    ∀ (i : ℕ) x, (gridAxisD rnd n dim)[i]? = some x →
      0 ≤ x ∧ x ≤ (dim : ℚ) - 1 ∧ |x - i * ((dim : ℚ) - 1) / n| ≤ i * ((dim : ℚ) - 1) / n / 2 ^ p := by
  have hn' : (1 : ℤ) ≤ n := by exact_mod_cast hn
  have hd' : (1 : ℤ) ≤ dim := by exact_mod_cast hd
  have hnq : (0 : ℚ) < n := by exact_mod_cast hn
  have hdq : (0 : ℚ) ≤ (dim : ℚ) - 1 := by
    have : (1 : ℚ) ≤ dim := by exact_mod_cast hd
    linarith
  have hdim : (dim : ℤ) ≤ 2 ^ p := le_trans (by nlinarith) hb
  have e1 : rnd ((dim : ℚ) - 1) = (dim : ℚ) - 1 := by
    have := h.int (n := (dim : ℤ) - 1) (by rw [abs_of_nonneg (by omega)]; omega)
    push_cast at this
    exact this
  have e2 : ∀ i : ℕ, i ≤ n → rnd ((i : ℚ) * ((dim : ℚ) - 1)) = (i : ℚ) * ((dim : ℚ) - 1) := by
    intro i hi
    have hi' : (i : ℤ) ≤ n := by exact_mod_cast hi
    have := h.int (n := (i : ℤ) * ((dim : ℤ) - 1)) (by
      rw [abs_of_nonneg (mul_nonneg (by omega) (by omega))]
      refine le_trans ?_ hb
      exact mul_le_mul hi' (by omega) (by omega) (by omega))
    push_cast at this
    exact this
  have hlast : rnd ((n : ℚ) * ((dim : ℚ) - 1) / n) = (dim : ℚ) - 1 := by
    rw [mul_comm, mul_div_assoc, div_self hnq.ne', mul_one]
    exact e1
  have helem : ∀ i : ℕ, i ≤ n → rnd (rnd ((i : ℚ) * rnd ((dim : ℚ) - 1)) / (n : ℚ)) =
      rnd ((i : ℚ) * ((dim : ℚ) - 1) / n) := fun i hi => by rw [e1, e2 i hi]
  unfold gridAxisD
  refine ⟨by simp, ?_, ?_, ?_⟩
  · rw [List.range_succ_eq_map, List.map_cons, List.head?_cons, helem 0 (by omega)]
    simp [h.zero]
  · rw [List.range_succ, List.map_append, List.map_singleton, List.getLast?_append, List.getLast?_singleton, helem n le_rfl, hlast]
    rfl
  · intro i x hx
    rw [List.getElem?_map, Option.map_eq_some_iff] at hx
    obtain ⟨j, hj, rfl⟩ := hx
    obtain ⟨hlt, hj⟩ := List.getElem?_eq_some_iff.1 hj
    rw [List.getElem_range] at hj
    subst hj
    rw [List.length_range] at hlt
    have hin : i ≤ n := by omega
    have hiq : (i : ℚ) ≤ n := by exact_mod_cast hin
    rw [helem i hin]
    have hnn : 0 ≤ (i : ℚ) * ((dim : ℚ) - 1) / n := by positivity
    refine ⟨h.nonneg hnn, ?_, ?_⟩
    · refine le_trans (h.mono ?_) hlast.le
      gcongr
    · have := h.rel hp ((i : ℚ) * ((dim : ℚ) - 1) / n)
      rw [abs_sub_comm, abs_of_nonneg hnn] at this
      exact this

/-- Three cells over the 4096 rows of a CCD: the last point is row 4095 and not just below it. -/
example : ∃ rnd, Rounds 53 rnd ∧ (gridAxisD rnd 3 4096).getLast? = some 4095 := by
  obtain ⟨rnd, h⟩ := exists_rounds 53 (by norm_num)
  refine ⟨rnd, h, ?_⟩
  rw [(C130_grid_axis 53 (by norm_num) rnd h 3 4096 (by norm_num) (by norm_num) (by norm_num)).2.2.1]
  norm_num

end

end Pizza
