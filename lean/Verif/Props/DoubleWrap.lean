import Verif.Model.DoubleWrap
import Verif.Lemmas.Double
import Mathlib.Algebra.Order.Archimedean.Basic

/-! C129: `wrap_ra_diff` in floating point arithmetic. -/

namespace Pizza

section
variable {p : ℕ} {rnd : ℚ → ℚ}

theorem isFloat_360 (hp : 6 ≤ p) : IsFloat p 360 := by
  have h : (64 : ℤ) ≤ 2 ^ p := by
    calc (64 : ℤ) = 2 ^ 6 := by norm_num
      _ ≤ 2 ^ p := pow_le_pow_right₀ (by norm_num) hp
  refine ⟨45, 3, ?_, by norm_num⟩
  rw [abs_of_nonneg (by norm_num)]
  omega

theorem isFloat_180 (hp : 6 ≤ p) : IsFloat p 180 := by
  have h : (64 : ℤ) ≤ 2 ^ p := by
    calc (64 : ℤ) = 2 ^ 6 := by norm_num
      _ ≤ 2 ^ p := pow_le_pow_right₀ (by norm_num) hp
  refine ⟨45, 2, ?_, by norm_num⟩
  rw [abs_of_nonneg (by norm_num)]
  omega

/-- Rounding seen from the other side of zero. -/
theorem Rounds.flip (h : Rounds p rnd) : Rounds p (fun x => -rnd (-x)) := by
  refine ⟨fun x => (h.float _).neg, fun x y hy => ?_⟩
  have := h.nearest (-x) (-y) hy.neg
  rw [show x - -rnd (-x) = -(-x - rnd (-x)) by ring, show x - y = -(-x - -y) by ring, abs_neg, abs_neg]
  exact this

theorem highRuns_iff (d r : ℚ) : HighRuns rnd d r ↔ LowRuns (fun x => -rnd (-x)) (-d) (-r) := by
  constructor
  · intro h
    induction h with
    | stop hd => exact .stop (by linarith)
    | again hd _ ih =>
      refine .again (by linarith) ?_
      rw [show -(-_ + 360) = _ - (360 : ℚ) from by ring]
      exact ih
  · intro h
    generalize hx : -d = x at h
    generalize hy : -r = y at h
    induction h generalizing d with
    | stop hd =>
      have : d = r := by linarith
      subst this
      exact .stop (by linarith)
    | @again e s hd _ ih =>
      refine .again (by linarith) (ih (rnd (d - 360)) ?_ hy)
      show -rnd (d - 360) = -rnd (-(e + 360))
      rw [← hx]
      congr 2
      ring

/-- One step below −180 moves by at least 180 and not beyond 180, as long as there are numbers in between. -/
theorem low_step (h : Rounds p rnd) (hp : 6 ≤ p) {d : ℚ} (hd : IsFloat p d) (hb : -(2 : ℚ) ^ (p + 9) ≤ d) (hl : d < -180) :
    d + 180 ≤ rnd (d + 360) ∧ rnd (d + 360) ≤ 180 := by
  constructor
  · rcases lt_or_ge (-720) d with h7 | h7
    · have h1 := h.rel (by omega) (d + 360)
      have h2 : |d + 360| ≤ 360 := abs_le.2 ⟨by linarith, by linarith⟩
      have h3 : (2 : ℚ) ≤ 2 ^ p := by
        calc (2 : ℚ) = 2 ^ 1 := by norm_num
          _ ≤ 2 ^ p := pow_le_pow_right₀ (by norm_num) (by omega)
      have h4 : |d + 360| / 2 ^ p ≤ 360 / 2 := by gcongr
      have h5 := (abs_le.1 (h1.trans h4)).2
      linarith
    · have hf : IsFloat p (d + 512) := by
        obtain ⟨m, e, hm, rfl⟩ := hd
        have he0 : (0 : ℚ) < 2 ^ e := by positivity
        rcases le_or_gt e 9 with he | he
        · have hx : (m : ℚ) * 2 ^ e + 512 = ((m + 2 ^ (9 - e).toNat : ℤ) : ℚ) * 2 ^ e := by
            push_cast
            rw [add_mul, ← zpow_natCast, ← zpow_add₀ (by norm_num)]
            congr 1
            rw [show ((9 - e).toNat : ℤ) + e = 9 by omega]
            norm_num
          refine ⟨_, _, ?_, hx⟩
          have h1 : ((m + 2 ^ (9 - e).toNat : ℤ) : ℚ) * 2 ^ e < 0 := by rw [← hx]; linarith
          have h2 : ((m + 2 ^ (9 - e).toNat : ℤ) : ℚ) < 0 := by
            by_contra hc
            rw [not_lt] at hc
            exact absurd (mul_nonneg hc he0.le) (not_le.2 h1)
          have h3 : m + 2 ^ (9 - e).toNat < 0 := by exact_mod_cast h2
          have h4 : (0 : ℤ) < 2 ^ (9 - e).toNat := by positivity
          rw [abs_of_neg h3]
          have := (abs_le.1 hm).1
          omega
        · have hx : (m : ℚ) * 2 ^ e = ((m * 2 ^ (e - 9).toNat : ℤ) : ℚ) * 2 ^ (9 : ℤ) := by
            rw [Int.cast_mul, Int.cast_pow, Int.cast_ofNat, mul_assoc, ← zpow_natCast, ← zpow_add₀ (by norm_num)]
            congr 2
            omega
          rw [hx] at hb h7 ⊢
          refine ⟨m * 2 ^ (e - 9).toNat + 1, 9, ?_, by push_cast; ring⟩
          generalize m * 2 ^ (e - 9).toNat = n at hb h7
          have h1 : -(2 : ℚ) ^ p ≤ n := by
            have : (2 : ℚ) ^ (p + 9) = 2 ^ p * 2 ^ (9 : ℤ) := by rw [pow_add]; norm_num
            rw [this] at hb
            have h512 : (0 : ℚ) < 2 ^ (9 : ℤ) := by norm_num
            nlinarith
          have h2 : -(2 : ℤ) ^ p ≤ n := by exact_mod_cast h1
          have h3 : (n : ℚ) < -1 := by norm_num at h7; linarith
          have h4 : n < -1 := by exact_mod_cast h3
          rw [abs_of_neg (by omega)]
          omega
      have h1 := h.nearest (d + 360) _ hf
      rw [show d + 360 - (d + 512) = -152 by ring] at h1
      norm_num at h1
      have h2 := (abs_le.1 h1).2
      linarith
  · calc rnd (d + 360) ≤ rnd 180 := h.mono (by linarith)
      _ = 180 := h.exact (isFloat_180 hp)

theorem lowRuns_ends (h : Rounds p rnd) (hp : 6 ≤ p) (n : ℕ) : ∀ d : ℚ, IsFloat p d → -(2 : ℚ) ^ (p + 9) ≤ d →
    -180 - 180 * n ≤ d → ∃ r, LowRuns rnd d r ∧ -180 ≤ r ∧ (r = d ∨ r ≤ 180) := by
  induction n with
  | zero =>
    intro d _ _ h1
    exact ⟨d, .stop (by push_cast at h1; linarith), by push_cast at h1; linarith, .inl rfl⟩
  | succ n ih =>
    intro d hd hb h1
    by_cases hl : d < -180
    · obtain ⟨h2, h3⟩ := low_step h hp hd hb hl
      obtain ⟨r, hr, hr1, hr2⟩ := ih (rnd (d + 360)) (h.float _) (by linarith) (by push_cast at h1 ⊢; linarith)
      refine ⟨r, .again hl hr, hr1, .inr ?_⟩
      rcases hr2 with rfl | hr2
      · exact h3
      · exact hr2
    · exact ⟨d, .stop hl, by linarith, .inl rfl⟩

theorem lowRuns_unique {d r s : ℚ} (h1 : LowRuns rnd d r) (h2 : LowRuns rnd d s) : r = s := by
  induction h1 with
  | stop hd =>
    cases h2 with
    | stop _ => rfl
    | again hd' _ => exact absurd hd' hd
  | again hd _ ih =>
    cases h2 with
    | stop hd' => exact absurd hd hd'
    | again _ h => exact ih h

theorem highRuns_unique {d r s : ℚ} (h1 : HighRuns rnd d r) (h2 : HighRuns rnd d s) : r = s :=
  neg_injective (lowRuns_unique ((highRuns_iff d r).1 h1) ((highRuns_iff d s).1 h2))

theorem highRuns_ends (h : Rounds p rnd) (hp : 6 ≤ p) (d : ℚ) (hd : IsFloat p d) (hb : d ≤ (2 : ℚ) ^ (p + 9)) :
    ∃ r, HighRuns rnd d r ∧ r ≤ 180 ∧ (r = d ∨ -180 ≤ r) := by
  obtain ⟨n, hn⟩ := exists_nat_ge ((d - 180) / 180)
  rw [div_le_iff₀ (by norm_num)] at hn
  obtain ⟨r, hr, hr1, hr2⟩ := lowRuns_ends h.flip hp n (-d) hd.neg (by linarith) (by linarith)
  refine ⟨-r, (highRuns_iff _ _).2 (by rwa [neg_neg]), by linarith, ?_⟩
  rcases hr2 with rfl | hr2
  · exact .inl (neg_neg d)
  · exact .inr (by linarith)

/-- A run gives one result. -/
theorem C129_one_result (rnd : ℚ → ℚ) (x y z : Flt) (h1 : WrapRuns rnd x y) (h2 : WrapRuns rnd x z) : y = z := by
  cases h1 with
  | fin hl hh =>
    cases h2 with
    | fin hl' hh' =>
      obtain rfl := lowRuns_unique hl hl'
      rw [highRuns_unique hh hh']
  | posInf => cases h2; rfl
  | negInf => cases h2; rfl
  | nan => cases h2; rfl

/-- 200 wraps to −160 and to nothing else. -/
example : ∃ rnd, Rounds 53 rnd ∧ ∀ z, WrapRuns rnd (.fin 200) z → z = .fin (-160) := by
  obtain ⟨rnd, h⟩ := exists_rounds 53 (by norm_num)
  refine ⟨rnd, h, fun z hz => C129_one_result rnd (.fin 200) z _ hz (.fin (.stop (by norm_num)) (.again (by norm_num) ?_))⟩
  rw [h.exact (show IsFloat 53 (200 - 360) from ⟨-160, 0, by norm_num, by norm_num⟩)]
  norm_num
  exact .stop (by norm_num)

/-- Up to `2 ^ (p + 9)` (4.6e18 for doubles) the loops end, with a number between −180 and 180. -/
theorem C129_ends_partial (p : ℕ) (hp : 6 ≤ p) (rnd : ℚ → ℚ) (h : Rounds p rnd) (d : ℚ) (hd : IsFloat p d)
    (hb : |d| ≤ 2 ^ (p + 9)) : ∃ r, WrapRuns rnd (.fin d) (.fin r) ∧ |r| ≤ 180 := by
  obtain ⟨hb1, hb2⟩ := abs_le.1 hb
  have hbig : (180 : ℚ) ≤ 2 ^ (p + 9) := by
    calc (180 : ℚ) ≤ 2 ^ 9 := by norm_num
      _ ≤ 2 ^ (p + 9) := pow_le_pow_right₀ (by norm_num) (by omega)
  by_cases hl : d < -180
  · obtain ⟨n, hn⟩ := exists_nat_ge ((-180 - d) / 180)
    rw [div_le_iff₀ (by norm_num)] at hn
    obtain ⟨r, hr, hr1, hr2⟩ := lowRuns_ends h hp n d hd hb1 (by linarith)
    have hr3 : r ≤ 180 := hr2.elim (fun e => by linarith) id
    exact ⟨r, .fin hr (.stop (by linarith)), abs_le.2 ⟨hr1, hr3⟩⟩
  · obtain ⟨r, hr, hr1, hr2⟩ := highRuns_ends h hp d hd hb2
    have hr3 : -180 ≤ r := hr2.elim (fun e => by linarith) id
    exact ⟨r, .fin (.stop hl) hr, abs_le.2 ⟨hr3, hr1⟩⟩

/-- A difference of a million degrees and three eighths. -/
example : ∃ rnd, Rounds 53 rnd ∧ ∃ r, WrapRuns rnd (.fin (1000000 + 3 / 8)) (.fin r) ∧ |r| ≤ 180 := by
  obtain ⟨rnd, h⟩ := exists_rounds 53 (by norm_num)
  exact ⟨rnd, h, C129_ends_partial 53 (by norm_num) rnd h _ ⟨8000003, -3, by norm_num, by norm_num⟩ (by norm_num)⟩

/-- Beyond `2 ^ (p + 9)` neither loop ends: 360 is less than half of the distance to the next number, and the
sum is the number itself. -/
theorem C129_ends_fails (p : ℕ) (hp : 6 ≤ p) (rnd : ℚ → ℚ) (h : Rounds p rnd) (d : ℚ) (hd : IsFloat p d)
    (hb : 2 ^ (p + 9) < |d|) : ¬ ∃ r, WrapRuns rnd (.fin d) r := by
  have hbig : (180 : ℚ) ≤ 2 ^ (p + 9) := by
    calc (180 : ℚ) ≤ 2 ^ 9 := by norm_num
      _ ≤ 2 ^ (p + 9) := pow_le_pow_right₀ (by norm_num) (by omega)
  have hg : (2 : ℚ) ^ (p + 9) = ((2 ^ (p - 1) : ℤ) : ℚ) * 1024 := by
    obtain ⟨q, rfl⟩ : ∃ q, p = q + 1 := ⟨p - 1, by omega⟩
    push_cast
    rw [show q + 1 + 9 = q + 10 by ring, pow_add]
    norm_num
  -- large numbers are multiples of 1024
  have mult : ∀ y, IsFloat p y → (2 : ℚ) ^ (p + 9) < |y| → ∃ k : ℤ, y = k * 1024 := by
    rintro y ⟨m, e, hm, rfl⟩ hy
    have he0 : (0 : ℚ) < 2 ^ e := by positivity
    have hm' : |(m : ℚ)| ≤ 2 ^ p := by exact_mod_cast hm
    have he : 10 ≤ e := by
      by_contra hc
      have h1 : (2 : ℚ) ^ e ≤ 2 ^ (9 : ℤ) := zpow_le_zpow_right₀ (by norm_num) (by omega)
      rw [abs_mul, abs_of_pos he0] at hy
      have h2 : |(m : ℚ)| * 2 ^ e ≤ 2 ^ p * 2 ^ (9 : ℤ) := by gcongr
      have h3 : (2 : ℚ) ^ (p + 9) = 2 ^ p * 2 ^ (9 : ℤ) := by rw [pow_add]; norm_num
      linarith
    refine ⟨m * 2 ^ (e - 10).toNat, ?_⟩
    push_cast
    rw [show (1024 : ℚ) = 2 ^ (10 : ℤ) by norm_num, mul_assoc, ← zpow_natCast, ← zpow_add₀ (by norm_num)]
    congr 2
    omega
  have stuck : ∀ {rnd : ℚ → ℚ}, Rounds p rnd → ∀ d, IsFloat p d → d < -(2 : ℚ) ^ (p + 9) → rnd (d + 360) = d := by
    intro rnd h d hd hb
    by_contra hne
    have h1 := h.nearest (d + 360) d hd
    rw [show d + 360 - d = 360 by ring, abs_of_pos (show (0 : ℚ) < 360 by norm_num)] at h1
    obtain ⟨k, hk⟩ := mult d hd (by rw [abs_of_neg (by linarith)]; linarith)
    have hy := h.float (d + 360)
    generalize rnd (d + 360) = y at hne h1 hy
    obtain ⟨h2, h3⟩ := abs_le.1 h1
    have hgt : d < y := lt_of_le_of_ne (by linarith) (Ne.symm hne)
    -- `y` is at least 1024 away
    have h1024 : d + 1024 ≤ y := by
      rcases lt_or_ge y (-(2 : ℚ) ^ (p + 9)) with hs | hs
      · obtain ⟨j, hj⟩ := mult y hy (by rw [abs_of_neg (by linarith)]; linarith)
        rw [hk, hj] at hgt ⊢
        have : (k : ℚ) < j := by linarith
        have : k < j := by exact_mod_cast this
        have : (k : ℚ) + 1 ≤ j := by exact_mod_cast this
        linarith
      · rw [hg, hk] at hb
        have h4 : (k : ℚ) < -((2 ^ (p - 1) : ℤ) : ℚ) := by linarith
        have h5 : k < -(2 ^ (p - 1) : ℤ) := by exact_mod_cast h4
        have h6 : k + 1 ≤ -(2 ^ (p - 1) : ℤ) := by omega
        have h7 : (k : ℚ) + 1 ≤ -((2 ^ (p - 1) : ℤ) : ℚ) := by exact_mod_cast h6
        rw [hg] at hs
        rw [hk]
        linarith
    linarith
  have never : ∀ {rnd : ℚ → ℚ}, Rounds p rnd → ∀ d r, IsFloat p d → d < -(2 : ℚ) ^ (p + 9) → ¬ LowRuns rnd d r := by
    intro rnd h d r hd hb hr
    have he := stuck h d hd hb
    induction hr with
    | stop hs => exact hs (by linarith)
    | again _ _ ih =>
      rw [he] at ih
      exact ih hd hb he
  rintro ⟨r, hr⟩
  cases hr with
  | @fin _ m r hl hh =>
    rcases lt_or_ge d 0 with hneg | hpos
    · rw [abs_of_neg hneg] at hb
      exact never h d m hd (by linarith) hl
    · rw [abs_of_nonneg hpos] at hb
      cases hl with
      | stop _ => exact never h.flip (-d) (-r) hd.neg (by linarith) ((highRuns_iff _ _).1 hh)
      | again hc _ => linarith

/-- 1e19 is a double, and `wrap_ra_diff(1e19)` does not return. -/
example : ∃ rnd, Rounds 53 rnd ∧ ¬ ∃ r, WrapRuns rnd (.fin 10000000000000000000) r := by
  obtain ⟨rnd, h⟩ := exists_rounds 53 (by norm_num)
  exact ⟨rnd, h, C129_ends_fails 53 (by norm_num) rnd h _
    ⟨5 ^ 19, 19, by norm_num, by norm_num⟩ (by norm_num)⟩

/-- Within two turns nothing is lost to rounding: the result is the difference less a whole number of turns. -/
theorem C129_exact (p : ℕ) (hp : 6 ≤ p) (rnd : ℚ → ℚ) (h : Rounds p rnd) (d : ℚ) (hd : IsFloat p d) (hb : |d| ≤ 720) :
    ∃ r, WrapRuns rnd (.fin d) (.fin r) ∧ |r| ≤ 180 ∧ ∃ k : ℤ, d = r + 360 * k := by
  have low : ∀ {rnd : ℚ → ℚ}, Rounds p rnd → ∀ d, IsFloat p d → -720 ≤ d → d < -180 →
      ∃ r, LowRuns rnd d r ∧ |r| ≤ 180 ∧ ∃ k : ℤ, d = r + 360 * k := by
    intro rnd h d hd h1 h2
    have e1 : ∀ d, IsFloat p d → -720 ≤ d → d < -180 → rnd (d + 360) = d + 360 ∧ IsFloat p (d + 360) := by
      intro d hd h1 h2
      have := ((hd.neg).sub_exact (isFloat_360 hp) (by linarith) (by linarith)).neg
      rw [show -(-d - 360) = d + 360 by ring] at this
      exact ⟨h.exact this, this⟩
    obtain ⟨h3, h4⟩ := e1 d hd h1 h2
    by_cases h5 : d + 360 < -180
    · obtain ⟨h6, h7⟩ := e1 (d + 360) h4 (by linarith) h5
      refine ⟨d + 360 + 360, .again h2 ?_, abs_le.2 ⟨by linarith, by linarith⟩, -2, by push_cast; ring⟩
      rw [h3]
      refine .again h5 ?_
      rw [h6]
      exact .stop (by linarith)
    · refine ⟨d + 360, .again h2 ?_, abs_le.2 ⟨by linarith, by linarith⟩, -1, by push_cast; ring⟩
      rw [h3]
      exact .stop h5
  obtain ⟨hb1, hb2⟩ := abs_le.1 hb
  by_cases hl : d < -180
  · obtain ⟨r, hr, h1, k, hk⟩ := low h d hd hb1 hl
    exact ⟨r, .fin hr (.stop (by linarith [(abs_le.1 h1).2])), h1, k, hk⟩
  · by_cases hh : d > 180
    · obtain ⟨r, hr, h1, k, hk⟩ := low h.flip (-d) hd.neg (by linarith) (by linarith)
      refine ⟨-r, .fin (.stop hl) ((highRuns_iff _ _).2 (by rwa [neg_neg])), by rwa [abs_neg], -k, ?_⟩
      push_cast
      linarith
    · exact ⟨d, .fin (.stop hl) (.stop hh), abs_le.2 ⟨by linarith, by linarith⟩, 0, by simp⟩

/-- Across the zero of right ascension: 359.75 wraps to −0.25. -/
example : ∃ rnd, Rounds 53 rnd ∧ ∃ r, WrapRuns rnd (.fin (359 + 3 / 4)) (.fin r) ∧ |r| ≤ 180 ∧
    ∃ k : ℤ, (359 + 3 / 4 : ℚ) = r + 360 * k := by
  obtain ⟨rnd, h⟩ := exists_rounds 53 (by norm_num)
  exact ⟨rnd, h, C129_exact 53 (by norm_num) rnd h _ ⟨1439, -2, by norm_num, by norm_num⟩
    (by rw [abs_of_nonneg] <;> norm_num)⟩

/-- The difference of two right ascensions: rounded once, by at most `360 / 2 ^ p` (1.5e-10 arcsec for doubles). -/
theorem C129_of_two (p : ℕ) (hp : 6 ≤ p) (rnd : ℚ → ℚ) (h : Rounds p rnd) (ra ra' : ℚ) (h1 : 0 ≤ ra) (h2 : ra ≤ 360)
    (h3 : 0 ≤ ra') (h4 : ra' ≤ 360) :
    ∃ r, DiffRuns rnd ra ra' (.fin r) ∧ |r| ≤ 180 ∧ ∃ k : ℤ, |r - (ra - ra' + 360 * k)| ≤ 360 / 2 ^ p := by
  have hle : |ra - ra'| ≤ 360 := abs_le.2 ⟨by linarith, by linarith⟩
  have h5 : |rnd (ra - ra')| ≤ 360 := by
    have e1 := h.mono (abs_le.1 hle).2
    have e2 := h.mono (abs_le.1 hle).1
    rw [h.exact (isFloat_360 hp)] at e1
    rw [h.exact (isFloat_360 hp).neg] at e2
    exact abs_le.2 ⟨e2, e1⟩
  obtain ⟨r, hr, hr1, k, hk⟩ := C129_exact p hp rnd h _ (h.float (ra - ra')) (h5.trans (by norm_num))
  refine ⟨r, hr, hr1, -k, ?_⟩
  have h6 := h.rel (by omega) (ra - ra')
  have h7 : |ra - ra'| / 2 ^ p ≤ 360 / 2 ^ p := by gcongr
  refine le_trans (le_of_eq ?_) (h6.trans h7)
  rw [abs_sub_comm]
  congr 1
  push_cast
  rw [hk]
  ring

/-- Two right ascensions on either side of zero, in doubles and in singles. -/
example (p : ℕ) (hp : p = 53 ∨ p = 24) : ∃ rnd, Rounds p rnd ∧ ∃ r, DiffRuns rnd (1 / 10) (3599 / 10) (.fin r) ∧
    |r| ≤ 180 ∧ ∃ k : ℤ, |r - (1 / 10 - 3599 / 10 + 360 * k)| ≤ 360 / 2 ^ p := by
  have hp6 : 6 ≤ p := by omega
  obtain ⟨rnd, h⟩ := exists_rounds p (by omega)
  exact ⟨rnd, h, C129_of_two p hp6 rnd h _ _ (by norm_num) (by norm_num) (by norm_num) (by norm_num)⟩

end

/-! An array is wrapped as its elements are. -/

section
variable {α : Type}

/-- A loop that ends. -/
inductive LoopEnds (c : α → Bool) (f : α → α) : α → α → Prop
  | stop {x : α} : c x = false → LoopEnds c f x x
  | again {x y : α} : c x = true → LoopEnds c f (f x) y → LoopEnds c f x y

theorem loopEnds_iff (c : α → Bool) (f : α → α) (x y : α) :
    LoopEnds c f x y ↔ (∃ n, (fun x => if c x then f x else x)^[n] x = y) ∧ c y = false := by
  constructor
  · intro h
    induction h with
    | stop hc => exact ⟨⟨0, rfl⟩, hc⟩
    | again hc _ ih =>
      obtain ⟨⟨n, hn⟩, hy⟩ := ih
      refine ⟨⟨n + 1, ?_⟩, hy⟩
      rw [Function.iterate_succ_apply, if_pos hc]
      exact hn
  · rintro ⟨⟨n, hn⟩, hy⟩
    induction n generalizing x with
    | zero =>
      subst hn
      exact .stop hy
    | succ n ih =>
      rw [Function.iterate_succ_apply] at hn
      cases hc : c x with
      | true =>
        rw [if_pos hc] at hn
        exact .again hc (ih _ hn)
      | false =>
        rw [hc] at hn
        exact ih _ hn

theorem loopEnds_list (c : α → Bool) (f : α → α) (a b : List α) :
    LoopEnds (fun l : List α => l.any c) (List.map fun x => if c x then f x else x) a b ↔
      List.Forall₂ (LoopEnds c f) a b := by
  obtain ⟨g, hg⟩ : ∃ g, g = fun x => if c x then f x else x := ⟨_, rfl⟩
  have hfix : ∀ x, c x = false → g x = x := by
    intro x hx
    rw [hg]
    show (if c x then f x else x) = x
    rw [hx]
    rfl
  have hiter : ∀ x n, c x = false → g^[n] x = x := fun x n hx => Function.iterate_fixed (hfix x hx) n
  -- a pass over the list changes nothing once all are done
  have hpass : (fun l : List α => if l.any c then l.map g else l) = List.map g := by
    funext l
    split
    · rfl
    · rename_i hl
      have hl' : l.any c = false := by simpa using hl
      rw [List.any_eq_false] at hl'
      symm
      conv_rhs => rw [← List.map_id l]
      exact List.map_congr_left fun x hx => hfix x (by simpa using hl' x hx)
  rw [loopEnds_iff]
  have hmap : ∀ n, (List.map g)^[n] a = a.map g^[n] := by
    intro n
    induction n with
    | zero => simp
    | succ n ih => rw [Function.iterate_succ_apply', ih, List.map_map, Function.iterate_succ']
  rw [← hg]
  show (∃ n, (fun l : List α => if l.any c then l.map g else l)^[n] a = b) ∧ b.any c = false ↔ _
  rw [hpass]
  simp only [hmap]
  constructor
  · rintro ⟨⟨n, rfl⟩, hb⟩
    rw [List.forall₂_map_right_iff, List.forall₂_same]
    intro x hx
    refine (loopEnds_iff c f x _).2 ⟨⟨n, by rw [hg]⟩, ?_⟩
    have := List.any_eq_false.1 hb (g^[n] x) (List.mem_map_of_mem hx)
    simpa using this
  · intro h
    induction h with
    | nil => exact ⟨⟨0, rfl⟩, rfl⟩
    | @cons x y a b hxy _ ih =>
      obtain ⟨⟨n, hn⟩, hy⟩ := (loopEnds_iff c f x y).1 hxy
      have hmap' : ∀ n, (List.map g)^[n] a = a.map g^[n] := by
        intro n
        induction n with
        | zero => simp
        | succ n ih => rw [Function.iterate_succ_apply', ih, List.map_map, Function.iterate_succ']
      obtain ⟨⟨m, hm⟩, hb⟩ := ih hmap'
      rw [← hg] at hn
      refine ⟨⟨n + m, ?_⟩, by simp [hy, hb]⟩
      rw [List.map_cons]
      congr 1
      · rw [Nat.add_comm, Function.iterate_add_apply, hn, hiter _ _ hy]
      · rw [← hm]
        refine List.map_congr_left fun z hz => ?_
        rw [Function.iterate_add_apply]
        refine hiter _ _ ?_
        rw [← hm] at hb
        have := List.any_eq_false.1 hb (g^[m] z) (List.mem_map_of_mem hz)
        simpa using this
  
end

theorem arrLowRuns_iff (rnd : ℚ → ℚ) (a b : List Flt) :
    ArrLowRuns rnd a b ↔ List.Forall₂ (LoopEnds maskLow (Flt.addRnd rnd 360)) a b := by
  rw [← loopEnds_list]
  constructor
  · intro h
    induction h with
    | stop hc => exact .stop hc
    | again hc _ ih => exact .again hc ih
  · intro h
    induction h with
    | stop hc => exact .stop hc
    | again hc _ ih => exact .again hc ih

theorem arrHighRuns_iff (rnd : ℚ → ℚ) (a b : List Flt) :
    ArrHighRuns rnd a b ↔ List.Forall₂ (LoopEnds maskHigh (Flt.addRnd rnd (-360))) a b := by
  rw [← loopEnds_list]
  constructor
  · intro h
    induction h with
    | stop hc => exact .stop hc
    | again hc _ ih => exact .again hc ih
  · intro h
    induction h with
    | stop hc => exact .stop hc
    | again hc _ ih => exact .again hc ih

theorem elemLow_iff (rnd : ℚ → ℚ) (d : ℚ) (y : Flt) :
    LoopEnds maskLow (Flt.addRnd rnd 360) (.fin d) y ↔ ∃ r, LowRuns rnd d r ∧ y = .fin r := by
  constructor
  · intro h
    generalize hx : Flt.fin d = x at h
    induction h generalizing d with
    | stop hc =>
      subst hx
      exact ⟨d, .stop (by simpa [maskLow] using hc), rfl⟩
    | again hc _ ih =>
      subst hx
      obtain ⟨r, hr, rfl⟩ := ih (rnd (d + 360)) rfl
      exact ⟨r, .again (by simpa [maskLow] using hc) hr, rfl⟩
  · rintro ⟨r, hr, rfl⟩
    induction hr with
    | stop hd => exact .stop (by simpa [maskLow] using hd)
    | again hd _ ih => exact .again (by simpa [maskLow] using hd) ih

theorem elemHigh_iff (rnd : ℚ → ℚ) (d : ℚ) (y : Flt) :
    LoopEnds maskHigh (Flt.addRnd rnd (-360)) (.fin d) y ↔ ∃ r, HighRuns rnd d r ∧ y = .fin r := by
  constructor
  · intro h
    generalize hx : Flt.fin d = x at h
    induction h generalizing d with
    | stop hc =>
      subst hx
      exact ⟨d, .stop (by simpa [maskHigh] using hc), rfl⟩
    | again hc _ ih =>
      subst hx
      obtain ⟨r, hr, rfl⟩ := ih (rnd (d - 360)) (by rw [sub_eq_add_neg]; rfl)
      exact ⟨r, .again (by simpa [maskHigh] using hc) hr, rfl⟩
  · rintro ⟨r, hr, rfl⟩
    induction hr with
    | stop hd => exact .stop (by simpa [maskHigh] using hd)
    | @again e s hd _ ih =>
      refine .again (by simpa [maskHigh] using hd) ?_
      show LoopEnds _ _ (Flt.fin (rnd (e + -360))) _
      rw [← sub_eq_add_neg]
      exact ih

theorem loopEnds_stuck {α : Type} {c : α → Bool} {f : α → α} {x y : α} (hc : c x = false) : LoopEnds c f x y ↔ y = x := by
  constructor
  · intro h
    cases h with
    | stop _ => rfl
    | again h _ => rw [hc] at h; cases h
  · rintro rfl
    exact .stop hc

theorem wrapRuns_iff (rnd : ℚ → ℚ) (x y : Flt) : WrapRuns rnd x y ↔
    ∃ m, LoopEnds maskLow (Flt.addRnd rnd 360) x m ∧ LoopEnds maskHigh (Flt.addRnd rnd (-360)) m y := by
  cases x with
  | fin d =>
    simp only [elemLow_iff]
    constructor
    · intro h
      cases h with
      | fin hl hh => exact ⟨_, ⟨_, hl, rfl⟩, (elemHigh_iff rnd _ _).2 ⟨_, hh, rfl⟩⟩
    · rintro ⟨_, ⟨m, hl, rfl⟩, hh⟩
      obtain ⟨r, hr, rfl⟩ := (elemHigh_iff rnd _ _).1 hh
      exact .fin hl hr
  | posInf =>
    simp only [loopEnds_stuck (c := maskLow) (x := Flt.posInf) rfl, exists_eq_left, loopEnds_stuck (c := maskHigh) (x := Flt.posInf) rfl]
    exact ⟨fun h => by cases h; rfl, fun h => by subst h; exact .posInf⟩
  | negInf =>
    simp only [loopEnds_stuck (c := maskLow) (x := Flt.negInf) rfl, exists_eq_left, loopEnds_stuck (c := maskHigh) (x := Flt.negInf) rfl]
    exact ⟨fun h => by cases h; rfl, fun h => by subst h; exact .negInf⟩
  | nan =>
    simp only [loopEnds_stuck (c := maskLow) (x := Flt.nan) rfl, exists_eq_left, loopEnds_stuck (c := maskHigh) (x := Flt.nan) rfl]
    exact ⟨fun h => by cases h; rfl, fun h => by subst h; exact .nan⟩

/-- The array is wrapped if and only if each of its elements is, to the same values: one element for which the
loop does not end keeps the whole array. -/
theorem C129_array (rnd : ℚ → ℚ) (a b : List Flt) : ArrWrapRuns rnd a b ↔ List.Forall₂ (WrapRuns rnd) a b := by
  unfold ArrWrapRuns
  simp only [arrLowRuns_iff, arrHighRuns_iff]
  constructor
  · rintro ⟨m, h1, h2⟩
    induction h1 generalizing b with
    | nil => cases h2; exact .nil
    | cons h _ ih =>
      cases h2 with
      | cons h' h2 => exact .cons ((wrapRuns_iff _ _ _).2 ⟨_, h, h'⟩) (ih _ h2)
  · intro h
    induction h with
    | nil => exact ⟨[], .nil, .nil⟩
    | cons h _ ih =>
      obtain ⟨m, h1, h2⟩ := (wrapRuns_iff _ _ _).1 h
      obtain ⟨t, h3, h4⟩ := ih
      exact ⟨m :: t, .cons h1 h3, .cons h2 h4⟩

/-- One element of 1e19 among others: the array is never returned. -/
example : ∃ rnd, Rounds 53 rnd ∧ ¬ ∃ b, ArrWrapRuns rnd [.fin 1, .nan, .fin 10000000000000000000, .fin 400] b := by
  obtain ⟨rnd, h⟩ := exists_rounds 53 (by norm_num)
  refine ⟨rnd, h, fun ⟨b, hb⟩ => ?_⟩
  rw [C129_array] at hb
  cases hb with | cons _ hb => cases hb with | cons _ hb => cases hb with | cons h1 _ =>
  exact C129_ends_fails 53 (by norm_num) rnd h _ ⟨5 ^ 19, 19, by norm_num, by norm_num⟩ (by norm_num) ⟨_, h1⟩

end Pizza
