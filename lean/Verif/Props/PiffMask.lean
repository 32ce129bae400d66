import Verif.Model.PiffMask

/-! C156: positions are looked up in the cell of the grid that contains them. -/

namespace Pizza

/-- Cell `k` of the `n` cells of width `g` along an axis is the one for the coordinate `v`: it contains `v`, where the first and the last cell
extend to infinity. -/
def CellOf (g : ℚ) (n : Nat) (v : ℚ) (k : Nat) : Prop :=
  k < n ∧ (0 < k → k * g ≤ v) ∧ (k + 1 < n → v < (k + 1) * g)

theorem cellOf_unique {g v : ℚ} (hg : 0 < g) {n j k : Nat} (hj : CellOf g n v j) (hk : CellOf g n v k) : j = k := by
  have key : ∀ {a b : Nat}, CellOf g n v a → CellOf g n v b → ¬ a < b := by
    intro a b ha hb hab
    have h1 := ha.2.2 (by have := hb.1; omega)
    have h2 := hb.2.1 (by omega)
    have h3 : ((a : ℚ) + 1) ≤ b := by exact_mod_cast hab
    have h4 := mul_le_mul_of_nonneg_right h3 hg.le
    linarith
  have h1 := key hj hk
  have h2 := key hk hj
  omega

theorem gridIndex_cell {g v : ℚ} (hg : 0 < g) {n : Nat} (hn : 0 < n) : ∃ k : Nat, gridIndex v g n = .ok (k : ℤ) ∧ CellOf g n v k := by
  obtain ⟨k, hk⟩ : ∃ k : Nat, min (max ⌊v / g⌋ 0) ((n : ℤ) - 1) = (k : ℤ) := ⟨(min (max ⌊v / g⌋ 0) ((n : ℤ) - 1)).toNat, by omega⟩
  refine ⟨k, ?_, by omega, fun h => ?_, fun h => ?_⟩
  · unfold gridIndex checkedDiv
    rw [if_neg hg.ne', ← hk]
    rfl
  · have h1 : (k : ℤ) ≤ ⌊v / g⌋ := by omega
    have h2 := Int.le_floor.1 h1
    rw [le_div_iff₀ hg] at h2
    exact_mod_cast h2
  · have h1 : ⌊v / g⌋ < (k : ℤ) + 1 := by omega
    have h2 := Int.floor_lt.1 h1
    rw [div_lt_iff₀ hg] at h2
    exact_mod_cast h2

/-- **C156** On a grid with cells the lookup never fails, and its result is the entry of the cell for the position: the row for `y`, the column
for `x`. -/
theorem C156_point (x y : ℚ) (m : Img Bool) (g : ℚ) (hg : 0 < g) (hr : 0 < m.nrow) (hc : 0 < m.ncol) (b : Bool) :
    pointInBadMask x y m g = .ok b ↔ ∃ r c, CellOf g m.nrow y r ∧ CellOf g m.ncol x c ∧ m.px r c = b := by
  obtain ⟨c, hc1, hc2⟩ := gridIndex_cell (v := x) hg hc
  obtain ⟨r, hr1, hr2⟩ := gridIndex_cell (v := y) hg hr
  have e : pointInBadMask x y m g = .ok (m.px r c) := by
    unfold pointInBadMask
    rw [hc1, hr1]
    have h1 := hc2.1
    have h2 := hr2.1
    have h : m.getZ? (r : ℤ) (c : ℤ) = some (m.px r c) := by
      unfold Img.getZ?
      rw [if_pos (by omega)]
      simp
    simp only [bind, Except.bind, h]
    rfl
  rw [e]
  constructor
  · intro h
    exact ⟨r, c, hr2, hc2, Except.ok.inj h⟩
  · rintro ⟨r', c', h1, h2, h3⟩
    rw [cellOf_unique hg h1 hr2, cellOf_unique hg h2 hc2] at h3
    rw [h3]

/-- **C156** A position on the grid is looked up in the cell that contains it, without exception at the edges of cells. -/
theorem C156_inside (x y : ℚ) (m : Img Bool) (g : ℚ) (hg : 0 < g) (r c : Nat) (hr : r < m.nrow) (hc : c < m.ncol)
    (hx : c * g ≤ x ∧ x < (c + 1) * g) (hy : r * g ≤ y ∧ y < (r + 1) * g) : pointInBadMask x y m g = .ok (m.px r c) :=
  (C156_point x y m g hg (by omega) (by omega) _).2 ⟨r, c, ⟨hr, fun _ => hy.1, fun _ => hy.2⟩, ⟨hc, fun _ => hx.1, fun _ => hx.2⟩, rfl⟩

/-- **C156** A position off the grid is looked up like the nearest position on the grid: moving `x` and `y` into the area of the grid (up to
any point of the last cell) does not change the result. -/
theorem C156_outside (x y x' y' : ℚ) (m : Img Bool) (g : ℚ) (hg : 0 < g) (hr : 0 < m.nrow) (hc : 0 < m.ncol)
    (hx : x' = x ∨ (x < 0 ∧ 0 ≤ x' ∧ x' < g) ∨ (m.ncol * g ≤ x ∧ (m.ncol - 1) * g ≤ x' ∧ x' < m.ncol * g))
    (hy : y' = y ∨ (y < 0 ∧ 0 ≤ y' ∧ y' < g) ∨ (m.nrow * g ≤ y ∧ (m.nrow - 1) * g ≤ y' ∧ y' < m.nrow * g)) :
    pointInBadMask x y m g = pointInBadMask x' y' m g := by
  have key : ∀ (n : Nat) (v v' : ℚ), 0 < n → (v' = v ∨ (v < 0 ∧ 0 ≤ v' ∧ v' < g) ∨ (n * g ≤ v ∧ (n - 1) * g ≤ v' ∧ v' < n * g)) →
      ∃ k, CellOf g n v k ∧ CellOf g n v' k := by
    intro n v v' hn h
    rcases h with rfl | ⟨h1, h2, h3⟩ | ⟨h1, h2, h3⟩
    · obtain ⟨k, -, hk⟩ := gridIndex_cell (v := v') hg hn
      exact ⟨k, hk, hk⟩
    · refine ⟨0, ⟨hn, fun h => absurd h (lt_irrefl _), fun _ => ?_⟩, hn, fun h => absurd h (lt_irrefl _), fun _ => ?_⟩
      · push_cast
        linarith
      · push_cast
        linarith
    · have e : ((n - 1 : Nat) : ℚ) = (n : ℚ) - 1 := by
        rw [Nat.cast_sub hn]
        simp
      refine ⟨n - 1, ⟨by omega, fun _ => ?_, fun h => ?_⟩, by omega, fun _ => ?_, fun h => ?_⟩
      · rw [e]
        linarith
      · omega
      · rw [e]
        exact h2
      · omega
  obtain ⟨c, c1, c2⟩ := key _ _ _ hc hx
  obtain ⟨r, r1, r2⟩ := key _ _ _ hr hy
  rw [(C156_point x y m g hg hr hc _).2 ⟨r, c, r1, c1, rfl⟩, (C156_point x' y' m g hg hr hc _).2 ⟨r, c, r2, c2, rfl⟩]

/-- **C156** With an empty grid the lookup raises IndexError. -/
theorem C156_empty (x y : ℚ) (m : Img Bool) (g : ℚ) (hg : 0 < g) (h : m.nrow = 0 ∨ m.ncol = 0) :
    pointInBadMask x y m g = .error .indexError := by
  have hz : ∀ r c : ℤ, m.getZ? r c = none := by
    intro r c
    unfold Img.getZ?
    rw [if_neg (by omega)]
  unfold pointInBadMask gridIndex checkedDiv
  rw [if_neg hg.ne', if_neg hg.ne']
  simp only [bind, Except.bind, pure, Except.pure, hz]

/-- **C156** An array of positions is looked up position by position. -/
theorem C156_points (pos : List (ℚ × ℚ)) (m : Img Bool) (g : ℚ) (hg : 0 < g) (hr : 0 < m.nrow) (hc : 0 < m.ncol) :
    ∃ l, pointsInBadMask pos m g = .ok l ∧
      List.Forall₂ (fun p b => ∃ r c, CellOf g m.nrow p.2 r ∧ CellOf g m.ncol p.1 c ∧ m.px r c = b) pos l := by
  induction pos with
  | nil => exact ⟨[], rfl, .nil⟩
  | cons p t ih =>
    obtain ⟨l, h1, h2⟩ := ih
    obtain ⟨c, -, hc2⟩ := gridIndex_cell (v := p.1) hg hc
    obtain ⟨r, -, hr2⟩ := gridIndex_cell (v := p.2) hg hr
    have e : pointInBadMask p.1 p.2 m g = .ok (m.px r c) := (C156_point _ _ m g hg hr hc _).2 ⟨r, c, hr2, hc2, rfl⟩
    refine ⟨m.px r c :: l, ?_, .cons ⟨r, c, hr2, hc2, rfl⟩ h2⟩
    unfold pointsInBadMask at h1 ⊢
    rw [List.mapM_cons, e, h1]
    rfl

/-- `C156_point`, `C156_inside` and `C156_points`: a grid of 2 rows and 3 columns with cells of 128 pixels, where row 0 and column 2 is bad. -/
example : pointInBadMask 256 (255/2) ⟨2, 3, fun r c => r == 0 && c == 2⟩ 128 = .ok true ∧
    pointInBadMask (511/2) 128 ⟨2, 3, fun r c => r == 0 && c == 2⟩ 128 = .ok false :=
  ⟨C156_inside _ _ _ _ (by norm_num) 0 2 (by decide) (by decide) (by norm_num) (by norm_num),
   C156_inside _ _ _ _ (by norm_num) 1 1 (by decide) (by decide) (by norm_num) (by norm_num)⟩

/-- `C156_outside`: beyond the last column and below the first row. -/
example : pointInBadMask 1000 (-1/2) ⟨2, 3, fun r c => r == 0 && c == 2⟩ 128 = .ok true := by
  rw [C156_outside 1000 (-1/2) 300 0 _ 128 (by norm_num) (by decide) (by decide)
    (.inr (.inr ⟨by norm_num, by norm_num, by norm_num⟩)) (.inr (.inl ⟨by norm_num, by norm_num, by norm_num⟩))]
  exact C156_inside _ _ _ _ (by norm_num) 0 2 (by decide) (by decide) (by norm_num) (by norm_num)

/-- `C156_empty`: a grid without columns. -/
example : pointInBadMask 1 2 ⟨3, 0, fun _ _ => true⟩ 128 = .error .indexError := C156_empty _ _ _ _ (by norm_num) (.inr rfl)

end Pizza
