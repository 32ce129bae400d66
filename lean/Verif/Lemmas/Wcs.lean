import Verif.Model.Wcs

namespace Pizza

theorem wrapLow_spec (d : ℚ) :
    -180 ≤ wrapLow d ∧ (-180 ≤ d → wrapLow d = d) ∧ (d < -180 → wrapLow d < 180) ∧
      ∃ k : ℤ, wrapLow d = d + 360 * k := by
  fun_induction wrapLow d with
  | case1 d h ih =>
    obtain ⟨h1, h2, h3, k, hk⟩ := ih
    refine ⟨h1, fun h' => by linarith, fun _ => ?_, k + 1, by rw [hk]; push_cast; ring⟩
    by_cases hd : d + 360 < -180
    · exact h3 hd
    · rw [h2 (not_lt.1 hd)]; linarith
  | case2 d h =>
    exact ⟨not_lt.1 h, fun _ => rfl, fun h' => absurd h' h, 0, by simp⟩

theorem wrapHigh_spec (d : ℚ) :
    wrapHigh d ≤ 180 ∧ (d ≤ 180 → wrapHigh d = d) ∧ (180 < d → -180 < wrapHigh d) ∧
      ∃ k : ℤ, wrapHigh d = d + 360 * k := by
  fun_induction wrapHigh d with
  | case1 d h ih =>
    obtain ⟨h1, h2, h3, k, hk⟩ := ih
    refine ⟨h1, fun h' => by linarith, fun _ => ?_, k - 1, by rw [hk]; push_cast; ring⟩
    by_cases hd : 180 < d - 360
    · exact h3 hd
    · rw [h2 (not_lt.1 hd)]; linarith
  | case2 d h =>
    exact ⟨not_lt.1 h, fun _ => rfl, fun h' => absurd h' h, 0, by simp⟩

theorem wrapFin_spec (q : ℚ) :
    -180 ≤ wrapFin q ∧ wrapFin q ≤ 180 ∧ (∃ k : ℤ, wrapFin q = q + 360 * k) ∧
      (-180 ≤ q → q ≤ 180 → wrapFin q = q) ∧
      (q < -180 → wrapFin q < 180) ∧ (180 < q → -180 < wrapFin q) := by
  unfold wrapFin
  obtain ⟨l1, l2, l3, k, hk⟩ := wrapLow_spec q
  obtain ⟨h1, h2, h3, j, hj⟩ := wrapHigh_spec (wrapLow q)
  refine ⟨?_, h1, ⟨k + j, by rw [hj, hk]; push_cast; ring⟩, ?_, ?_, ?_⟩
  · by_cases h : 180 < wrapLow q
    · exact (h3 h).le
    · rw [h2 (not_lt.1 h)]; exact l1
  · intro a b
    rw [l2 a, (wrapHigh_spec q).2.1 b]
  · intro h
    rw [h2 (l3 h).le]; exact l3 h
  · intro h
    have : wrapLow q = q := l2 (by linarith)
    exact h3 (by rw [this]; exact h)

theorem wrapFin_unique {q r : ℚ} {k : ℤ} (hr : |r| < 180) (h : q = r + 360 * k) :
    wrapFin q = r := by
  obtain ⟨h1, h2, ⟨j, hj⟩, -, -, -⟩ := wrapFin_spec q
  rw [abs_lt] at hr
  have e : wrapFin q = r + 360 * ((k + j : ℤ) : ℚ) := by rw [hj, h]; push_cast; ring
  have hz : k + j = 0 := by
    have a1 : (-1 : ℚ) < ((k + j : ℤ) : ℚ) := by linarith [hr.1, hr.2]
    have a2 : ((k + j : ℤ) : ℚ) < 1 := by linarith [hr.1, hr.2]
    have b1 : -1 < k + j := by exact_mod_cast a1
    have b2 : k + j < 1 := by exact_mod_cast a2
    omega
  rw [e, hz]; simp

/-- Element-wise version of the first loop. -/
def lowF : Flt → Flt
  | .fin q => .fin (wrapLow q)
  | .posInf => .posInf
  | .negInf => .negInf
  | .nan => .nan

def highF : Flt → Flt
  | .fin q => .fin (wrapHigh q)
  | .posInf => .posInf
  | .negInf => .negInf
  | .nan => .nan

theorem arrLow_eq (a : List Flt) : arrLow a = a.map lowF := by
  fun_induction arrLow a with
  | case1 a h ih =>
    rw [ih, passLow, List.map_map]
    apply List.map_congr_left
    intro x _
    cases x with
    | fin q =>
      by_cases hq : q < -180
      · simp only [Function.comp, maskLow, hq, decide_true, if_true, Flt.add, lowF]
        conv_rhs => rw [wrapLow]
        simp [hq]
      · simp [maskLow, hq, lowF]
    | _ => rfl
  | case2 a h =>
    have h' : ∀ x ∈ a, maskLow x = false := by
      simpa [List.any_eq_true] using h
    symm
    calc a.map lowF = a.map id := by
          apply List.map_congr_left
          intro x hx
          have := h' x hx
          cases x with
          | fin q =>
            have hq : ¬ q < -180 := by simpa [maskLow] using this
            simp only [lowF, id]
            rw [wrapLow]; simp [hq]
          | _ => rfl
      _ = a := by simp

theorem arrHigh_eq (a : List Flt) : arrHigh a = a.map highF := by
  fun_induction arrHigh a with
  | case1 a h ih =>
    rw [ih, passHigh, List.map_map]
    apply List.map_congr_left
    intro x _
    cases x with
    | fin q =>
      by_cases hq : 180 < q
      · simp only [Function.comp, maskHigh, hq, decide_true, if_true, Flt.add, highF]
        conv_rhs => rw [wrapHigh]
        simp [hq, sub_eq_add_neg]
      · simp [maskHigh, hq, highF]
    | _ => rfl
  | case2 a h =>
    have h' : ∀ x ∈ a, maskHigh x = false := by
      simpa [List.any_eq_true] using h
    symm
    calc a.map highF = a.map id := by
          apply List.map_congr_left
          intro x hx
          have := h' x hx
          cases x with
          | fin q =>
            have hq : ¬ 180 < q := by simpa [maskHigh] using this
            simp only [highF, id]
            rw [wrapHigh]; simp [hq]
          | _ => rfl
      _ = a := by simp

end Pizza
