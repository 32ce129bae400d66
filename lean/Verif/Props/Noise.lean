import Verif.Model.Noise
import Verif.Lemmas.Basic
import Mathlib.Tactic.Linarith
import Mathlib.Data.List.Nodup

/-!
Property C27: the memory mapped noise image.
-/

namespace Pizza

/-- The weight that sets the noise level of a pixel: the fill weight where one is given and the
weight is not positive (specification). -/
def LevelWeight (fill : Option ℝ) (w w' : ℝ) : Prop :=
  (0 < w → w' = w) ∧ (w ≤ 0 → ∀ f, fill = some f → w' = f) ∧ (w ≤ 0 → fill = none → w' = w)

theorem levelWeight_iff (fill : Option ℝ) (w w' : ℝ) :
    LevelWeight fill w w' ↔ w' = fillWeight fill w := by
  unfold LevelWeight fillWeight
  rcases le_or_gt w 0 with h | h
  · cases fill <;> simp [h, not_lt.2 h]
  · cases fill <;> simp [h, not_le.2 h]

theorem nChunks_eq {n s : Nat} (hs : 0 < s) :
    ∃ q, nChunks n s = .ok q ∧ ∀ r < n, r / s < q := by
  unfold nChunks
  rw [if_neg (by omega)]
  refine ⟨_, rfl, ?_⟩
  intro r hr
  have h := Nat.div_add_mod n s
  have hm := Nat.mod_lt n hs
  have hc : s * (n / s) = n / s * s := Nat.mul_comm _ _
  split
  · exact Nat.lt_succ_of_le (Nat.div_le_div_right hr.le)
  · rename_i hq
    rw [Nat.div_lt_iff_lt_mul hs]
    omega

theorem in_chunk_iff {n s i r : Nat} (hs : 0 < s) :
    (i * s ≤ r ∧ r < min (i * s + s) n) ↔ r / s = i ∧ r < n := by
  rw [Nat.div_eq_iff hs]
  omega

theorem rect_index_inj {w i j i' j' : Nat} (hj : j < w) (hj' : j' < w)
    (h : i * w + j = i' * w + j') : i = i' ∧ j = j' := by
  have h1 : (i * w + j) / w = i := by
    rw [Nat.mul_comm, Nat.mul_add_div (by omega), Nat.div_eq_of_lt hj, Nat.add_zero]
  have h2 : (i' * w + j') / w = i' := by
    rw [Nat.mul_comm, Nat.mul_add_div (by omega), Nat.div_eq_of_lt hj', Nat.add_zero]
  have h3 : i = i' := by rw [← h1, ← h2, h]
  refine ⟨h3, ?_⟩
  subst h3; omega

theorem rect_index_lt {h w i j : Nat} (hi : i < h) (hj : j < w) : i * w + j < h * w := by
  calc i * w + j < i * w + w := by omega
    _ = (i + 1) * w := by ring
    _ ≤ h * w := Nat.mul_le_mul_right _ hi

/-- What holds after the chunks `done` have been written, for all streams of draws at once. -/
def NoiseInv (weight : Img ℝ) (fill : Option ℝ) (sx sy : Nat)
    (done : List (Nat × Nat)) (st : (Nat → ℝ) → NoiseState) : Prop :=
  (∀ z, ∀ r < weight.nrow, ∀ c < weight.ncol, (st z).writes r c = done.count (r / sx, c / sy)) ∧
  ∃ (idx : Nat → Nat → Nat) (drawn : Nat), (∀ z, (st z).drawn = drawn) ∧
    (∀ r < weight.nrow, ∀ c < weight.ncol, (r / sx, c / sy) ∈ done →
      idx r c < drawn ∧ ∀ z, (st z).noise r c =
        (sqrtInv (fillWeight fill (weight.px r c))).map fun s => z (idx r c) * s) ∧
    (∀ r < weight.nrow, ∀ c < weight.ncol, ∀ r' < weight.nrow, ∀ c' < weight.ncol,
      (r / sx, c / sy) ∈ done → (r' / sx, c' / sy) ∈ done → idx r c = idx r' c' →
      r = r' ∧ c = c')

theorem noiseInv_step (weight : Img ℝ) (fill : Option ℝ) (sx sy : Nat) (hx : 0 < sx)
    (hy : 0 < sy) (done : List (Nat × Nat)) (cell : Nat × Nat) (_hcell : cell ∉ done)
    (st : (Nat → ℝ) → NoiseState) (h : NoiseInv weight fill sx sy done st) :
    NoiseInv weight fill sx sy (done ++ [cell])
      (fun z => noiseStep z weight fill sx sy (st z) cell) := by
  obtain ⟨hw, idx, drawn, hd, h1, h2⟩ := h
  have key : ∀ r c, (cell.1 * sx ≤ r ∧ r < min (cell.1 * sx + sx) weight.nrow ∧
      cell.2 * sy ≤ c ∧ c < min (cell.2 * sy + sy) weight.ncol) ↔
      (r / sx, c / sy) = cell ∧ r < weight.nrow ∧ c < weight.ncol := by
    intro r c
    have e1 := in_chunk_iff (n := weight.nrow) (i := cell.1) (r := r) hx
    have e2 := in_chunk_iff (n := weight.ncol) (i := cell.2) (r := c) hy
    rw [← and_assoc, e1, e2, Prod.ext_iff]
    tauto
  refine ⟨?_, ?_⟩
  · intro z r hr c hc
    simp only [noiseStep, List.count_append, key, hr, hc, and_true]
    by_cases hq : (r / sx, c / sy) = cell
    · rw [if_pos hq, hw z r hr c hc, hq]; simp
    · rw [if_neg hq, hw z r hr c hc, List.count_singleton, if_neg (by simpa using Ne.symm hq)]
      rfl
  · refine ⟨fun r c => if (r / sx, c / sy) = cell then
      drawn + ((r - cell.1 * sx) * (min (cell.2 * sy + sy) weight.ncol - cell.2 * sy)
        + (c - cell.2 * sy)) else idx r c,
      drawn + (min (cell.1 * sx + sx) weight.nrow - cell.1 * sx) *
        (min (cell.2 * sy + sy) weight.ncol - cell.2 * sy), ?_, ?_, ?_⟩
    · intro z
      simp only [noiseStep, hd]
    · intro r hr c hc hin
      simp only [noiseStep, key, hr, hc, and_true, hd]
      by_cases hq : (r / sx, c / sy) = cell
      · have hk := (key r c).2 ⟨hq, hr, hc⟩
        simp only [if_pos hq]
        refine ⟨?_, fun z => trivial⟩
        apply Nat.add_lt_add_left
        exact rect_index_lt (by omega) (by omega)
      · simp only [if_neg hq]
        have hin' : (r / sx, c / sy) ∈ done := by
          simp only [List.mem_append, List.mem_singleton] at hin
          tauto
        exact ⟨Nat.lt_of_lt_of_le (h1 r hr c hc hin').1 (Nat.le_add_right _ _),
          (h1 r hr c hc hin').2⟩
    · intro r hr c hc r' hr' c' hc' hin hin' he
      simp only [List.mem_append, List.mem_singleton] at hin hin'
      by_cases hq : (r / sx, c / sy) = cell <;> by_cases hq' : (r' / sx, c' / sy) = cell
      · simp only [if_pos hq, if_pos hq'] at he
        have hk := (key r c).2 ⟨hq, hr, hc⟩
        have hk' := (key r' c').2 ⟨hq', hr', hc'⟩
        have := rect_index_inj (by omega) (by omega) (Nat.add_left_cancel he)
        omega
      · simp only [if_pos hq, if_neg hq'] at he
        have := (h1 r' hr' c' hc' (by tauto)).1
        omega
      · simp only [if_neg hq, if_pos hq'] at he
        have := (h1 r hr c hc (by tauto)).1
        omega
      · simp only [if_neg hq, if_neg hq'] at he
        exact h2 r hr c hc r' hr' c' hc' (by tauto) (by tauto) he

theorem noiseInv_foldl (weight : Img ℝ) (fill : Option ℝ) (sx sy : Nat) (hx : 0 < sx)
    (hy : 0 < sy) (todo done : List (Nat × Nat)) (hnd : (done ++ todo).Nodup)
    (st : (Nat → ℝ) → NoiseState) (h : NoiseInv weight fill sx sy done st) :
    NoiseInv weight fill sx sy (done ++ todo)
      (fun z => todo.foldl (noiseStep z weight fill sx sy) (st z)) := by
  induction todo generalizing done st with
  | nil => simpa using h
  | cons cell todo ih =>
    have hc : cell ∉ done := by
      intro hin
      have := List.disjoint_of_nodup_append hnd hin
      simp at this
    have := ih (done ++ [cell]) (by simpa using hnd) _
      (noiseInv_step weight fill sx sy hx hy done cell hc st h)
    simpa using this

/-- C27: for every image shape and all positive chunk sizes the noise image is built, every
pixel is written exactly once, and its value is a unit normal draw times `sqrt(1/w)` with `w`
the weight (or the fill weight where the weight is not positive); no draw is used for two
pixels, and which draw a pixel gets does not depend on the values drawn. -/
theorem C27_noise_image (weight : Img ℝ) (fill : Option ℝ) (sx sy : Nat)
    (hx : 0 < sx) (hy : 0 < sy) :
    ∃ (idx : Nat → Nat → Nat) (drawn : Nat),
      (∀ z, ∃ st, memMappedNoise z weight fill sx sy = .ok st ∧ st.drawn = drawn ∧
        ∀ r < weight.nrow, ∀ c < weight.ncol, st.writes r c = 1 ∧
          ∀ w, LevelWeight fill (weight.px r c) w →
            (0 < w → st.noise r c = some (z (idx r c) * √(1 / w))) ∧
            (w ≤ 0 → st.noise r c = none)) ∧
      (∀ r < weight.nrow, ∀ c < weight.ncol, idx r c < drawn) ∧
      (∀ r < weight.nrow, ∀ c < weight.ncol, ∀ r' < weight.nrow, ∀ c' < weight.ncol,
        idx r c = idx r' c' → r = r' ∧ c = c') := by
  obtain ⟨qx, hqx, hx2⟩ := nChunks_eq (n := weight.nrow) hx
  obtain ⟨qy, hqy, hy2⟩ := nChunks_eq (n := weight.ncol) hy
  set cells := (List.range qx).flatMap fun isx => (List.range qy).map fun isy => (isx, isy)
    with hcells
  have hmem : ∀ r < weight.nrow, ∀ c < weight.ncol, (r / sx, c / sy) ∈ cells := by
    intro r hr c hc
    simp [hcells, hx2 r hr, hy2 c hc]
  have hnd : cells.Nodup := by
    have : cells = List.product (List.range qx) (List.range qy) := rfl
    rw [this]
    exact List.Nodup.product List.nodup_range List.nodup_range
  have hinv := noiseInv_foldl weight fill sx sy hx hy cells [] (by simpa using hnd)
    (fun _ => ⟨fun _ _ => some 0, 0, fun _ _ => 0⟩)
    ⟨by simp, fun _ _ => 0, 0, by simp, by simp, by simp⟩
  rw [List.nil_append] at hinv
  obtain ⟨hw, idx, drawn, hd, h1, h2⟩ := hinv
  refine ⟨idx, drawn, ?_, fun r hr c hc => (h1 r hr c hc (hmem r hr c hc)).1, ?_⟩
  · intro z
    refine ⟨_, by unfold memMappedNoise; rw [hqx, ok_bind, hqy, ok_bind]; rfl, hd z, ?_⟩
    intro r hr c hc
    obtain ⟨h3, h4⟩ := h1 r hr c hc (hmem r hr c hc)
    refine ⟨?_, fun w hlw => ?_⟩
    · refine (hw z r hr c hc).trans ?_
      exact List.count_eq_one_of_mem hnd (hmem r hr c hc)
    rw [levelWeight_iff] at hlw
    have h5 := h4 z
    simp only at h5
    rw [h5, ← hlw]
    refine ⟨fun h => ?_, fun h => ?_⟩
    · simp [sqrtInv, h]
    · simp [sqrtInv, not_lt.2 h]
  · intro r hr c hc r' hr' c' hc' he
    exact h2 r hr c hc r' hr' c' hc' (hmem r hr c hc) (hmem r' hr' c' hc') he

/-- `C27_noise_image` on a 5 x 7 image in blocks of 2 x 3, with one pixel without weight. -/
example := C27_noise_image ⟨5, 7, fun r c => if r = 1 ∧ c = 1 then 0 else 4⟩ (some 4) 2 3
  (by norm_num) (by norm_num)

/-- C27: a zero chunk size raises instead of leaving pixels unset. -/
theorem C27_zero_chunk (z : Nat → ℝ) (weight : Img ℝ) (fill : Option ℝ) (sy : Nat) :
    memMappedNoise z weight fill 0 sy = .error .zeroDivision := rfl

/-- Every pixel has a level weight, and it can be positive although the weight is not. -/
example : LevelWeight (some 4) (-1) 4 ∧ ∀ fill w, ∃ w', LevelWeight fill w w' :=
  ⟨by rw [levelWeight_iff]; norm_num [fillWeight], fun _ _ => ⟨_, (levelWeight_iff _ _ _).2 rfl⟩⟩

end Pizza
