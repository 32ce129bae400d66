import Verif.Model.Measure
import Verif.Model.Symmetrize
import Verif.Lemmas.Basic
import Mathlib.Algebra.BigOperators.Group.List.Basic
import Mathlib.Algebra.Order.BigOperators.Group.List
import Mathlib.Data.List.Perm.Basic
import Mathlib.Tactic.Positivity
import Mathlib.Tactic.Linarith
import Mathlib.Tactic.FieldSimp

/-!
Property C26: the FWHM measure.
-/

namespace Pizza

theorem Img.values_map {α β : Type} (f : α → β) (a : Img α) : (a.map f).values = a.values.map f := by
  simp only [Img.values, Img.map, List.map_flatMap, List.map_map]
  rfl

theorem Img.mem_values {α : Type} (a : Img α) (v : α) :
    v ∈ a.values ↔ ∃ r < a.nrow, ∃ c < a.ncol, a.px r c = v := by
  simp [Img.values]

theorem Img.length_values {α : Type} (a : Img α) : a.values.length = a.nrow * a.ncol := by
  rw [Img.values, flatMap_range_eq]; simp

theorem foldl_max_isGreatest (l : List ℝ) (v : ℝ) :
    l.foldl max v ∈ v :: l ∧ ∀ w ∈ v :: l, w ≤ l.foldl max v := by
  induction l generalizing v with
  | nil => simp
  | cons u l ih =>
    have h := ih (max v u)
    rw [List.foldl_cons]
    refine ⟨?_, ?_⟩
    · rcases List.mem_cons.1 h.1 with h1 | h1
      · rw [h1]
        rcases max_choice v u with h2 | h2 <;> rw [h2] <;> simp
      · simp [h1]
    · intro w hw
      have h3 := h.2 (max v u) (by simp)
      simp only [List.mem_cons] at hw
      rcases hw with rfl | rfl | hw
      · exact le_trans (le_max_left _ _) h3
      · exact le_trans (le_max_right _ _) h3
      · exact h.2 w (by simp [hw])

theorem npMax_iff (l : List ℝ) (m : ℝ) : npMax l = .ok m ↔ m ∈ l ∧ ∀ w ∈ l, w ≤ m := by
  cases l with
  | nil => simp [npMax]
  | cons v l =>
    have h := foldl_max_isGreatest l v
    simp only [npMax, Except.ok.injEq]
    constructor
    · rintro rfl; exact h
    · rintro ⟨h1, h2⟩
      exact le_antisymm (h2 _ h.1) (h.2 _ h1)

/-- `m` is the largest pixel value of the image (specification). -/
def IsMaxOf (im : Img ℝ) (m : ℝ) : Prop :=
  (∃ r < im.nrow, ∃ c < im.ncol, im.px r c = m) ∧ ∀ r < im.nrow, ∀ c < im.ncol, im.px r c ≤ m

theorem npMax_values_iff (im : Img ℝ) (m : ℝ) : npMax im.values = .ok m ↔ IsMaxOf im m := by
  rw [npMax_iff]
  simp only [Img.mem_values, IsMaxOf]
  constructor
  · rintro ⟨h1, h2⟩
    exact ⟨h1, fun r hr c hc => h2 _ ⟨r, hr, c, hc, rfl⟩⟩
  · rintro ⟨h1, h2⟩
    refine ⟨h1, ?_⟩
    rintro w ⟨r, hr, c, hc, rfl⟩
    exact h2 r hr c hc

theorem measureFwhm_of_max (erf : ℝ → ℝ) (im : Img ℝ) (smooth m : ℝ)
    (hm : npMax im.values = .ok m) :
    measureFwhm erf im smooth = .ok (2 * √((im.values.map fun v =>
      (0.5 * (1 + erf ((v / m - 0.5) / smooth)) : ℝ)).sum / Real.pi)) := by
  unfold measureFwhm
  simp only [hm, ok_bind, Img.values_map, List.map_map]
  rfl

/-- C26, the value: with `m` the largest pixel, the FWHM `w` satisfies `π (w/2)^2 = Σ_pixels
(1 + erf((v/m - 1/2)/smooth)) / 2`, the smoothed number of pixels above half of the maximum. -/
theorem C26_area (erf : ℝ → ℝ) (herf : ∀ t, -1 ≤ erf t ∧ erf t ≤ 1) (im : Img ℝ)
    (smooth m : ℝ) (hm : IsMaxOf im m) :
    ∃ w, measureFwhm erf im smooth = .ok w ∧ 0 ≤ w ∧
      Real.pi * (w / 2) ^ 2 =
        ((List.range im.nrow).map fun r => ((List.range im.ncol).map fun c =>
          (1 + erf ((im.px r c / m - 1 / 2) / smooth)) / 2).sum).sum := by
  refine ⟨_, measureFwhm_of_max erf im smooth m ((npMax_values_iff _ _).2 hm), by positivity, ?_⟩
  have hpi := Real.pi_pos
  set S := (im.values.map fun v => (0.5 * (1 + erf ((v / m - 0.5) / smooth)) : ℝ)).sum with hS
  have h0 : 0 ≤ S := by
    rw [hS]
    apply List.sum_nonneg
    intro x hx
    rw [List.mem_map] at hx
    obtain ⟨v, _, rfl⟩ := hx
    have := (herf ((v / m - 0.5) / smooth)).1
    nlinarith
  have : (2 * √(S / Real.pi) / 2) ^ 2 = S / Real.pi := by
    rw [mul_div_cancel_left₀ _ (by norm_num : (2 : ℝ) ≠ 0)]
    exact Real.sq_sqrt (by positivity)
  rw [this, mul_div_cancel₀ _ hpi.ne', hS]
  rw [Img.values, List.map_flatMap, List.flatMap_def, List.sum_flatten, List.map_map]
  refine congrArg List.sum (List.map_congr_left fun r _ => congrArg List.sum ?_)
  simp only [List.map_map]
  refine List.map_congr_left fun c _ => ?_
  simp only [Function.comp]
  norm_num
  ring

/-- A function with values between -1 and 1 (example). -/
theorem exErf (t : ℝ) : -1 ≤ t / (1 + |t|) ∧ t / (1 + |t|) ≤ 1 := by
  have : (0 : ℝ) < 1 + |t| := by positivity
  have h1 := le_abs_self t
  have h2 := neg_abs_le t
  constructor
  · rw [le_div_iff₀ this]; linarith
  · rw [div_le_iff₀ this]; linarith

/-- `C26_area` on an image with the values 1 and 2. -/
example := C26_area (fun t => t / (1 + |t|)) exErf ⟨1, 2, fun _ c => (c : ℝ) + 1⟩ (1/10) 2 (by
  refine ⟨⟨0, by norm_num, 1, by norm_num, by norm_num⟩, ?_⟩
  intro r _ c hc
  have : c = 0 ∨ c = 1 := by simp only at hc; omega
  rcases this with rfl | rfl <;> norm_num)

/-- C26, scale invariance: multiplying the image by a positive constant changes nothing. -/
theorem C26_scale (erf : ℝ → ℝ) (im : Img ℝ) (smooth k : ℝ) (hk : 0 < k) :
    measureFwhm erf (im.map fun v => k * v) smooth = measureFwhm erf im smooth := by
  by_cases h : ∃ m, npMax im.values = .ok m
  · obtain ⟨m, hm⟩ := h
    have hm' : npMax (im.map fun v => k * v).values = .ok (k * m) := by
      rw [npMax_iff] at *
      rw [Img.values_map]
      refine ⟨List.mem_map.2 ⟨m, hm.1, rfl⟩, ?_⟩
      intro w hw
      obtain ⟨v, hv, rfl⟩ := List.mem_map.1 hw
      exact mul_le_mul_of_nonneg_left (hm.2 v hv) hk.le
    rw [measureFwhm_of_max _ _ _ _ hm, measureFwhm_of_max _ _ _ _ hm', Img.values_map, List.map_map]
    congr 5
    apply List.map_congr_left
    intro v _
    simp only [Function.comp]
    rw [mul_div_mul_left _ _ hk.ne']
  · have he : im.values = [] := by
      cases hv : im.values with
      | nil => rfl
      | cons v l => exact absurd ⟨_, by rw [hv]; rfl⟩ h
    have he' : (im.map fun v => k * v).values = [] := by rw [Img.values_map, he]; rfl
    unfold measureFwhm
    rw [he, he']; rfl

/-- `C26_scale` for an image seven times as bright. -/
example (erf : ℝ → ℝ) := C26_scale erf ⟨1, 2, fun _ c => (c : ℝ) + 1⟩ (1/10) 7 (by norm_num)

/-- C26, permutation invariance: images with the same pixel values in any arrangement have the
same FWHM. -/
theorem C26_perm (erf : ℝ → ℝ) (im im' : Img ℝ) (smooth : ℝ) (h : im.values.Perm im'.values) :
    measureFwhm erf im smooth = measureFwhm erf im' smooth := by
  by_cases hm : ∃ m, npMax im.values = .ok m
  · obtain ⟨m, hm⟩ := hm
    have hm' : npMax im'.values = .ok m := by
      rw [npMax_iff] at *
      exact ⟨h.mem_iff.1 hm.1, fun w hw => hm.2 w (h.mem_iff.2 hw)⟩
    rw [measureFwhm_of_max _ _ _ _ hm, measureFwhm_of_max _ _ _ _ hm']
    congr 4
    exact List.Perm.sum_eq (h.map _)
  · have he : im.values = [] := by
      cases hv : im.values with
      | nil => rfl
      | cons v l => exact absurd ⟨_, by rw [hv]; rfl⟩ hm
    have he' : im'.values = [] := by rw [he] at h; exact h.symm.eq_nil
    unfold measureFwhm
    rw [he, he']
    rfl

/-- `C26_perm` for the values 1 and 2 in one row and in one column, the other way round. -/
example (erf : ℝ → ℝ) := C26_perm erf ⟨1, 2, fun _ c => (c : ℝ) + 1⟩ ⟨2, 1, fun r _ => 2 - (r : ℝ)⟩
  (1/10) (by
    have h1 : (⟨1, 2, fun _ c => (c : ℝ) + 1⟩ : Img ℝ).values = [1, 2] := by
      norm_num [Img.values, List.range_succ]
    have h2 : (⟨2, 1, fun r _ => 2 - (r : ℝ)⟩ : Img ℝ).values = [2, 1] := by
      norm_num [Img.values, List.range_succ]
    rw [h1, h2]
    exact List.Perm.swap _ _ _)

/-- Images related by a bijection of their pixels have the same values in some order. -/
theorem values_perm_of_bij {α : Type} (im im' : Img α) (f : Nat × Nat → Nat × Nat)
    (hf : ∀ p, p.1 < im.nrow → p.2 < im.ncol → (f p).1 < im'.nrow ∧ (f p).2 < im'.ncol)
    (hinj : ∀ p q, p.1 < im.nrow → p.2 < im.ncol → q.1 < im.nrow → q.2 < im.ncol →
      f p = f q → p = q)
    (hcard : im.nrow * im.ncol = im'.nrow * im'.ncol)
    (hpx : ∀ p, p.1 < im.nrow → p.2 < im.ncol → im'.px (f p).1 (f p).2 = im.px p.1 p.2) :
    im.values.Perm im'.values := by
  have hval : ∀ a : Img α, (a.values : Multiset α) =
      (Finset.range a.nrow ×ˢ Finset.range a.ncol).val.map fun p => a.px p.1 p.2 := by
    intro a
    have : a.values = ((List.range a.nrow).product (List.range a.ncol)).map fun p => a.px p.1 p.2 := by
      simp only [Img.values, List.product, List.map_flatMap, List.map_map]; rfl
    rw [this, Finset.product_val, Finset.range_val, Finset.range_val, Multiset.range, Multiset.range,
      Multiset.coe_product, Multiset.map_coe]
    rfl
  rw [← Multiset.coe_eq_coe, hval, hval]
  refine Multiset.map_eq_map_of_bij_of_nodup _ _ (Finset.nodup _) (Finset.nodup _) (fun p _ => f p)
    ?_ ?_ ?_ ?_
  · intro p hp
    simp only [Finset.mem_val, Finset.mem_product, Finset.mem_range] at hp ⊢
    exact hf p hp.1 hp.2
  · intro p hp q hq
    simp only [Finset.mem_val, Finset.mem_product, Finset.mem_range] at hp hq
    exact hinj p q hp.1 hp.2 hq.1 hq.2
  · have := Finset.surj_on_of_inj_on_of_card_le (s := Finset.range im.nrow ×ˢ Finset.range im.ncol)
      (t := Finset.range im'.nrow ×ˢ Finset.range im'.ncol) (fun p _ => f p)
      (by
        intro p hp
        simp only [Finset.mem_product, Finset.mem_range] at hp ⊢
        exact hf p hp.1 hp.2)
      (by
        intro p q hp hq
        simp only [Finset.mem_product, Finset.mem_range] at hp hq
        exact hinj p q hp.1 hp.2 hq.1 hq.2)
      (by simp [hcard])
    intro b hb
    obtain ⟨a, ha, h⟩ := this b hb
    exact ⟨a, ha, h.symm⟩
  · intro p hp
    simp only [Finset.mem_val, Finset.mem_product, Finset.mem_range] at hp
    exact (hpx p hp.1 hp.2).symm

/-- C26: rotating by 90 degrees, transposing, and reversing either axis leave the FWHM
unchanged. -/
theorem C26_rotations_flips (erf : ℝ → ℝ) (im : Img ℝ) (smooth : ℝ) :
    measureFwhm erf im.rot90 smooth = measureFwhm erf im smooth ∧
    measureFwhm erf ⟨im.ncol, im.nrow, fun r c => im.px c r⟩ smooth = measureFwhm erf im smooth ∧
    measureFwhm erf ⟨im.nrow, im.ncol, fun r c => im.px (im.nrow - 1 - r) c⟩ smooth =
      measureFwhm erf im smooth ∧
    measureFwhm erf ⟨im.nrow, im.ncol, fun r c => im.px r (im.ncol - 1 - c)⟩ smooth =
      measureFwhm erf im smooth := by
  refine ⟨?_, ?_, ?_, ?_⟩
  · refine C26_perm _ _ _ _ (values_perm_of_bij _ _ (fun p => (p.2, im.ncol - 1 - p.1)) ?_ ?_ ?_ ?_)
    · intro p h1 h2; simp only [Img.rot90] at *; omega
    · rintro ⟨p1, p2⟩ ⟨q1, q2⟩ h1 h2 h3 h4 h
      simp only [Img.rot90, Prod.mk.injEq] at *; omega
    · simp [Img.rot90, Nat.mul_comm]
    · intro p _ _; rfl
  · refine C26_perm _ _ _ _ (values_perm_of_bij _ _ (fun p => (p.2, p.1)) ?_ ?_ ?_ ?_)
    · intro p h1 h2; exact ⟨h2, h1⟩
    · rintro ⟨p1, p2⟩ ⟨q1, q2⟩ h1 h2 h3 h4 h
      simp only [Prod.mk.injEq] at *; omega
    · simp [Nat.mul_comm]
    · intro p _ _; rfl
  · refine C26_perm _ _ _ _ (values_perm_of_bij _ _ (fun p => (im.nrow - 1 - p.1, p.2)) ?_ ?_ ?_ ?_)
    · intro p h1 h2; simp only at *; omega
    · rintro ⟨p1, p2⟩ ⟨q1, q2⟩ h1 h2 h3 h4 h
      simp only [Prod.mk.injEq] at *; omega
    · rfl
    · intro p _ _; rfl
  · refine C26_perm _ _ _ _ (values_perm_of_bij _ _ (fun p => (p.1, im.ncol - 1 - p.2)) ?_ ?_ ?_ ?_)
    · intro p h1 h2; simp only at *; omega
    · rintro ⟨p1, p2⟩ ⟨q1, q2⟩ h1 h2 h3 h4 h
      simp only [Prod.mk.injEq] at *; omega
    · rfl
    · intro p _ _; rfl

/-- C26, bounds: `0 ≤ fwhm ≤ 2 sqrt(npix/π)`; and an empty image raises. -/
theorem C26_bounds (erf : ℝ → ℝ) (herf : ∀ t, -1 ≤ erf t ∧ erf t ≤ 1) (im : Img ℝ) (smooth : ℝ) :
    (0 < im.nrow ∧ 0 < im.ncol → ∃ w, measureFwhm erf im smooth = .ok w ∧ 0 ≤ w ∧
      w ≤ 2 * √((im.nrow * im.ncol : ℕ) / Real.pi)) ∧
    (im.nrow = 0 ∨ im.ncol = 0 → measureFwhm erf im smooth = .error .valueError) := by
  constructor
  · rintro ⟨hr, hc⟩
    have hne : im.values ≠ [] := by
      intro h
      have := im.length_values
      rw [h] at this
      have h2 := Nat.mul_pos hr hc
      rw [← this] at h2
      simp at h2
    obtain ⟨m, hm⟩ : ∃ m, npMax im.values = .ok m := by
      cases hv : im.values with
      | nil => exact absurd hv hne
      | cons v l => exact ⟨_, rfl⟩
    refine ⟨_, measureFwhm_of_max _ _ _ _ hm, by positivity, ?_⟩
    apply mul_le_mul_of_nonneg_left _ (by norm_num)
    apply Real.sqrt_le_sqrt
    apply div_le_div_of_nonneg_right _ Real.pi_pos.le
    rw [← im.length_values]
    have := List.sum_le_card_nsmul (im.values.map fun v =>
      (0.5 * (1 + erf ((v / m - 0.5) / smooth)) : ℝ)) 1 ?_
    · simpa using this
    · intro x hx
      obtain ⟨v, _, rfl⟩ := List.mem_map.1 hx
      have := (herf ((v / m - 0.5) / smooth)).2
      linarith
  · intro h
    have : im.values = [] := by
      rw [← List.length_eq_zero_iff, im.length_values]
      rcases h with h | h <;> simp [h]
    unfold measureFwhm
    rw [this]; rfl

/-- `C26_bounds` on a 3 x 4 image. -/
example := C26_bounds (fun t => t / (1 + |t|)) exErf ⟨3, 4, fun r c => (c : ℝ) + r⟩ (1/10)

/-- The hypotheses on `erf` and on the maximum are satisfiable. -/
example : (∀ t : ℝ, -1 ≤ (fun t : ℝ => t / (1 + |t|)) t ∧ (fun t : ℝ => t / (1 + |t|)) t ≤ 1) ∧
    IsMaxOf ⟨1, 2, fun _ c => (c : ℝ) + 1⟩ 2 := by
  constructor
  · intro t
    have : (0 : ℝ) < 1 + |t| := by positivity
    have h1 := le_abs_self t
    have h2 := neg_abs_le t
    constructor
    · rw [le_div_iff₀ this]; linarith
    · rw [div_le_iff₀ this]; linarith
  · refine ⟨⟨0, by norm_num, 1, by norm_num, by norm_num⟩, ?_⟩
    intro r _ c hc
    have : c = 0 ∨ c = 1 := by simp only at hc; omega
    rcases this with rfl | rfl <;> norm_num

end Pizza
