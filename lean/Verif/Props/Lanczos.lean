import Verif.Lemmas.Lanczos
import Verif.Spec.Lanczos
import Mathlib.Tactic.NormNum.Abs
import Mathlib.Tactic.FieldSimp
import Mathlib.Tactic.Tauto

/-!
Properties C28, C29, C30, C31, C32, C33, C34, C89: Lanczos resampling and the approximate sinc.

All statements are over an arbitrary ordered field with a floor, in particular over the reals.
-/

set_option linter.unusedSectionVars false

namespace Pizza

section
variable {K : Type} [Field K] [LinearOrder K] [IsStrictOrderedRing K] [FloorRing K]

/-! ### Auxiliary facts -/

theorem inKernel_iff (a : ℤ) (p : K) (k : Nat) :
    InKernel a p k ↔ (k : ℤ) ∈ Finset.Icc (⌊p⌋ - a + 1) (⌊p⌋ + a) := by
  rw [Finset.mem_Icc]
  have h1 : (⌊p⌋ - a + 1 ≤ (k : ℤ)) ↔ p - a < k := by
    have : (⌊p⌋ - a + 1 ≤ (k : ℤ)) ↔ ⌊p⌋ < (k : ℤ) + a := by omega
    rw [this, Int.floor_lt]
    push_cast
    constructor <;> intro h <;> linarith
  have h2 : ((k : ℤ) ≤ ⌊p⌋ + a) ↔ (k : K) ≤ p + a := by
    have : ((k : ℤ) ≤ ⌊p⌋ + a) ↔ (k : ℤ) - a ≤ ⌊p⌋ := by omega
    rw [this, Int.le_floor]
    push_cast
    constructor <;> intro h <;> linarith
  rw [h1, h2]; rfl

theorem resampled_iff (im : Img K) (a : ℤ) (y x v : K) (e : Bool) :
    Resampled im a y x v e ↔ a ≤ 3 ∧ v = lanczosSum im a y x ∧
      e = outOfBounds im.ncol im.nrow (⌊x⌋ - a + 1) (⌊x⌋ + a) (⌊y⌋ - a + 1) (⌊y⌋ + a) := by
  unfold Resampled lanczosResample
  split
  · rename_i h
    rw [mapM_ok (g := fun p => (lanczosSum im a p.1 p.2, outOfBounds im.ncol im.nrow
      (⌊p.2⌋ - a + 1) (⌊p.2⌋ + a) (⌊p.1⌋ - a + 1) (⌊p.1⌋ + a)))]
    · simp [h, eq_comm]
    · intro p _; exact lanczosOne_eq _ _ _ _
  · rename_i h; simp [h]

open Classical in
/-- One dimensional kernel, cut off outside the kernel's range. -/
noncomputable def kcut (a : ℤ) (p : K) (k : Nat) : K :=
  if InKernel a p k then kern a (p - k) else 0

theorem sum_Icc_range (n : Nat) (s e : ℤ) (g : ℤ → K)
    (hg : ∀ r, ¬ (0 ≤ r ∧ r < (n : ℤ)) → g r = 0) :
    ∑ r ∈ Finset.Icc s e, g r =
      ∑ r ∈ Finset.range n, if (r : ℤ) ∈ Finset.Icc s e then g r else 0 := by
  rw [← Finset.sum_filter]
  symm
  apply Finset.sum_of_injOn (fun r : Nat => (r : ℤ))
  · intro i _ j _ h; simpa using h
  · intro i hi
    simp only [Finset.coe_filter, Set.mem_ofPred_eq] at hi
    exact hi.2
  · intro r hr hn
    apply hg
    intro h
    apply hn
    refine ⟨r.toNat, ?_, by simp; omega⟩
    simp only [Finset.coe_filter, Set.mem_ofPred_eq, Finset.mem_range]
    refine ⟨by omega, ?_⟩
    rw [Int.toNat_of_nonneg h.1]; exact hr
  · intro i _; rfl

theorem lanczosSum_eq (im : Img K) (a : ℤ) (y x : K) :
    lanczosSum im a y x = ∑ r ∈ Finset.range im.nrow, ∑ c ∈ Finset.range im.ncol,
      im.px r c * (kcut a x c * kcut a y r) := by
  unfold lanczosSum
  rw [sum_Icc_range im.nrow]
  · apply Finset.sum_congr rfl
    intro r hr
    rw [Finset.mem_range] at hr
    have hrow : ∑ c ∈ Finset.Icc (⌊x⌋ - a + 1) (⌊x⌋ + a),
        ext im (r : ℤ) c * (kern a (x - c) * kern a (y - ((r : ℤ) : K))) =
        ∑ c ∈ Finset.range im.ncol, im.px r c * (kcut a x c * kern a (y - r)) := by
      rw [sum_Icc_range im.ncol]
      · apply Finset.sum_congr rfl
        intro c hc
        rw [Finset.mem_range] at hc
        rw [ext_in im (by omega) (by omega) (by omega) (by omega)]
        simp only [Int.toNat_natCast, Int.cast_natCast, kcut, inKernel_iff]
        split <;> simp
      · intro c hc
        rw [ext_out im (by omega), zero_mul]
    split
    · rename_i h
      rw [hrow]
      apply Finset.sum_congr rfl
      intro c _
      simp only [kcut, inKernel_iff a y, if_pos h]
    · rename_i h
      symm
      apply Finset.sum_eq_zero
      intro c _
      simp only [kcut, inKernel_iff a y, if_neg h, mul_zero]
  · intro r hr
    apply Finset.sum_eq_zero
    intro c _
    rw [ext_out im (by omega), zero_mul]

/-! ### C33 -/

/-- C33: the approximate sinc never divides by zero, is even, and vanishes at ±1, ±2, ±3. -/
theorem C33_sinc_pade (x : K) :
    (∃ v, sincPade x = .ok v) ∧ sincPade (-x) = sincPade x ∧
      (|x| = 1 ∨ |x| = 2 ∨ |x| = 3 → sincPade x = .ok 0) := by
  refine ⟨⟨_, sincPade_eq x⟩, by simp only [sincPade_eq, sincVal_neg], ?_⟩
  intro h
  have key : ∀ x : K, sincVal |x| = sincVal x := fun x => by simp [sincVal]
  rw [sincPade_eq, ← key]
  rcases h with h | h | h <;> rw [h]
  · rw [sincVal_one]
  · rw [sincVal_two]
  · rw [sincVal_three]

/-- C33, the value at 0: not exactly 1 as documented. -/
theorem C33_sinc_pade_zero : sincPade (0 : K) = .ok 0.999999999999996 := by
  rw [sincPade_eq, sincVal_zero]

example : |(-2 : ℚ)| = 1 ∨ |(-2 : ℚ)| = 2 ∨ |(-2 : ℚ)| = 3 := by norm_num

/-! ### C89: the value -/

open Classical in
/-- C89: the resampled value is the sum over the pixels of the image in the kernel of the pixel
value times `L(x - c) * L(y - r)`, where `L(d) = S(d) * S(d/a)` and `S` is the approximate
sinc. -/
theorem C89_value (S : K → K) (hS : ∀ t, sincPade t = .ok (S t)) (im : Img K) (a : ℤ)
    (ha : a ≤ 3) (y x : K) :
    ∃ e, Resampled im a y x
      (∑ r ∈ Finset.range im.nrow, ∑ c ∈ Finset.range im.ncol,
        if InKernel a y r ∧ InKernel a x c then
          im.px r c * ((S (x - c) * S ((x - c) / a)) * (S (y - r) * S ((y - r) / a))) else 0) e := by
  refine ⟨_, (resampled_iff _ _ _ _ _ _).2 ⟨ha, ?_, rfl⟩⟩
  have hS' : ∀ t, S t = sincVal t := fun t => by
    have := hS t
    rw [sincPade_eq] at this
    exact (Except.ok.inj this).symm
  rw [lanczosSum_eq]
  refine Finset.sum_congr rfl fun r _ => Finset.sum_congr rfl fun c _ => ?_
  simp only [hS', kcut, kern]
  by_cases h1 : InKernel a y r <;> by_cases h2 : InKernel a x c <;> simp [h1, h2]

/-- Such an `S` exists. -/
example : ∃ S : ℚ → ℚ, ∀ t, sincPade t = .ok (S t) := ⟨sincVal, sincPade_eq⟩

/-! ### C29 -/

/-- C29, memory safety and independence of positions: with `a ≤ 3` resampling never fails
(no read outside the image, no zero division), and each position gets what it would get
alone. -/
theorem C29_total_pointwise (im : Img K) (pos : List (K × K)) (a : ℤ) (ha : a ≤ 3) :
    ∃ out, lanczosResample im pos a = .ok out ∧ out.length = pos.length ∧
      ∀ (i : Nat) (y x : K), pos[i]? = some (y, x) →
        ∃ v e, out[i]? = some (v, e) ∧ Resampled im a y x v e := by
  have h := mapM_ok pos (fun p => lanczosOne im a p.1 p.2) _ (fun p _ => lanczosOne_eq im a p.1 p.2)
  refine ⟨_, by unfold lanczosResample; rw [if_pos ha]; exact h, by simp, ?_⟩
  intro i y x hi
  refine ⟨_, _, by rw [List.getElem?_map, hi]; rfl, ?_⟩
  rw [resampled_iff]
  exact ⟨ha, rfl, rfl⟩

/-- There is a value at every position of every image (used in the examples below). -/
theorem resampled_exists (im : Img ℚ) (y x : ℚ) : ∃ v e, Resampled im 3 y x v e :=
  ⟨_, _, (resampled_iff _ _ _ _ _ _).2 ⟨by norm_num, rfl, rfl⟩⟩

/-- `C29_total_pointwise` at three positions, one of them far outside. -/
example := C29_total_pointwise (⟨4, 5, fun r c => r + 2 * c⟩ : Img ℚ) [(1/2, 7/3), (-100, 0), (2, 2)] 3
  (by norm_num)

/-- C29: larger kernels are refused. -/
theorem C29_large_kernel (im : Img K) (pos : List (K × K)) (a : ℤ) (ha : 3 < a) :
    lanczosResample im pos a = .error .assertionError := by
  unfold lanczosResample; rw [if_neg (by omega)]

/-- `C29_large_kernel` for a kernel of size 4. -/
example := C29_large_kernel (⟨4, 5, fun r c => r + 2 * c⟩ : Img ℚ) [(1/2, 7/3)] 4 (by norm_num)

/-- C29, locality: images of the same shape that agree on the pixels at distance at most `a` in
each coordinate give the same result. -/
theorem C29_local (im im' : Img K) (a : ℤ) (y x v : K) (e : Bool)
    (h1 : im'.nrow = im.nrow) (h2 : im'.ncol = im.ncol)
    (hpx : ∀ r < im.nrow, ∀ c < im.ncol, |y - r| ≤ a → |x - c| ≤ a → im'.px r c = im.px r c)
    (h : Resampled im a y x v e) : Resampled im' a y x v e := by
  rw [resampled_iff] at h ⊢
  obtain ⟨ha, hv, he⟩ := h
  refine ⟨ha, ?_, by rw [he, h1, h2]⟩
  rw [hv, lanczosSum_eq, lanczosSum_eq, h1, h2]
  refine Finset.sum_congr rfl fun r hr => Finset.sum_congr rfl fun c hc => ?_
  rw [Finset.mem_range] at hr hc
  have hin : ∀ {p : K} {k : Nat}, InKernel a p k → |p - k| ≤ a := by
    intro p k h
    rw [abs_le]
    constructor <;> linarith [h.1, h.2]
  by_cases h1 : InKernel a y r
  · by_cases h2 : InKernel a x c
    · rw [hpx r hr c hc (hin h1) (hin h2)]
    · simp [kcut, h2]
  · simp [kcut, h1]

/-- The hypotheses of `C29_local` with images that differ far from the position. -/
example : ∃ im im' : Img ℚ, im'.nrow = im.nrow ∧ im'.ncol = im.ncol ∧ im'.px 0 9 ≠ im.px 0 9 ∧
    ∀ r < im.nrow, ∀ c < im.ncol, |(0 : ℚ) - r| ≤ 2 → |(1 : ℚ) - c| ≤ 2 → im'.px r c = im.px r c := by
  refine ⟨⟨1, 10, fun _ _ => 0⟩, ⟨1, 10, fun _ c => if c = 9 then 1 else 0⟩, rfl, rfl, by simp, ?_⟩
  intro r _ c _ _ hc
  have : c ≠ 9 := by
    rintro rfl
    norm_num [abs_le] at hc
  simp [this]

/-! ### C28 -/

/-- C28: a position is flagged as edge iff no pixel of the image is in the kernel, and then the
value is 0 (non-empty images, kernel size 1, 2 or 3). -/
theorem C28_edge_iff (im : Img K) (a : ℤ) (y x v : K) (e : Bool) (ha : 1 ≤ a)
    (hr : 0 < im.nrow) (hc : 0 < im.ncol) (h : Resampled im a y x v e) :
    (e = true ↔ ∀ r < im.nrow, ∀ c < im.ncol, ¬ (InKernel a y r ∧ InKernel a x c)) ∧
      (e = true → v = 0) := by
  rw [resampled_iff] at h
  obtain ⟨ha3, hv, he⟩ := h
  have key : e = true ↔ ∀ r < im.nrow, ∀ c < im.ncol, ¬ (InKernel a y r ∧ InKernel a x c) := by
    rw [he]
    simp only [outOfBounds, inKernel_iff, Finset.mem_Icc, Bool.or_eq_true, decide_eq_true_eq]
    constructor
    · rintro h r hr c hc ⟨h1, h2⟩
      omega
    · intro h
      by_contra hn
      push Not at hn
      refine h (max 0 (⌊y⌋ - a + 1)).toNat (by omega) (max 0 (⌊x⌋ - a + 1)).toNat (by omega) ?_
      omega
  refine ⟨key, fun h => ?_⟩
  rw [hv, lanczosSum_eq]
  refine Finset.sum_eq_zero fun r hr => Finset.sum_eq_zero fun c hc => ?_
  rw [Finset.mem_range] at hr hc
  have := key.1 h r hr c hc
  by_cases h1 : InKernel a y r
  · have h2 : ¬ InKernel a x c := fun h2 => this ⟨h1, h2⟩
    simp [kcut, h2]
  · simp [kcut, h1]

/-- `C28_edge_iff` for a kernel partly outside a 4 x 5 image. -/
example : ∃ v e, Resampled (⟨4, 5, fun r c => r + 2 * c⟩ : Img ℚ) 3 (-3/2) (7/3) v e ∧
    (e = true ↔ ∀ r < 4, ∀ c < 5, ¬ (InKernel 3 (-3/2 : ℚ) r ∧ InKernel 3 (7/3 : ℚ) c)) := by
  obtain ⟨v, e, h⟩ := resampled_exists ⟨4, 5, fun r c => r + 2 * c⟩ (-3/2) (7/3)
  exact ⟨_, _, h, (C28_edge_iff _ 3 _ _ _ _ (by norm_num) (by decide) (by decide) h).1⟩

/-- The hypotheses of C28 are met, by flagged and unflagged positions; a kernel that is only
partly inside is not flagged (the documentation says it is). -/
theorem C28_truncated_not_flagged :
    (∃ v, Resampled (⟨4, 4, fun _ _ => (1 : ℚ)⟩ : Img ℚ) 3 (-1) 0 v false) ∧
    (∃ v, Resampled (⟨4, 4, fun _ _ => (1 : ℚ)⟩ : Img ℚ) 3 (-4) 0 v true) := by
  constructor
  · refine ⟨_, (resampled_iff _ _ _ _ _ _).2 ⟨by norm_num, rfl, ?_⟩⟩
    have : ⌊(-1 : ℚ)⌋ = -1 := by rw [Int.floor_eq_iff]; norm_num
    have h0 : ⌊(0 : ℚ)⌋ = 0 := by simp
    rw [this, h0]
    decide
  · refine ⟨_, (resampled_iff _ _ _ _ _ _).2 ⟨by norm_num, rfl, ?_⟩⟩
    have : ⌊(-4 : ℚ)⌋ = -4 := by rw [Int.floor_eq_iff]; norm_num
    have h0 : ⌊(0 : ℚ)⌋ = 0 := by simp
    rw [this, h0]
    decide

/-- On an image without pixels the flag is not always set: the condition 'no kernel pixel in the
image' holds everywhere but the position `(0, 0)` is unflagged. -/
theorem C28_empty_image : ∃ v, Resampled (⟨0, 0, fun _ _ => (1 : ℚ)⟩ : Img ℚ) 3 0 0 v false := by
  refine ⟨_, (resampled_iff _ _ _ _ _ _).2 ⟨by norm_num, rfl, ?_⟩⟩
  have h0 : ⌊(0 : ℚ)⌋ = 0 := by simp
  rw [h0]
  decide

/-! ### C30 -/

/-- C30: resampling is linear in the image, and the edge flag does not depend on pixel values. -/
theorem C30_linear (im1 im2 im : Img K) (s t : K) (a : ℤ) (y x v1 v2 : K) (e1 e2 : Bool)
    (hr : im1.nrow = im.nrow ∧ im2.nrow = im.nrow) (hc : im1.ncol = im.ncol ∧ im2.ncol = im.ncol)
    (hpx : ∀ r < im.nrow, ∀ c < im.ncol, im.px r c = s * im1.px r c + t * im2.px r c)
    (h1 : Resampled im1 a y x v1 e1) (h2 : Resampled im2 a y x v2 e2) :
    Resampled im a y x (s * v1 + t * v2) e1 ∧ e1 = e2 := by
  rw [resampled_iff] at *
  obtain ⟨ha, hv1, he1⟩ := h1
  obtain ⟨_, hv2, he2⟩ := h2
  refine ⟨⟨ha, ?_, ?_⟩, ?_⟩
  · rw [hv1, hv2, lanczosSum_eq, lanczosSum_eq, lanczosSum_eq, hr.1, hr.2, hc.1, hc.2,
      Finset.mul_sum, Finset.mul_sum, ← Finset.sum_add_distrib]
    refine Finset.sum_congr rfl fun r hr => ?_
    rw [Finset.mul_sum, Finset.mul_sum, ← Finset.sum_add_distrib]
    refine Finset.sum_congr rfl fun c hc => ?_
    rw [Finset.mem_range] at hr hc
    rw [hpx r hr c hc]; ring
  · rw [he1, hr.1, hc.1]
  · rw [he1, he2, hr.1, hc.1, hr.2, hc.2]

/-- `C30_linear` for twice one image less half of another (values exist by
`resampled_exists`). -/
example (v1 v2 : ℚ) (e1 e2 : Bool) (h1 : Resampled (⟨4, 5, fun r _ => r⟩ : Img ℚ) 3 (1/2) (7/3) v1 e1)
    (h2 : Resampled (⟨4, 5, fun _ c => c⟩ : Img ℚ) 3 (1/2) (7/3) v2 e2) :=
  C30_linear ⟨4, 5, fun r _ => (r : ℚ)⟩ ⟨4, 5, fun _ c => c⟩ ⟨4, 5, fun r c => (2 : ℚ) * r + -(1/2) * c⟩ 2 (-(1/2)) 3 _ _ v1 v2 e1 e2
    ⟨rfl, rfl⟩ ⟨rfl, rfl⟩ (fun _ _ _ _ => rfl) h1 h2

/-! ### C31 -/

/-- C31: resampling two images of equal shape at once gives exactly what two separate calls
give. -/
theorem C31_two (im1 im2 : Img K) (hr : im1.nrow = im2.nrow) (hc : im1.ncol = im2.ncol)
    (pos : List (K × K)) (a : ℤ) (ha : a ≤ 3) :
    ∃ o1 o2 out, lanczosResample im1 pos a = .ok o1 ∧ lanczosResample im2 pos a = .ok o2 ∧
      lanczosResampleTwo im1 im2 pos a = .ok out ∧
      out.length = pos.length ∧ o1.length = pos.length ∧ o2.length = pos.length ∧
      ∀ (i : Nat) (v1 v2 : K) (e1 e2 : Bool), o1[i]? = some (v1, e1) → o2[i]? = some (v2, e2) →
        e1 = e2 ∧ out[i]? = some (v1, v2, e1) := by
  have h1 := mapM_ok pos (fun p => lanczosOne im1 a p.1 p.2) _ (fun p _ => lanczosOne_eq im1 a p.1 p.2)
  have h2 := mapM_ok pos (fun p => lanczosOne im2 a p.1 p.2) _ (fun p _ => lanczosOne_eq im2 a p.1 p.2)
  have h3 := mapM_ok pos (fun p => lanczosOne2 im1 im2 a p.1 p.2) _
    (fun p _ => lanczosOne2_eq im1 im2 hr hc a p.1 p.2)
  refine ⟨_, _, _, by unfold lanczosResample; rw [if_pos ha]; exact h1,
    by unfold lanczosResample; rw [if_pos ha]; exact h2,
    by unfold lanczosResampleTwo; exact h3, by simp, by simp, by simp, ?_⟩
  intro i v1 v2 e1 e2 hi1 hi2
  rw [List.getElem?_map] at *
  cases hp : pos[i]? with
  | none => rw [hp] at hi1; cases hi1
  | some p =>
    rw [hp] at hi1 hi2
    simp only [Option.map_some, Option.some.injEq, Prod.mk.injEq] at *
    obtain ⟨hv1, he1⟩ := hi1
    obtain ⟨hv2, he2⟩ := hi2
    refine ⟨?_, hv1, hv2, he1⟩
    rw [← he1, ← he2, hr, hc]

/-- `C31_two` on two 4 x 5 images at two positions. -/
example := C31_two (⟨4, 5, fun r _ => r⟩ : Img ℚ) ⟨4, 5, fun _ c => c⟩ rfl rfl [(1/2, 7/3), (-100, 0)] 3
  (by norm_num)

/-! ### C32 -/

theorem kcut_int {a : ℤ} (ha : 1 ≤ a) (ha3 : a ≤ 3) (p k : Nat) :
    kcut a (p : K) k = if k = p then (0.999999999999996 : K) ^ 2 else 0 := by
  unfold kcut
  split
  · rename_i h
    split
    · rename_i hk
      subst hk
      simp only [kern, sub_self, zero_div, sincVal_zero]; ring
    · rename_i hk
      rw [inKernel_iff, Finset.mem_Icc] at h
      have : ⌊((p : Nat) : K)⌋ = (p : ℤ) := by simp
      rw [this] at h
      have h0 : sincVal ((p : K) - k) = 0 := by
        have := sincVal_int (K := K) (d := (p : ℤ) - k) (by omega) (by rw [abs_le]; omega)
        simpa using this
      simp [kern, h0]
  · rename_i h
    split
    · rename_i hk
      subst hk
      exfalso
      apply h
      have : (0 : K) < a := by exact_mod_cast (by omega : (0 : ℤ) < a)
      exact ⟨by linarith, by linarith⟩
    · rfl

/-- C32: at an integer position inside the image the value is the pixel value times a constant
within 2e-14 of 1 (so it is the pixel value up to that relative error), and the position is not
flagged. -/
theorem C32_integer_positions (im : Img K) (a : ℤ) (ha : 1 ≤ a) (ha3 : a ≤ 3) (i j : Nat)
    (hi : i < im.nrow) (hj : j < im.ncol) :
    ∃ v, Resampled im a i j v false ∧ |v - im.px i j| ≤ 2e-14 * |im.px i j| ∧
      (im.px i j = 0 → v = 0) ∧ (im.px i j ≠ 0 → v ≠ im.px i j) := by
  have hv : lanczosSum im a (i : K) (j : K) = im.px i j * (0.999999999999996 : K) ^ 4 := by
    rw [lanczosSum_eq]
    simp only [kcut_int ha ha3]
    rw [Finset.sum_eq_single i]
    · rw [Finset.sum_eq_single j]
      · rw [if_pos rfl, if_pos rfl]; ring
      · intro c _ hc; simp [hc]
      · intro h; exact absurd (Finset.mem_range.2 hj) h
    · intro r _ hr; simp [hr]
    · intro h; exact absurd (Finset.mem_range.2 hi) h
  refine ⟨_, (resampled_iff _ _ _ _ _ _).2 ⟨ha3, rfl, ?_⟩, ?_, ?_, ?_⟩
  · simp only [outOfBounds, Int.floor_natCast]
    symm
    simp only [Bool.or_eq_false_iff, decide_eq_false_iff_not]
    omega
  · rw [hv]
    have : im.px i j * (0.999999999999996 : K) ^ 4 - im.px i j =
        im.px i j * ((0.999999999999996 : K) ^ 4 - 1) := by ring
    rw [this, abs_mul, mul_comm]
    apply mul_le_mul_of_nonneg_right _ (abs_nonneg _)
    rw [abs_le]
    constructor <;> norm_num
  · intro h; rw [hv, h, zero_mul]
  · intro h he
    rw [hv] at he
    have h1 : im.px i j * ((0.999999999999996 : K) ^ 4 - 1) = 0 := by linarith
    rcases mul_eq_zero.1 h1 with h2 | h2
    · exact h h2
    · norm_num at h2

/-- `C32_integer_positions` at a pixel of value 7. -/
example := C32_integer_positions (⟨4, 5, fun r c => r + 2 * c⟩ : Img ℚ) 3 (by norm_num) (by norm_num)
  3 2 (by decide) (by decide)

/-! ### C34 -/

/-- C34, shifts: moving the image by whole pixels and the position with it leaves the value
unchanged. -/
theorem C34_shift (im im' : Img K) (s t : ℤ) (hs : ShiftedBy im im' s t) (a : ℤ) (y x v : K)
    (e : Bool) (h : Resampled im a y x v e) : ∃ e', Resampled im' a (y + s) (x + t) v e' := by
  rw [resampled_iff] at h
  refine ⟨_, (resampled_iff _ _ _ _ _ _).2 ⟨h.1, ?_, rfl⟩⟩
  rw [h.2.1]
  unfold lanczosSum
  have e1 : ∀ (p : K) (z : ℤ), Finset.Icc (⌊p + z⌋ - a + 1) (⌊p + z⌋ + a) =
      (Finset.Icc (⌊p⌋ - a + 1) (⌊p⌋ + a)).map (addRightEmbedding z) := by
    intro p z
    rw [Finset.map_add_right_Icc, Int.floor_add_intCast]
    congr 1 <;> ring
  rw [e1, e1, Finset.sum_map]
  refine Finset.sum_congr rfl fun r _ => ?_
  rw [Finset.sum_map]
  refine Finset.sum_congr rfl fun c _ => ?_
  have := hs r c
  simp only [addRightEmbedding_apply]
  have hx : ext im' (r + s) (c + t) = ext im r c := this
  rw [hx]
  congr 3 <;> push_cast <;> ring

/-- `C34_shift`: a single pixel moved into the corner of a larger zero image. -/
example : ∃ v e e', Resampled (⟨1, 1, fun _ _ => (5 : ℚ)⟩ : Img ℚ) 3 (1/2) (7/3) v e ∧
    Resampled (⟨3, 3, fun r c => if r = 2 ∧ c = 1 then 5 else 0⟩ : Img ℚ) 3 (1/2 + (2 : ℤ))
      (7/3 + (1 : ℤ)) v e' := by
  obtain ⟨v, e, h⟩ := resampled_exists ⟨1, 1, fun _ _ => 5⟩ (1/2) (7/3)
  obtain ⟨e', h'⟩ := C34_shift _ ⟨3, 3, fun r c => if r = 2 ∧ c = 1 then 5 else 0⟩ 2 1 (by
    intro r c
    simp only [Img.getZ?]
    by_cases h : r = 0 ∧ c = 0
    · obtain ⟨rfl, rfl⟩ := h; simp
    · have h1 : ¬ (0 ≤ r ∧ r < ((1 : Nat) : ℤ) ∧ 0 ≤ c ∧ c < ((1 : Nat) : ℤ)) := by omega
      rw [if_neg h1]
      split
      · have : ¬ ((r + 2).toNat = 2 ∧ (c + 1).toNat = 1) := by omega
        simp only [Option.getD_some, Option.getD_none, if_neg this]
      · rfl) 3 _ _ _ _ h
  exact ⟨_, _, e', h, h'⟩

/-- A 1×1 image moved into the corner of a larger zero image. -/
example : ShiftedBy (⟨1, 1, fun _ _ => (5 : ℚ)⟩ : Img ℚ)
    ⟨3, 3, fun r c => if r = 2 ∧ c = 1 then 5 else 0⟩ 2 1 := by
  intro r c
  simp only [Img.getZ?]
  by_cases h : r = 0 ∧ c = 0
  · obtain ⟨rfl, rfl⟩ := h; simp
  · have h1 : ¬ (0 ≤ r ∧ r < ((1 : Nat) : ℤ) ∧ 0 ≤ c ∧ c < ((1 : Nat) : ℤ)) := by omega
    rw [if_neg h1]
    split
    · have : ¬ ((r + 2).toNat = 2 ∧ (c + 1).toNat = 1) := by omega
      simp only [Option.getD_some, Option.getD_none, if_neg this]
    · rfl

/-- C34, transposition. -/
theorem C34_transpose (im im' : Img K) (h1 : im'.nrow = im.ncol) (h2 : im'.ncol = im.nrow)
    (hpx : ∀ r < im.nrow, ∀ c < im.ncol, im'.px c r = im.px r c) (a : ℤ) (y x v : K)
    (e : Bool) (h : Resampled im a y x v e) : Resampled im' a x y v e := by
  rw [resampled_iff] at *
  refine ⟨h.1, ?_, ?_⟩
  · rw [h.2.1, lanczosSum_eq, lanczosSum_eq, h1, h2, Finset.sum_comm]
    refine Finset.sum_congr rfl fun r hr => Finset.sum_congr rfl fun c hc => ?_
    rw [Finset.mem_range] at hr hc
    rw [hpx c hc r hr]; ring
  · rw [h.2.2, h1, h2]
    simp only [outOfBounds]
    rw [Bool.eq_iff_iff]
    simp only [Bool.or_eq_true]
    tauto

/-- `C34_transpose` on a 4 x 5 image. -/
example : ∃ v e, Resampled (⟨4, 5, fun r c => r + 2 * c⟩ : Img ℚ) 3 (1/2) (7/3) v e ∧
    Resampled (⟨5, 4, fun c r => r + 2 * c⟩ : Img ℚ) 3 (7/3) (1/2) v e := by
  obtain ⟨v, e, h⟩ := resampled_exists ⟨4, 5, fun r c => r + 2 * c⟩ (1/2) (7/3)
  exact ⟨_, _, h, C34_transpose _ ⟨5, 4, fun c r => (r : ℚ) + 2 * c⟩ rfl rfl (fun _ _ _ _ => rfl) 3 _ _ _ _ h⟩

theorem kcut_reflect {a : ℤ} (ha : a ≤ 3) (n : Nat) (p : K) {k : Nat} (hk : k < n) :
    kcut a ((n : K) - 1 - p) k = kcut a p (n - 1 - k) := by
  have hcast : ((n - 1 - k : Nat) : K) = (n : K) - 1 - k := by
    rw [Nat.cast_sub (by omega), Nat.cast_sub (by omega)]; simp
  have hd : kern a ((n : K) - 1 - p - k) = kern a (p - ((n - 1 - k : Nat) : K)) := by
    rw [← kern_neg]; congr 1; rw [hcast]; ring
  by_cases h1 : InKernel a ((n : K) - 1 - p) k <;> by_cases h2 : InKernel a p (n - 1 - k)
  · simp only [kcut, if_pos h1, if_pos h2, hd]
  · simp only [kcut, if_pos h1, if_neg h2, hd]
    -- the reflected position is at distance exactly `a`
    have : p - ((n - 1 - k : Nat) : K) = a := by
      obtain ⟨g1, g2⟩ := h1
      unfold InKernel at h2
      rw [hcast] at h2 ⊢
      push Not at h2
      by_contra hne
      have h3 : p - a < (n : K) - 1 - k := by
        rcases lt_or_eq_of_le (by linarith : p - a ≤ (n : K) - 1 - k) with h | h
        · exact h
        · exact absurd (by linarith) hne
      have := h2 h3
      linarith
    have hpos : 1 ≤ a := by
      obtain ⟨g1, g2⟩ := h1
      have : (0 : K) < a := by linarith
      have : (0 : ℤ) < a := by exact_mod_cast this
      omega
    rw [this, kern, sincVal_int (by omega) (by rw [abs_le]; omega), zero_mul]
  · simp only [kcut, if_neg h1, if_pos h2]
    have : p - ((n - 1 - k : Nat) : K) = -a := by
      obtain ⟨g1, g2⟩ := h2
      unfold InKernel at h1
      rw [hcast] at g1 g2 ⊢
      push Not at h1
      by_contra hne
      have h3 : (n : K) - 1 - p - a < k := by
        rcases lt_or_eq_of_le (by linarith : (n : K) - 1 - p - a ≤ k) with h | h
        · exact h
        · exact absurd (by linarith) hne
      have := h1 h3
      linarith
    have hpos : 1 ≤ a := by
      obtain ⟨g1, g2⟩ := h2
      have : (0 : K) < a := by linarith
      have : (0 : ℤ) < a := by exact_mod_cast this
      omega
    rw [this, kern_neg, kern, sincVal_int (by omega) (by rw [abs_le]; omega), zero_mul]
  · simp only [kcut, if_neg h1, if_neg h2]

/-- C34, reversing the rows and reflecting the row position. -/
theorem C34_flip_rows (im im' : Img K) (h1 : im'.nrow = im.nrow) (h2 : im'.ncol = im.ncol)
    (hpx : ∀ r < im.nrow, ∀ c < im.ncol, im'.px r c = im.px (im.nrow - 1 - r) c) (a : ℤ)
    (y x v : K) (e : Bool) (h : Resampled im a y x v e) :
    ∃ e', Resampled im' a ((im.nrow : K) - 1 - y) x v e' := by
  rw [resampled_iff] at h
  refine ⟨_, (resampled_iff _ _ _ _ _ _).2 ⟨h.1, ?_, rfl⟩⟩
  rw [h.2.1, lanczosSum_eq, lanczosSum_eq, h1, h2, ← Finset.sum_range_reflect]
  refine Finset.sum_congr rfl fun r hr => Finset.sum_congr rfl fun c hc => ?_
  rw [Finset.mem_range] at hr hc
  rw [hpx r hr c hc, kcut_reflect h.1 _ _ hr]

/-- `C34_flip_rows` on a 4 x 5 image (values exist by `resampled_exists`). -/
example (v : ℚ) (e : Bool)
    (h : Resampled (⟨4, 5, fun r c => r + 2 * c⟩ : Img ℚ) 3 (1/2) (7/3) v e) :=
  C34_flip_rows ⟨4, 5, fun r c => (r : ℚ) + 2 * c⟩
    ⟨4, 5, fun r c => ((4 - 1 - r : ℕ) : ℚ) + 2 * c⟩ rfl rfl (fun _ _ _ _ => rfl) 3 _ _ v e h

/-- C34, reversing the columns and reflecting the column position. -/
theorem C34_flip_cols (im im' : Img K) (h1 : im'.nrow = im.nrow) (h2 : im'.ncol = im.ncol)
    (hpx : ∀ r < im.nrow, ∀ c < im.ncol, im'.px r c = im.px r (im.ncol - 1 - c)) (a : ℤ)
    (y x v : K) (e : Bool) (h : Resampled im a y x v e) :
    ∃ e', Resampled im' a y ((im.ncol : K) - 1 - x) v e' := by
  rw [resampled_iff] at h
  refine ⟨_, (resampled_iff _ _ _ _ _ _).2 ⟨h.1, ?_, rfl⟩⟩
  rw [h.2.1, lanczosSum_eq, lanczosSum_eq, h1, h2]
  refine Finset.sum_congr rfl fun r hr => ?_
  rw [← Finset.sum_range_reflect]
  refine Finset.sum_congr rfl fun c hc => ?_
  rw [Finset.mem_range] at hr hc
  rw [hpx r hr c hc, kcut_reflect h.1 _ _ hc]

/-- `C34_flip_cols` on a 4 x 5 image (values exist by `resampled_exists`). -/
example (v : ℚ) (e : Bool)
    (h : Resampled (⟨4, 5, fun r c => r + 2 * c⟩ : Img ℚ) 3 (1/2) (7/3) v e) :=
  C34_flip_cols ⟨4, 5, fun r c => (r : ℚ) + 2 * c⟩
    ⟨4, 5, fun r c => (r : ℚ) + 2 * ((5 - 1 - c : ℕ) : ℚ)⟩ rfl rfl (fun _ _ _ _ => rfl) 3 _ _ v e h

/-- The hypothesis `Resampled` of the theorems above can always be met for `a ≤ 3`. -/
example (im : Img ℚ) : ∃ v e, Resampled im 3 (1/2) (7/3) v e :=
  ⟨_, _, (resampled_iff _ _ _ _ _ _).2 ⟨by norm_num, rfl, rfl⟩⟩

end
end Pizza
