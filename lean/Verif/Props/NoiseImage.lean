import Verif.Model.NoiseImage
import Verif.Props.Noise
import Verif.Props.SEGeom
import Mathlib.Probability.Distributions.Gaussian.Real
import Mathlib.Probability.Independence.Basic
import Mathlib.Probability.Independence.InfinitePi

/-!
Property C101: the noise field of a single epoch image and the zero point scaling.
-/

namespace Pizza

/-- `m` is the largest weight in the image (specification). -/
def IsMaxWeight (wgt : Img ℝ) (m : ℝ) : Prop :=
  IsGreatest {w | ∃ r < wgt.nrow, ∃ c < wgt.ncol, wgt.px r c = w} m

/-- The weight that sets the noise level of a pixel with weight `w`: its own if it is positive,
otherwise the largest in the image (specification). -/
def NoiseWeight (m w v : ℝ) : Prop := (0 < w ∧ v = w) ∨ (w ≤ 0 ∧ v = m)

/-- Some weight is positive (specification). -/
def HasGoodWeight (wgt : Img ℝ) : Prop := ∃ r < wgt.nrow, ∃ c < wgt.ncol, 0 < wgt.px r c

theorem mem_goodWeights (wgt : Img ℝ) (w : ℝ) :
    w ∈ goodWeights wgt ↔ 0 < w ∧ ∃ r < wgt.nrow, ∃ c < wgt.ncol, wgt.px r c = w := by
  unfold goodWeights
  simp only [List.mem_filter, List.mem_flatMap, List.mem_range, List.mem_map, not_le,
    decide_eq_true_eq]
  tauto

theorem foldl_max_greatest (l : List ℝ) (a : ℝ) :
    IsGreatest {x | x ∈ a :: l} (l.foldl max a) := by
  induction l generalizing a with
  | nil => simp [IsGreatest, upperBounds]
  | cons b l ih =>
    obtain ⟨h1, h2⟩ := ih (max a b)
    simp only [List.mem_cons, Set.mem_ofPred_eq, upperBounds] at h1 h2
    constructor
    · simp only [List.mem_cons, Set.mem_ofPred_eq, List.foldl_cons]
      rcases h1 with h | h
      · rcases max_choice a b with hm | hm
        · left; rw [h, hm]
        · right; left; rw [h, hm]
      · right; right; exact h
    · intro x hx
      simp only [List.mem_cons, Set.mem_ofPred_eq] at hx
      have hm : max a b ≤ l.foldl max (max a b) := h2 (Or.inl rfl)
      rcases hx with rfl | rfl | hx
      · exact (le_max_left _ _).trans hm
      · exact (le_max_right _ _).trans hm
      · exact h2 (Or.inr hx)

theorem npMaxGood_ok (wgt : Img ℝ) (h : HasGoodWeight wgt) :
    ∃ m, npMaxGood (goodWeights wgt) = .ok m ∧ IsMaxWeight wgt m ∧ 0 < m := by
  obtain ⟨r, hr, c, hc, hw⟩ := h
  have hmem := (mem_goodWeights wgt _).2 ⟨hw, r, hr, c, hc, rfl⟩
  cases hg : goodWeights wgt with
  | nil => rw [hg] at hmem; simp at hmem
  | cons a l =>
    obtain ⟨h1, h2⟩ := foldl_max_greatest l a
    rw [← hg] at h1 h2
    simp only [Set.mem_ofPred_eq, upperBounds, mem_goodWeights] at h1 h2
    refine ⟨_, rfl, ⟨?_, ?_⟩, h1.1⟩
    · exact h1.2
    · rintro x ⟨r', hr', c', hc', rfl⟩
      rcases le_or_gt (wgt.px r' c') 0 with h0 | h0
      · exact h0.trans h1.1.le
      · exact h2 ⟨h0, r', hr', c', hc', rfl⟩

theorem zpScale_pos (magzp : ℝ) : 0 < zpScale magzp := Real.rpow_pos_of_pos (by norm_num) _

theorem sqrt_inv_scaled {s v : ℝ} (hs : 0 < s) : √(1 / (v / s ^ 2)) = s / √v := by
  rw [one_div_div, Real.sqrt_div (by positivity), Real.sqrt_sq hs.le]

/-- **C101** If some weight is positive the noise image is made, and its value at every pixel, also
at those with weight zero, is a unit normal draw times `scale / sqrt(w)` with `w` the weight of the
pixel, or the largest weight in the image where the weight is not positive.  No draw is used for two
pixels and which draw a pixel gets does not depend on the values drawn. -/
theorem C101_noise_level (wgt : Img ℝ) (magzp : ℝ) (hgood : HasGoodWeight wgt) :
    ∃ (m : ℝ) (idx : Nat → Nat → Nat), IsMaxWeight wgt m ∧ 0 < m ∧
      (∀ z, ∃ st, noiseImageImpl z wgt (zpScale magzp) = .ok st ∧
        ∀ r < wgt.nrow, ∀ c < wgt.ncol, ∀ v, NoiseWeight m (wgt.px r c) v →
          st.noise r c = some (z (idx r c) * (zpScale magzp / √v))) ∧
      (∀ r < wgt.nrow, ∀ c < wgt.ncol, ∀ r' < wgt.nrow, ∀ c' < wgt.ncol,
        idx r c = idx r' c' → r = r' ∧ c = c') := by
  obtain ⟨m, hm, hmax, hpos⟩ := npMaxGood_ok wgt hgood
  have hs := zpScale_pos magzp
  obtain ⟨idx, drawn, h1, h2, h3⟩ := C27_noise_image (filledWeight wgt m (zpScale magzp)) none 1024 1024
    (by norm_num) (by norm_num)
  refine ⟨m, idx, hmax, hpos, fun z => ?_, h3⟩
  obtain ⟨st, hst, _, hpx⟩ := h1 z
  refine ⟨st, by unfold noiseImageImpl; rw [hm, ok_bind]; exact hst, ?_⟩
  intro r hr c hc v hv
  have hvpos : 0 < v := by rcases hv with ⟨h, rfl⟩ | ⟨h, rfl⟩ <;> assumption
  have hfill : (filledWeight wgt m (zpScale magzp)).px r c = v / zpScale magzp ^ 2 := by
    unfold filledWeight
    rcases hv with ⟨h, rfl⟩ | ⟨h, rfl⟩
    · simp [not_le.2 h]
    · simp [h]
  have hq : 0 < v / zpScale magzp ^ 2 := by positivity
  have hlv : LevelWeight none ((filledWeight wgt m (zpScale magzp)).px r c) (v / zpScale magzp ^ 2) := by
    rw [hfill]
    exact ⟨fun _ => rfl, fun h => absurd hq (not_lt.2 h), fun _ _ => rfl⟩
  rw [((hpx r hr c hc).2 _ hlv).1 hq, sqrt_inv_scaled hs]

/-- **C101** An image without a positive weight has no noise field: ValueError. -/
theorem C101_no_good_weight (z : Nat → ℝ) (wgt : Img ℝ) (scale : ℝ) (h : ¬ HasGoodWeight wgt) :
    noiseImageImpl z wgt scale = .error .valueError := by
  have : goodWeights wgt = [] := by
    rw [List.eq_nil_iff_forall_not_mem]
    intro w hw
    obtain ⟨h0, r, hr, c, hc, rfl⟩ := (mem_goodWeights wgt w).1 hw
    exact h ⟨r, hr, c, hc, h0⟩
  unfold noiseImageImpl
  rw [this]
  rfl

/-- **C101** The noise fields of the slices are windows of one field: whatever box inside the image is
read, its pixel `(i, j)` holds the value of image pixel `(y0 + i, x0 + j)`, so overlapping slices agree;
and at every pixel where the `weight` of the slice is positive its standard deviation per unit draw
is `1 / sqrt(weight)`. -/
theorem C101_slices (wgt : Img ℝ) (magzp : ℝ) (hgood : HasGoodWeight wgt) :
    ∃ idx : Nat → Nat → Nat,
      (∀ r < wgt.nrow, ∀ c < wgt.ncol, ∀ r' < wgt.nrow, ∀ c' < wgt.ncol,
        idx r c = idx r' c' → r = r' ∧ c = c') ∧
      ∀ z, ∃ field : Nat → Nat → ℝ, ∀ y0 x0 box : Nat, y0 + box ≤ wgt.nrow → x0 + box ≤ wgt.ncol →
        ∃ n, sliceNoise z wgt (zpScale magzp) y0 x0 box = .ok n ∧ n.nrow = box ∧ n.ncol = box ∧
          ∀ i < box, ∀ j < box, n.px i j = some (field (y0 + i) (x0 + j)) ∧
            ∀ w, w = wgt.px (y0 + i) (x0 + j) / zpScale magzp ^ 2 → 0 < w →
              n.px i j = some (z (idx (y0 + i) (x0 + j)) * (1 / √w)) := by
  obtain ⟨m, idx, _, _, h1, h2⟩ := C101_noise_level wgt magzp hgood
  have hs := zpScale_pos magzp
  refine ⟨idx, h2, fun z => ?_⟩
  obtain ⟨st, hst, hpx⟩ := h1 z
  refine ⟨fun r c => (st.noise r c).getD 0, fun y0 x0 box hy hx => ?_⟩
  have p1 : pySliceIdx wgt.nrow (y0 : ℤ) = y0 := by
    unfold pySliceIdx; rw [if_neg (by omega)]; omega
  have p2 : pySliceIdx wgt.nrow ((y0 : ℤ) + box) = y0 + box := by
    unfold pySliceIdx; rw [if_neg (by omega)]; omega
  have p3 : pySliceIdx wgt.ncol (x0 : ℤ) = x0 := by
    unfold pySliceIdx; rw [if_neg (by omega)]; omega
  have p4 : pySliceIdx wgt.ncol ((x0 : ℤ) + box) = x0 + box := by
    unfold pySliceIdx; rw [if_neg (by omega)]; omega
  refine ⟨_, by unfold sliceNoise; rw [hst, ok_bind]; rfl, ?_, ?_, ?_⟩
  · simp only [NoiseState.getItem, Img.slice, p1, p2]; omega
  · simp only [NoiseState.getItem, Img.slice, p3, p4]; omega
  · intro i hi j hj
    simp only [NoiseState.getItem, Img.slice, p1, p3]
    have hv : ∃ v, NoiseWeight m (wgt.px (y0 + i) (x0 + j)) v := by
      rcases le_or_gt (wgt.px (y0 + i) (x0 + j)) 0 with h | h
      · exact ⟨_, Or.inr ⟨h, rfl⟩⟩
      · exact ⟨_, Or.inl ⟨h, rfl⟩⟩
    obtain ⟨v, hv⟩ := hv
    have hval := hpx (y0 + i) (by omega) (x0 + j) (by omega) v hv
    refine ⟨by rw [hval]; rfl, ?_⟩
    rintro w rfl hw
    have hpos : 0 < wgt.px (y0 + i) (x0 + j) := by
      by_contra hneg
      exact absurd hw (not_lt.2 (div_nonpos_of_nonpos_of_nonneg (not_lt.1 hneg) (by positivity)))
    rw [hpx (y0 + i) (by omega) (x0 + j) (by omega) _ (Or.inl ⟨hpos, rfl⟩), ← sqrt_inv_scaled hs,
      one_div, Real.sqrt_inv, one_div]

/-- C27, windows: a window inside the noise image holds, pixel by pixel, the values of the whole image, so the same
window read twice, and two windows where they overlap, have equal values. -/
theorem C27_windows (st : NoiseState) (nrow ncol : Nat) (y0 y1 x0 x1 : Nat) (hy : y1 ≤ nrow) (hx : x1 ≤ ncol) :
    (st.getItem (nrow, ncol) y0 y1 x0 x1).nrow = y1 - y0 ∧ (st.getItem (nrow, ncol) y0 y1 x0 x1).ncol = x1 - x0 ∧
    (∀ r c, y0 ≤ r → r < y1 → x0 ≤ c → c < x1 →
      (st.getItem (nrow, ncol) y0 y1 x0 x1).px (r - y0) (c - x0) = st.noise r c) ∧
    ∀ v0 v1 u0 u1 : Nat, v1 ≤ nrow → u1 ≤ ncol → ∀ r c, y0 ≤ r → r < y1 → x0 ≤ c → c < x1 →
      v0 ≤ r → r < v1 → u0 ≤ c → c < u1 →
      (st.getItem (nrow, ncol) y0 y1 x0 x1).px (r - y0) (c - x0) =
        (st.getItem (nrow, ncol) v0 v1 u0 u1).px (r - v0) (c - u0) := by
  have key : ∀ a0 a1 b0 b1 : Nat, a1 ≤ nrow → b1 ≤ ncol → ∀ r c, a0 ≤ r → r < a1 → b0 ≤ c → c < b1 →
      (st.getItem (nrow, ncol) a0 a1 b0 b1).px (r - a0) (c - b0) = st.noise r c := by
    intro a0 a1 b0 b1 h1 h2 r c h3 h4 h5 h6
    have q1 : pySliceIdx nrow (a0 : ℤ) = a0 := by
      unfold pySliceIdx; rw [if_neg (by omega)]; omega
    have q2 : pySliceIdx ncol (b0 : ℤ) = b0 := by
      unfold pySliceIdx; rw [if_neg (by omega)]; omega
    simp only [NoiseState.getItem, Img.slice, q1, q2]
    rw [Nat.add_sub_cancel' h3, Nat.add_sub_cancel' h5]
  have idx : ∀ n a : Nat, (pySliceIdx n (a : ℤ)) = min a n := by
    intro n a
    unfold pySliceIdx; rw [if_neg (by omega)]; omega
  refine ⟨?_, ?_, key y0 y1 x0 x1 hy hx, ?_⟩
  · simp only [NoiseState.getItem, Img.slice, idx]; omega
  · simp only [NoiseState.getItem, Img.slice, idx]; omega
  · intro v0 v1 u0 u1 h1 h2 r c h3 h4 h5 h6 h7 h8 h9 h10
    rw [key y0 y1 x0 x1 hy hx r c h3 h4 h5 h6, key v0 v1 u0 u1 h1 h2 r c h7 h8 h9 h10]

/-- The hypotheses of `C27_windows` are met, by windows that overlap. -/
example : ∃ r c : Nat, (1 ≤ r ∧ r < 4 ∧ 0 ≤ c ∧ c < 3) ∧ (2 ≤ r ∧ r < 5 ∧ 2 ≤ c ∧ c < 6) := ⟨3, 2, by omega, by omega⟩

open MeasureTheory ProbabilityTheory in
/-- **C101** If the draws are independent unit normals, the pixels of the noise image are independent,
and each is normal with mean zero and variance `scale² / w`: the variance of the image pixel after the
zero point scaling, if its weight `w` is positive, and otherwise that of the pixel of largest weight. -/
theorem C101_law {Ω : Type} [MeasurableSpace Ω] (P : Measure Ω) (Z : Nat → Ω → ℝ)
    (hlaw : ∀ k, HasLaw (Z k) (gaussianReal 0 1) P) (hind : iIndepFun Z P) (wgt : Img ℝ) (magzp : ℝ)
    (hgood : HasGoodWeight wgt) (m : ℝ) (hm : IsMaxWeight wgt m) :
    ∃ X : Nat → Nat → Ω → ℝ,
      (∀ ω, ∃ st, noiseImageImpl (fun k => Z k ω) wgt (zpScale magzp) = .ok st ∧
        ∀ r < wgt.nrow, ∀ c < wgt.ncol, st.noise r c = some (X r c ω)) ∧
      (∀ r < wgt.nrow, ∀ c < wgt.ncol, ∀ v, NoiseWeight m (wgt.px r c) v →
        HasLaw (X r c) (gaussianReal 0 (zpScale magzp ^ 2 / v).toNNReal) P) ∧
      iIndepFun (fun p : {p : Nat × Nat // p.1 < wgt.nrow ∧ p.2 < wgt.ncol} => X p.1.1 p.1.2) P := by
  obtain ⟨m', idx, hm', hpos, h1, h2⟩ := C101_noise_level wgt magzp hgood
  have hmm : m' = m := hm'.unique hm
  subst hmm
  have hs := zpScale_pos magzp
  classical
  have hlev : ∀ r c, ∃ v, NoiseWeight m' (wgt.px r c) v ∧ 0 < v := by
    intro r c
    rcases le_or_gt (wgt.px r c) 0 with h | h
    · exact ⟨_, Or.inr ⟨h, rfl⟩, hpos⟩
    · exact ⟨_, Or.inl ⟨h, rfl⟩, h⟩
  choose lev hl hlpos using hlev
  refine ⟨fun r c ω => Z (idx r c) ω * (zpScale magzp / √(lev r c)), ?_, ?_, ?_⟩
  · intro ω
    obtain ⟨st, hst, hpx⟩ := h1 fun k => Z k ω
    exact ⟨st, hst, fun r hr c hc => hpx r hr c hc _ (hl r c)⟩
  · intro r hr c hc v hv
    have hvl : v = lev r c := by
      rcases hv with ⟨a, rfl⟩ | ⟨a, rfl⟩ <;> rcases hl r c with ⟨b, e⟩ | ⟨b, e⟩ <;>
        first | exact e.symm | exact absurd a (not_lt.2 b) | exact absurd b (not_lt.2 a)
    have := gaussianReal_mul_const (hlaw (idx r c)) (zpScale magzp / √(lev r c))
    simp only [mul_zero, mul_one] at this
    convert this using 2
    ext
    rw [Real.coe_toNNReal _ (by rw [hvl]; have := hlpos r c; positivity), hvl]
    simp [div_pow, Real.sq_sqrt (hlpos r c).le]
  · have := hind.precomp (g := fun p : {p : Nat × Nat // p.1 < wgt.nrow ∧ p.2 < wgt.ncol} =>
      idx p.1.1 p.1.2) (by
        rintro ⟨⟨r, c⟩, hr, hc⟩ ⟨⟨r', c'⟩, hr', hc'⟩ he
        obtain ⟨e1, e2⟩ := h2 r hr c hc r' hr' c' hc' he
        simp [e1, e2])
    exact this.comp (fun p x => x * (zpScale magzp / √(lev p.1.1 p.1.2))) fun p => by fun_prop

/-- A weight map with a positive, a zero and a negative weight. -/
def exWgt : Img ℝ := ⟨2, 2, fun r c => if r = 0 ∧ c = 0 then 4 else if r = 0 then 0 else if c = 0 then -1 else 1⟩

example : HasGoodWeight exWgt ∧ IsMaxWeight exWgt 4 ∧ NoiseWeight 4 (exWgt.px 1 0) 4 ∧
    NoiseWeight 4 (exWgt.px 1 1) 1 ∧ ¬ HasGoodWeight ⟨3, 2, fun _ _ => 0⟩ := by
  refine ⟨⟨0, by simp [exWgt], 0, by simp [exWgt], by norm_num [exWgt]⟩,
    ⟨⟨0, by simp [exWgt], 0, by simp [exWgt], by norm_num [exWgt]⟩, ?_⟩,
    Or.inr ⟨by norm_num [exWgt], rfl⟩, Or.inl ⟨by norm_num [exWgt], by norm_num [exWgt]⟩, ?_⟩
  · rintro x ⟨r, _, c, _, rfl⟩
    simp only [exWgt]
    split_ifs <;> norm_num
  · rintro ⟨r, _, c, _, h⟩
    exact absurd h (by simp)

open MeasureTheory ProbabilityTheory in
/-- `C101_law`: there are independent unit normal draws. -/
example : ∃ (P : Measure (Nat → ℝ)) (Z : Nat → (Nat → ℝ) → ℝ),
    (∀ k, HasLaw (Z k) (gaussianReal 0 1) P) ∧ iIndepFun Z P := by
  refine ⟨Measure.infinitePi fun _ => gaussianReal 0 1, fun k ω => ω k, ?_, ?_⟩
  · intro k
    exact (measurePreserving_eval_infinitePi (fun _ : Nat => gaussianReal 0 1) k).hasLaw
  · exact iIndepFun_infinitePi (P := fun _ : Nat => gaussianReal 0 1) (X := fun _ x => x)
      (fun _ => measurable_id)

/-- **C101** After the zero point scaling the counts of a source of magnitude `mag` are those for the
reference zero point 30, whatever the zero point of its image, and the weight `w / scale²` that goes
with them leaves the squared signal to noise ratio as it was. -/
theorem C101_zero_point (magzp mag w : ℝ) :
    (10 : ℝ) ^ ((0.4 : ℝ) * (magzp - mag)) * zpScale magzp = (10 : ℝ) ^ ((0.4 : ℝ) * (30 - mag)) ∧
    ∀ v : ℝ, (v * zpScale magzp) ^ 2 * (w / zpScale magzp ^ 2) = v ^ 2 * w := by
  have hs := zpScale_pos magzp
  constructor
  · unfold zpScale
    rw [← Real.rpow_add (by norm_num)]
    congr 1
    ring
  · intro v
    field_simp

/-- `C101_noise_level`, `C101_slices` and `C101_no_good_weight`: the weights of the example, and a map without any. -/
example := And.intro
  (C101_noise_level exWgt 30 ⟨0, by simp [exWgt], 0, by simp [exWgt], by norm_num [exWgt]⟩)
  (And.intro (C101_slices exWgt 30 ⟨0, by simp [exWgt], 0, by simp [exWgt], by norm_num [exWgt]⟩)
    (C101_no_good_weight (fun _ => 1) ⟨3, 2, fun _ _ => 0⟩ 2 (by rintro ⟨r, _, c, _, h⟩; exact absurd h (by simp))))

end Pizza
